import Verif.Lemmas.SexAccept
import Verif.Props.ObsDate
/-!
  Verif.Lemmas.DateAccept : every text in the columns of the date is either a date of Spec.ObsDate or refused.
-/
namespace Verif.Sex
open Verif Flt Verif.Spec.Packing

theorem mkDate_inv {y m d : Nat} {t : DateTime} (h : mkDate y m d = .ok t) : t = ⟨y, m, d, 0⟩ ∧ 1 ≤ y ∧ y ≤ 9999 ∧ 1 ≤ m ∧ m ≤ 12 ∧ 1 ≤ d ∧ d ≤ daysIn y m := by
  unfold mkDate at h
  split at h
  · rename_i hc; injection h with h; exact ⟨h.symm, hc⟩
  · cases h

/-- a date that exists -/
def Exists (t : DateTime) : Prop := 1 ≤ t.year ∧ t.year ≤ 9999 ∧ 1 ≤ t.month ∧ t.month ≤ 12 ∧ 1 ≤ t.day ∧ t.day ≤ daysIn t.year t.month

theorem strptime_inv {re : Re} {s : Str} {t : DateTime} (h : strptime re s = .ok t) : Exists t := by
  unfold strptime at h
  split at h
  · cases h
  · split at h
    · cases h
    · simp only [bind, Except.bind] at h
      split at h
      · cases h
      split at h
      · cases h
      split at h
      · cases h
      split at h
      · cases h
      split at h
      · cases h
      split at h
      · cases h
      split at h
      · cases h
      split at h
      · cases h
      rename_i hm
      obtain ⟨rfl, hv⟩ := mkDate_inv hm
      split at h
      · injection h with h
        rw [← h]
        exact hv
      · cases h

theorem after_point {digits k : Nat} (hd : digits ≠ 0) : ((decText digits k).dropWhile (· ≠ '.')).drop 1 = Spec.fixed digits (k % 10 ^ digits) := by
  have hn : ∀ c ∈ natStr (k / 10 ^ digits), c ≠ '.' := by
    intro c hc e
    have := natStr_mem _ c hc
    rw [e] at this
    revert this; decide
  rw [decText_append hd]
  have : ∀ (a b : Str), (∀ c ∈ a, c ≠ '.') → (a ++ '.' :: b).dropWhile (· ≠ '.') = '.' :: b := by
    intro a b ha
    induction a with
    | nil => simp
    | cons c a ih =>
      have h1 := ha c List.mem_cons_self
      have h2 := ih fun x hx => ha x (List.mem_cons_of_mem _ hx)
      simp only [ne_eq, decide_not] at h2
      simp [h1, h2]
  rw [this _ _ hn]
  rfl

theorem fday_pos (a b : Nat) : ∃ q : ℚ, fday a b = ⟨false, q⟩ := by
  have e : ∀ n : Nat, ofInt (n : Int) = ⟨false, rnd (n : ℚ)⟩ := by
    intro n
    unfold ofInt
    push_cast
    exact ofRat_nonneg (by positivity)
  have e1 : ofInt 86400 = ⟨false, 86400⟩ := by decide +kernel
  have e2 : ofInt 1000000 = ⟨false, 1000000⟩ := by decide +kernel
  unfold fday
  rw [e, e, e1, e2, div_pos', div_pos', div_pos', add_pos (rnd_nonneg _) (rnd_nonneg _)]
  exact ⟨_, rfl⟩

theorem isoToSexDate_inv {s u : Str} {n : Nat} (hn : 1 ≤ n) (hn6 : n ≤ 6) (h : isoToSexDate s (.int (10 ^ (6 - n))) = .ok u) :
    ∃ t f, Exists t ∧ f < 10 ^ n ∧ u = natStr t.year ++ [' '] ++ two2 t.month ++ [' '] ++ two2 t.day ++ ['.'] ++ ljust 6 (Spec.fixed n f) := by
  obtain ⟨p1, p2, p3⟩ := prec_digits hn hn6
  have key : ∃ t, Exists t ∧ backCore t (.int (10 ^ (6 - n))) = .ok u := by
    cases h1 : strptime strptimeFrac s with
    | ok t => exact ⟨t, strptime_inv h1, by rw [← back_frac h1]; exact h⟩
    | error e =>
      cases h2 : strptime strptimeWhole s with
      | ok t =>
        by_cases he : e = .valueError
        · subst he
          exact ⟨t, strptime_inv h2, by rw [← back_whole h1 h2]; exact h⟩
        · exfalso
          unfold isoToSexDate at h
          rw [h1] at h
          cases e <;> first | exact he rfl | cases h
      | error e2 =>
        exfalso
        unfold isoToSexDate at h
        rw [h1, h2] at h
        cases e <;> cases h
  obtain ⟨t, ht, h⟩ := key
  unfold backCore at h
  rw [if_neg p1, p3, if_neg (by omega), Int.toNat_natCast] at h
  injection h with h
  obtain ⟨q, hq⟩ := fday_pos (t.us / 1000000) (t.us % 1000000)
  rw [hq, fmtF_pos, after_point (by omega)] at h
  exact ⟨t, _, ht, Nat.mod_lt _ (by positivity), h.symm⟩

theorem rng_digit {a b c : Char} (hs : (List.range 128).all (fun n => !(decide (a.toNat ≤ n) && decide (n ≤ b.toNat)) || (decide (48 ≤ n) && decide (n < 58))) = true)
    (hb : b.toNat < 128) (h : rng a b c = true) : 48 ≤ c.toNat ∧ c.toNat < 58 ∧ a.toNat ≤ c.toNat := by
  simp only [rng, Bool.and_eq_true, decide_eq_true_eq] at h
  have := List.all_eq_true.1 hs c.toNat (List.mem_range.2 (by omega))
  simp only [Bool.or_eq_true, Bool.not_eq_true', Bool.and_eq_false_iff, decide_eq_false_iff_not, Bool.and_eq_true, decide_eq_true_eq] at this
  omega

theorem decVal_ascii {c : Char} (h1 : 48 ≤ c.toNat) (h2 : c.toNat < 58) : decVal c = some (c.toNat - 48) := by
  unfold decVal decZeros
  rw [List.find?_cons_of_pos (by simp; omega)]
  rfl

theorem ch_iff {a c : Char} : ch a c = true ↔ c = a := by
  simp only [ch, beq_iff_eq]
  constructor
  · intro h; rw [← Char.ofNat_toNat c, h, Char.ofNat_toNat]
  · rintro rfl; rfl

theorem year_value {a b c d : Char} {x y : Nat} (ha : decVal a = some x) (hb : decVal b = some y) (hc : isDec c = true) (hd : isDec d = true)
    (h : 16 ≤ 10 * x + y) : Digits0 [a, b, c, d] ∧ 1600 ≤ value [a, b, c, d] := by
  constructor
  · intro z hz
    simp only [List.mem_cons, List.not_mem_nil, or_false] at hz
    rcases hz with rfl | rfl | rfl | rfl
    · simp [isDec, ha]
    · simp [isDec, hb]
    · exact hc
    · exact hd
  · simp only [value, List.foldl_cons, List.foldl_nil, ha, hb, Option.getD_some]
    omega

theorem pair_parse {p q : Char → Bool} {c t : Str} {k : Caps} (h : (Re.seq (.cls p) (.cls q)).parse c t k) :
    ∃ a b, c = [a, b] ∧ p a = true ∧ q b = true ∧ k = [] := by
  obtain ⟨_, _, _, _, ⟨⟨a, ha, rfl⟩, rfl⟩, ⟨⟨b, hb, rfl⟩, rfl⟩, rfl, rfl⟩ := h
  exact ⟨a, b, rfl, ha, hb, rfl⟩

theorem century_parse {c t : Str} {k : Caps}
    (h : (alts [lit ['1', '6'], lit ['1', '7'], lit ['1', '8'], lit ['1', '9'], cat [.cls (rng '2' '9'), .cls isDec]]).parse c t k) :
    ∃ a b x y, c = [a, b] ∧ decVal a = some x ∧ decVal b = some y ∧ 16 ≤ 10 * x + y ∧ k = [] := by
  simp only [alts, lit, cat, List.map_cons, List.map_nil] at h
  rcases h with h | h | h | h | h
  all_goals obtain ⟨a, b, rfl, ha, hb, rfl⟩ := pair_parse h
  · rw [ch_iff.1 ha, ch_iff.1 hb]; exact ⟨'1', '6', 1, 6, rfl, by decide, by decide, by omega, rfl⟩
  · rw [ch_iff.1 ha, ch_iff.1 hb]; exact ⟨'1', '7', 1, 7, rfl, by decide, by decide, by omega, rfl⟩
  · rw [ch_iff.1 ha, ch_iff.1 hb]; exact ⟨'1', '8', 1, 8, rfl, by decide, by decide, by omega, rfl⟩
  · rw [ch_iff.1 ha, ch_iff.1 hb]; exact ⟨'1', '9', 1, 9, rfl, by decide, by decide, by omega, rfl⟩
  · obtain ⟨h1, h2, h3⟩ := rng_digit (by decide +kernel) (by decide) ha
    rw [isDec, Option.isSome_iff_exists] at hb
    obtain ⟨y, hy⟩ := hb
    have : ('2' : Char).toNat = 50 := rfl
    exact ⟨a, b, a.toNat - 48, y, rfl, decVal_ascii h1 h2, hy, by omega, rfl⟩

theorem month_caps {c t : Str} {k : Caps}
    (h : (alts [cat [.cls (ch '0'), .cls (rng '1' '9')], lit ['1', '0'], lit ['1', '1'], lit ['1', '2']]).parse c t k) : k = [] := by
  simp only [alts, lit, cat, List.map_cons, List.map_nil] at h
  rcases h with h | h | h | h
  all_goals obtain ⟨_, _, _, _, _, rfl⟩ := pair_parse h
  all_goals rfl

theorem day_caps {c t : Str} {k : Caps}
    (h : (alts [cat [.cls (ch '0'), .cls (rng '1' '9')], cat [.cls (oneOf ['1', '2']), .cls isDec], lit ['3', '0'], lit ['3', '1']]).parse c t k) : k = [] := by
  simp only [alts, lit, cat, List.map_cons, List.map_nil] at h
  rcases h with h | h | h | h
  all_goals obtain ⟨_, _, _, _, _, rfl⟩ := pair_parse h
  all_goals rfl

theorem step_cls {p : Char → Bool} {r : Re} {c t : Str} {k : Caps} (h : (Re.seq (.cls p) r).parse c t k) :
    ∃ a c2, p a = true ∧ r.parse c2 t k ∧ c = a :: c2 := by
  obtain ⟨_, c2, _, k2, ⟨⟨a, ha, e1⟩, e2⟩, h2, e3, e4⟩ := h
  refine ⟨a, c2, ha, ?_, by rw [e3, e1]; rfl⟩
  rw [e4, e2]
  exact h2

theorem step_grp {n : Nat} {q r : Re} {c t : Str} {k : Caps} (h : (Re.seq (.grp n q) r).parse c t k) :
    ∃ c1 c2 k1 k2, q.parse c1 (c2 ++ t) k1 ∧ r.parse c2 t k2 ∧ c = c1 ++ c2 ∧ k = (n, c1) :: (k1 ++ k2) := by
  obtain ⟨c1, c2, _, k2, ⟨k1, h1, e1⟩, h2, e3, e4⟩ := h
  refine ⟨c1, c2, k1, k2, h1, h2, e3, ?_⟩
  rw [e4, e1]
  rfl

/-- the groups of the date pattern, around any patterns of the century, of the month and of the day -/
theorem date_split {C M D : Re} {c t : Str} {m : Caps}
    (hp : (Re.seq (.grp 1 (.seq C (.seq (.cls isDec) (.cls isDec)))) (.seq (.cls (ch ' ')) (.seq (.grp 2 M) (.seq (.cls (ch ' ')) (.seq (.grp 3 D)
      (.seq (.cls (ch '.')) (.seq (.grp 4 (plus isDec)) (.seq (star (ch ' ')) .eos)))))))).parse c t m) :
    ∃ ab c1 c2 kab tab mo tmo kmo dd tdd kdd f w k, C.parse ab tab kab ∧ isDec c1 = true ∧ isDec c2 = true ∧ M.parse mo tmo kmo ∧ D.parse dd tdd kdd ∧
      1 ≤ f.length ∧ (∀ x ∈ f, isDec x = true) ∧ c = (ab ++ [c1, c2]) ++ ' ' :: (mo ++ ' ' :: (dd ++ '.' :: (f ++ w))) ∧
      m = (1, ab ++ [c1, c2]) :: (kab ++ ((2, mo) :: (kmo ++ ((3, dd) :: (kdd ++ ((4, f) :: k)))))) := by
  obtain ⟨y, s1, k1, m1, hy, h1, e1, f1⟩ := step_grp hp
  obtain ⟨ab, s2, k2, m2, hab, h2, e2, f2⟩ := hy
  obtain ⟨c1, s3, hc1, h3, e3⟩ := step_cls h2
  obtain ⟨⟨c2, hc2, e4⟩, f4⟩ := h3
  obtain ⟨sp, s5, hsp, h5, e5⟩ := step_cls h1
  obtain ⟨mo, s6, k6, m6, hmo, h6, e6, f6⟩ := step_grp h5
  obtain ⟨sp2, s7, hsp2, h7, e7⟩ := step_cls h6
  obtain ⟨dd, s8, k8, m8, hdd, h8, e8, f8⟩ := step_grp h7
  obtain ⟨pt, s9, hpt, h9, e9⟩ := step_cls h8
  obtain ⟨f, s10, k10, m10, hf, h10, e10, f10⟩ := step_grp h9
  refine ⟨ab, c1, c2, k2, _, mo, _, k6, dd, _, k8, f, s10, k10 ++ m10, hab, hc1, hc2, hmo, hdd, hf.1.1, hf.1.2.2, ?_, ?_⟩
  · rw [e1, e2, e3, e4, e5, e6, e7, e8, e9, e10, ch_iff.1 hsp, ch_iff.1 hsp2, ch_iff.1 hpt]
  · rw [f1, f2, f4, f6, f8, f10, e2, e3, e4, List.append_nil]

theorem date_parts {t : Str} {m : Caps} (h : reMatch checkDateRe t = some m) :
    ∃ y rest f, t = y ++ ' ' :: rest ∧ Digits0 y ∧ 1600 ≤ value y ∧ group m 4 = some f ∧ 1 ≤ f.length := by
  obtain ⟨c, r, rfl, hp⟩ := reMatch_parse h
  obtain ⟨ab, c1, c2, kab, tab, mo, tmo, kmo, dd, tdd, kdd, f, w, k, hab, hc1, hc2, hmo, hdd, f1, -, e1, e2⟩ := date_split hp
  obtain ⟨a, b, x, z, rfl, ha, hb, hv, rfl⟩ := century_parse hab
  obtain rfl := month_caps hmo
  obtain rfl := day_caps hdd
  obtain ⟨g1, g2⟩ := year_value ha hb hc1 hc2 hv
  subst e1 e2
  refine ⟨[a, b, c1, c2], mo ++ ' ' :: (dd ++ '.' :: (f ++ w)) ++ r, f, ?_, g1, g2, ?_, f1⟩
  · simp
  · simp [group]

theorem digits_before {a b x y : Str} (ha : Digits0 a) (hb : Digits0 b) (h : a ++ ' ' :: x = b ++ ' ' :: y) : a = b := by
  have hs : isDec ' ' = false := by decide
  have e : ∀ a x : Str, Digits0 a → (a ++ ' ' :: x).takeWhile isDec = a := by
    intro a x ha
    induction a with
    | nil => simp [hs]
    | cons c a ih => simp [ha c List.mem_cons_self, ih fun z hz => ha z (List.mem_cons_of_mem _ hz)]
  rw [← e a x ha, h, e b y hb]

theorem natStr_digits (n : Nat) : Digits0 (natStr n) := by
  intro c hc
  have : digits10.all isDec = true := by decide
  exact List.all_eq_true.1 this c (natStr_mem _ c hc)

theorem value_natStr (n : Nat) : value (natStr n) = n := by
  have h1 := digitsVal_value (natStr_digits n)
  rw [digitsVal_natStr] at h1
  injection h1 with h1
  exact h1.symm

theorem bind_some {α β : Type} {x : Py α} {f : α → Py β} {b : β} (h : (x >>= f) = .ok b) : ∃ a, f a = .ok b := by
  cases x with
  | error e => cases h
  | ok a => exact ⟨a, h⟩

theorem pure_mid {α β γ : Type} {a a' : α} {b b' : β} {c c' : γ} (h : (pure (a, b, c) : Py (α × β × γ)) = .ok (a', b', c')) : b' = b := by
  injection h with h
  injection h with _ h
  injection h with h _
  exact h.symm

theorem iso_prec {u iso fr : Str} {radar : Bool} {prec : Num} (hv : sexDateToISO u radar = .ok (iso, prec, fr)) :
    ∃ m, reMatch checkDateRe u = some m ∧ prec = (if ((group m 4).getD []).length ≤ 6 then .int (10 ^ (6 - ((group m 4).getD []).length)) else .flt (ofRat (ten (6 - (((group m 4).getD []).length : Int))))) := by
  unfold sexDateToISO at hv
  cases hm : reMatch checkDateRe u with
  | none => rw [hm] at hv; cases hv
  | some m =>
    refine ⟨m, rfl, ?_⟩
    rw [hm] at hv
    replace ⟨_, hv⟩ := bind_some hv
    replace ⟨_, hv⟩ := bind_some hv
    replace ⟨_, hv⟩ := bind_some hv
    replace ⟨_, hv⟩ := bind_some hv
    replace ⟨_, hv⟩ := bind_some hv
    split at hv
    · replace ⟨_, hv⟩ := bind_some hv
      exact pure_mid hv
    · replace ⟨_, hv⟩ := bind_some hv
      exact pure_mid hv

theorem small_prec {n : Nat} (h : ¬n ≤ 6) : (ofRat (ten (6 - (n : Int)))).val < 1 := by
  have this : (6 - (n : Int)) = -((n - 6 : Nat) : Int) := by omega
  rw [this, ten_neg]
  have e7 : (1 : ℚ) / 10 ^ (n - 6) ≤ 1 / 10 := by
    have h10 : (10 : ℚ) ≤ 10 ^ (n - 6) := by
      calc (10 : ℚ) = 10 ^ 1 := by norm_num
        _ ≤ _ := pow_le_pow_right₀ (by norm_num) (by omega)
    exact one_div_le_one_div_of_le (by norm_num) h10
  have e0 : (0 : ℚ) ≤ 1 / 10 ^ (n - 6) := by positivity
  rw [ofRat_nonneg e0]
  have h3 := rnd_near e0
  have h4 : (⟨false, rnd (1 / 10 ^ (n - 6))⟩ : F64).val = rnd (1 / 10 ^ (n - 6)) := rfl
  rw [h4]
  linarith

theorem date_any {t : Str} {radar : Bool} {x : Str × Num} (h : checkDate t radar = .ok x) : ∃ d : Spec.ObsDate, d.Valid ∧ t = d.column := by
  unfold checkDate at h
  simp only [bind, Except.bind] at h
  split at h
  · cases h
  · rename_i v hv
    obtain ⟨iso, prec, fr⟩ := v
    simp only at h
    split at h
    · cases h
    · rename_i hprec
      split at h
      · cases h
      · rename_i u hu
        split at h
        · cases h
        · rename_i hne
          simp only [ne_eq, not_not] at hne
          subst hne
          -- the pattern
          obtain ⟨m, hm, hp⟩ := iso_prec hv
          obtain ⟨y, rest, f, ht, hy, hyv, hf, hf1⟩ := date_parts hm
          rw [hf] at hp
          simp only [Option.getD_some] at hp
          have h6 : f.length ≤ 6 := by
            by_contra hc
            rw [if_neg hc] at hp
            apply hprec
            rw [hp]
            exact small_prec hc
          rw [if_pos h6] at hp
          subst hp
          obtain ⟨dt, g, hex, hg, hu'⟩ := isoToSexDate_inv hf1 h6 hu
          obtain ⟨x1, x2, x3, x4, x5, x6⟩ := hex
          have hyear : natStr dt.year = y := by
            refine digits_before (natStr_digits _) hy (x := two2 dt.month ++ [' '] ++ two2 dt.day ++ ['.'] ++ ljust 6 (Spec.fixed f.length g)) (y := rest) ?_
            rw [← ht, hu']
            simp only [List.append_assoc, List.cons_append, List.nil_append]
          have h16 : 1600 ≤ dt.year := by rw [← value_natStr dt.year, hyear]; exact hyv
          rw [daysIn_eq x3 x4] at x6
          have h31 : dt.day ≤ 31 := le_trans x6 monthDays_le
          refine ⟨⟨dt.year, dt.month, dt.day, f.length, g⟩, ⟨h16, x2, x3, x4, x5, x6, hf1, h6, hg⟩, ?_⟩
          rw [date_text (by omega) x2 (by omega) (by omega) hf1 h6 hg, hu']
          simp only [two2, zfill_eq, ljust, fixed_length hf1 hg, dec_eq, List.append_assoc]
end Verif.Sex
