import Verif.Lemmas.DateRun
import Verif.Spec.IsoTime
/-
  Lemmas for C48: which times "YYYY-MM-DDThh:mm:ss…Z" are read.
-/
namespace Verif.Sex
open Verif Verif.Spec

/-- the pattern takes two digits as a number in the range, or leaves a digit -/
def Field (F : Re) (ok : Nat → Prop) : Prop := ∀ n < 100, ∀ t m, m ∈ run F (Spec.fixed 2 n ++ t) → (m = (Spec.fixed 2 n, t, []) ∧ ok n) ∨ ∃ c v, m.2.1 = c :: v ∧ c ∈ digits10

theorem mem_alt {a b : Re} {s : Str} {m : Str × Str × Caps} : m ∈ run (.alt a b) s ↔ m ∈ run a s ∨ m ∈ run b s := by simp [run]
theorem mem_one {p : Char → Bool} {x y : Char} {t : Str} {m : Str × Str × Caps} : m ∈ run (.cls p) (x :: y :: t) ↔ p x = true ∧ m = ([x], y :: t, []) := by
  by_cases h : p x = true <;> simp [run, h]
theorem mem_two {p q : Char → Bool} {x y : Char} {t : Str} {m : Str × Str × Caps} :
    m ∈ run (.seq (.cls p) (.cls q)) (x :: y :: t) ↔ (p x = true ∧ q y = true) ∧ m = ([x, y], t, []) := by
  by_cases h : p x = true <;> by_cases h' : q y = true <;> simp [run, h, h']

theorem field_month : Field (alts [cat [.cls (ch '1'), .cls (rng '0' '2')], cat [.cls (ch '0'), .cls (rng '1' '9')], .cls (rng '1' '9')]) (fun n => 1 ≤ n ∧ n ≤ 12) := by
  intro n hn t m hm
  rw [fixed2 hn] at hm ⊢
  have hx := digitChar_mem (d := n % 10) (by omega)
  simp only [alts, cat, List.cons_append, List.nil_append, mem_alt, mem_one, mem_two] at hm
  rcases hm with ⟨h, rfl⟩ | ⟨h, rfl⟩ | ⟨h, rfl⟩
  · exact .inl ⟨rfl, by revert n; decide +kernel⟩
  · exact .inl ⟨rfl, by revert n; decide +kernel⟩
  · exact .inr ⟨_, _, rfl, hx⟩

theorem field_day : Field (alts [cat [.cls (ch '3'), .cls (rng '0' '1')], cat [.cls (rng '1' '2'), .cls isDec], cat [.cls (ch '0'), .cls (rng '1' '9')],
     .cls (rng '1' '9'), cat [.cls (ch ' '), .cls (rng '1' '9')]]) (fun n => 1 ≤ n ∧ n ≤ 31) := by
  intro n hn t m hm
  rw [fixed2 hn] at hm ⊢
  have hx := digitChar_mem (d := n % 10) (by omega)
  simp only [alts, cat, List.cons_append, List.nil_append, mem_alt, mem_one, mem_two] at hm
  rcases hm with ⟨h, rfl⟩ | ⟨h, rfl⟩ | ⟨h, rfl⟩ | ⟨h, rfl⟩ | ⟨h, rfl⟩
  · exact .inl ⟨rfl, by revert n; decide +kernel⟩
  · exact .inl ⟨rfl, by have h := h.1; clear hx; revert n; decide +kernel⟩
  · exact .inl ⟨rfl, by revert n; decide +kernel⟩
  · exact .inr ⟨_, _, rfl, hx⟩
  · exact .inl ⟨rfl, by revert n; decide +kernel⟩

theorem field_hour : Field (alts [cat [.cls (ch '2'), .cls (rng '0' '3')], cat [.cls (rng '0' '1'), .cls isDec], .cls isDec]) (· < 24) := by
  intro n hn t m hm
  rw [fixed2 hn] at hm ⊢
  have hx := digitChar_mem (d := n % 10) (by omega)
  simp only [alts, cat, List.cons_append, List.nil_append, mem_alt, mem_one, mem_two] at hm
  rcases hm with ⟨h, rfl⟩ | ⟨h, rfl⟩ | ⟨h, rfl⟩
  · exact .inl ⟨rfl, by revert n; decide +kernel⟩
  · exact .inl ⟨rfl, by have h := h.1; clear hx; revert n; decide +kernel⟩
  · exact .inr ⟨_, _, rfl, hx⟩

theorem field_minute : Field (alts [cat [.cls (rng '0' '5'), .cls isDec], .cls isDec]) (· < 60) := by
  intro n hn t m hm
  rw [fixed2 hn] at hm ⊢
  have hx := digitChar_mem (d := n % 10) (by omega)
  simp only [alts, cat, List.cons_append, List.nil_append, mem_alt, mem_one, mem_two] at hm
  rcases hm with ⟨h, rfl⟩ | ⟨h, rfl⟩
  · exact .inl ⟨rfl, by have h := h.1; clear hx; revert n; decide +kernel⟩
  · exact .inr ⟨_, _, rfl, hx⟩

theorem field_second : Field (alts [cat [.cls (ch '6'), .cls (rng '0' '1')], cat [.cls (rng '0' '5'), .cls isDec], .cls isDec]) (· < 62) := by
  intro n hn t m hm
  rw [fixed2 hn] at hm ⊢
  have hx := digitChar_mem (d := n % 10) (by omega)
  simp only [alts, cat, List.cons_append, List.nil_append, mem_alt, mem_one, mem_two] at hm
  rcases hm with ⟨h, rfl⟩ | ⟨h, rfl⟩ | ⟨h, rfl⟩
  · exact .inl ⟨rfl, by revert n; decide +kernel⟩
  · exact .inl ⟨rfl, by have h := h.1; clear hx; revert n; decide +kernel⟩
  · exact .inr ⟨_, _, rfl, hx⟩

/-- a field and the separator after it -/
theorem step {F : Re} {ok : Nat → Prop} (hF : Field F ok) {p : Char → Bool} (hp : ∀ c ∈ digits10, p c = false) {g n : Nat} (hn : n < 100) {c : Char} {t : Str} {K : Re}
    {m : Str × Str × Caps} (h : m ∈ run (.seq (.grp g F) (.seq (.cls p) K)) (Spec.fixed 2 n ++ c :: t)) :
    ok n ∧ p c = true ∧ ∃ m' ∈ run K t, m.2.1 = m'.2.1 ∧ m.2.2 = (g, Spec.fixed 2 n) :: m'.2.2 := by
  simp only [run, List.mem_flatMap, List.mem_map] at h
  obtain ⟨a, ⟨a', ha, rfl⟩, b, hb, rfl⟩ := h
  rcases hF n hn _ _ ha with ⟨rfl, hok⟩ | ⟨d, v, hv, hd⟩
  · obtain ⟨x, hx, y, hy, rfl⟩ := hb
    simp only [run] at hx
    by_cases hc : p c = true
    · rw [if_pos hc] at hx
      simp only [List.mem_singleton] at hx
      subst hx
      exact ⟨hok, hc, y, hy, rfl, by simp⟩
    · rw [if_neg hc] at hx; cases hx
  · obtain ⟨x, hx, -⟩ := hb
    rw [hv] at hx
    simp only [run, hp d hd] at hx
    cases hx

theorem times4 {y : Nat} (h1 : 1000 ≤ y) (h2 : y ≤ 9999) (rest : Str) : run (times 4 isDec) (Spec.dec y ++ rest) = [(Spec.dec y, rest, [])] := by
  rw [year_text (by omega) h2]
  have a := isDec_digitChar (d := y / 100 / 10) (by omega)
  have b := isDec_digitChar (d := y / 100 % 10) (by omega)
  have c := isDec_digitChar (d := y / 10 % 10) (by omega)
  have d := isDec_digitChar (d := y % 10) (by omega)
  simp [times, run, spanLen, a, b, c, d, downTo]

/-- what a match of the pattern of `strptime` says about the fields -/
theorem fields_ok {y mo d h mi s : Nat} {c : Char} {t : Str} {p : Char → Bool} {r : List Re} (hr : r ≠ []) (hp : ∀ c ∈ digits10, p c = false) (h1 : 1000 ≤ y) (h2 : y ≤ 9999)
    (hmo : mo < 100) (hd : d < 100) (hh : h < 100) (hmi : mi < 100) (hs : s < 100) {m : Str × Str × Caps}
    (hm : m ∈ run (cat (strptimeSecs ++ .cls p :: r)) (isoText y mo d h mi s (c :: t))) :
    (1 ≤ mo ∧ mo ≤ 12) ∧ (1 ≤ d ∧ d ≤ 31) ∧ h < 24 ∧ mi < 60 ∧ s < 62 ∧
      p c = true ∧ (run (cat r) t ≠ []) ∧ ∃ k, m.2.2 = [(1, Spec.dec y), (2, Spec.fixed 2 mo), (3, Spec.fixed 2 d), (4, Spec.fixed 2 h), (5, Spec.fixed 2 mi), (6, Spec.fixed 2 s)] ++ k := by
  obtain ⟨r0, r, rfl⟩ : ∃ a b, r = a :: b := by
    cases r with
    | nil => exact absurd rfl hr
    | cons a b => exact ⟨a, b, rfl⟩
  simp only [isoText, List.append_assoc, List.cons_append, List.nil_append, strptimeSecs, cat] at hm
  rw [run] at hm
  simp only [List.mem_flatMap, List.mem_map] at hm
  obtain ⟨a, ha, b, hb, rfl⟩ := hm
  rw [run, times4 h1 h2] at ha
  simp only [List.map_cons, List.map_nil, List.mem_singleton] at ha
  subst ha
  rw [run] at hb
  simp only [List.mem_flatMap, List.mem_map] at hb
  obtain ⟨x, hx, z, hz, rfl⟩ := hb
  have hx' : x = (['-'], Spec.fixed 2 mo ++ '-' :: (Spec.fixed 2 d ++ 'T' :: (Spec.fixed 2 h ++ ':' :: (Spec.fixed 2 mi ++ ':' :: (Spec.fixed 2 s ++ c :: t)))), []) := by
    have : ch '-' '-' = true := by decide
    simpa [run, this] using hx
  subst hx'
  obtain ⟨o1, -, m1, hm1, -, e1⟩ := step field_month (by decide) hmo hz
  obtain ⟨o2, -, m2, hm2, -, e2⟩ := step field_day (by decide) hd hm1
  obtain ⟨o3, -, m3, hm3, -, e3⟩ := step field_hour (by decide) hh hm2
  obtain ⟨o4, -, m4, hm4, -, e4⟩ := step field_minute (by decide) hmi hm3
  obtain ⟨o5, oc, m5, hm5, -, e5⟩ := step field_second hp hs hm4
  refine ⟨o1, o2, o3, o4, o5, oc, fun h0 => ?_, m5.2.2, ?_⟩
  · rw [h0] at hm5; cases hm5
  · simp [e1, e2, e3, e4, e5]

theorem run_eps (a : Re) (s : Str) : run (.seq a .eps) s = run a s := by simp [run]

theorem fields_last {y mo d h mi s : Nat} {c : Char} {t : Str} {p : Char → Bool} (hp : ∀ c ∈ digits10, p c = false) (h1 : 1000 ≤ y) (h2 : y ≤ 9999)
    (hmo : mo < 100) (hd : d < 100) (hh : h < 100) (hmi : mi < 100) (hs : s < 100) {m : Str × Str × Caps}
    (hm : m ∈ run (cat (strptimeSecs ++ [.cls p])) (isoText y mo d h mi s (c :: t))) :
    (1 ≤ mo ∧ mo ≤ 12) ∧ (1 ≤ d ∧ d ≤ 31) ∧ h < 24 ∧ mi < 60 ∧ s < 62 ∧
      p c = true ∧ ∃ k, m.2.2 = [(1, Spec.dec y), (2, Spec.fixed 2 mo), (3, Spec.fixed 2 d), (4, Spec.fixed 2 h), (5, Spec.fixed 2 mi), (6, Spec.fixed 2 s)] ++ k := by
  refine (fun h => ⟨h.1, h.2.1, h.2.2.1, h.2.2.2.1, h.2.2.2.2.1, h.2.2.2.2.2.1, h.2.2.2.2.2.2.2⟩) (fields_ok (c := c) (t := t) (r := [.eps]) (by simp) hp h1 h2 hmo hd hh hmi hs (m := m) ?_)
  rw [run_cat_append _ _ (by simp [strptimeSecs]) (by simp)] at hm ⊢
  simp only [cat] at hm ⊢
  rw [run] at hm ⊢
  simpa only [run_eps] using hm

theorem pyNat_err {s : Str} {e : PyErr} (h : pyNat s = .error e) : e = .valueError := by
  unfold pyNat at h
  split at h
  · cases h
  · cases h; rfl

theorem mkDate_bad {y m d : Nat} (h : ¬ (1 ≤ m ∧ m ≤ 12 ∧ 1 ≤ d ∧ d ≤ Spec.monthDays y m)) : mkDate y m d = .error .valueError := by
  unfold mkDate
  rw [if_neg]
  rintro ⟨-, -, a, b, c, e⟩
  exact h ⟨a, b, c, by rwa [daysIn_eq a b] at e⟩

theorem mkDate_err {y m d : Nat} {e : PyErr} (h : mkDate y m d = .error e) : e = .valueError := by
  unfold mkDate at h
  split at h
  · cases h
  · cases h; rfl

theorem strptime_bad {re : Re} {y mo d h mi s : Nat} {text : Str} (hre : ∀ m ∈ run re text, (1 ≤ mo ∧ mo ≤ 12) ∧ (1 ≤ d ∧ d ≤ 31) ∧ h < 24 ∧ mi < 60 ∧ s < 62 ∧
      ∃ k, m.2.2 = [(1, Spec.dec y), (2, Spec.fixed 2 mo), (3, Spec.fixed 2 d), (4, Spec.fixed 2 h), (5, Spec.fixed 2 mi), (6, Spec.fixed 2 s)] ++ k)
    (hb : ¬ TimeOk y mo d h mi s) : strptime re text = .error .valueError := by
  unfold strptime
  cases hr : (run re text).head? with
  | none => rfl
  | some m =>
    obtain ⟨u, v, k⟩ := m
    obtain ⟨o1, o2, o3, o4, o5, k', hk⟩ := hre _ (List.mem_of_mem_head? hr)
    simp only at hk
    subst hk
    simp only
    by_cases hv : v ≠ []
    · rw [if_pos hv]
    · rw [if_neg hv]
      have g1 : group ([(1, Spec.dec y), (2, Spec.fixed 2 mo), (3, Spec.fixed 2 d), (4, Spec.fixed 2 h), (5, Spec.fixed 2 mi), (6, Spec.fixed 2 s)] ++ k') 1 = some (Spec.dec y) := rfl
      have g2 : group ([(1, Spec.dec y), (2, Spec.fixed 2 mo), (3, Spec.fixed 2 d), (4, Spec.fixed 2 h), (5, Spec.fixed 2 mi), (6, Spec.fixed 2 s)] ++ k') 2 = some (Spec.fixed 2 mo) := rfl
      have g3 : group ([(1, Spec.dec y), (2, Spec.fixed 2 mo), (3, Spec.fixed 2 d), (4, Spec.fixed 2 h), (5, Spec.fixed 2 mi), (6, Spec.fixed 2 s)] ++ k') 3 = some (Spec.fixed 2 d) := rfl
      have g4 : group ([(1, Spec.dec y), (2, Spec.fixed 2 mo), (3, Spec.fixed 2 d), (4, Spec.fixed 2 h), (5, Spec.fixed 2 mi), (6, Spec.fixed 2 s)] ++ k') 4 = some (Spec.fixed 2 h) := rfl
      have g5 : group ([(1, Spec.dec y), (2, Spec.fixed 2 mo), (3, Spec.fixed 2 d), (4, Spec.fixed 2 h), (5, Spec.fixed 2 mi), (6, Spec.fixed 2 s)] ++ k') 5 = some (Spec.fixed 2 mi) := rfl
      have g6 : group ([(1, Spec.dec y), (2, Spec.fixed 2 mo), (3, Spec.fixed 2 d), (4, Spec.fixed 2 h), (5, Spec.fixed 2 mi), (6, Spec.fixed 2 s)] ++ k') 6 = some (Spec.fixed 2 s) := rfl
      rw [dec_eq] at g1 g2 g3 g4 g5 g6
      simp only [dec_eq, g1, g2, g3, g4, g5, g6, Option.getD_some, pyInt_fixed, pyInt_natStr, bind, Except.bind, Int.toNat_natCast]
      generalize hq : pyNat _ = q
      cases q with
      | error e => cases pyNat_err hq; rfl
      | ok us =>
        simp only
        by_cases hd : d ≤ Spec.monthDays y mo
        · have hs : ¬ s < 60 := fun c => hb ⟨o1.1, o1.2, o2.1, hd, o3, o4, c⟩
          cases hq2 : mkDate y mo d with
          | error e => cases mkDate_err hq2; rfl
          | ok t =>
            simp only
            rw [if_neg (by omega)]
        · rw [mkDate_bad (fun c => hd c.2.2.2)]

theorem iso_refused {y mo d h mi s : Nat} {c : Char} {t : Str} (h1 : 1000 ≤ y) (h2 : y ≤ 9999) (hmo : mo < 100) (hd : d < 100) (hh : h < 100) (hmi : mi < 100) (hs : s < 100)
    (hb : ¬ TimeOk y mo d h mi s) (prec : Num) : isoToSexDate (isoText y mo d h mi s (c :: t)) prec = .error .valueError := by
  have a : strptime strptimeFrac (isoText y mo d h mi s (c :: t)) = .error .valueError :=
    strptime_bad (fun m hm => (fun h => ⟨h.1, h.2.1, h.2.2.1, h.2.2.2.1, h.2.2.2.2.1, h.2.2.2.2.2.2.2⟩) (fields_ok (by simp) (by decide) h1 h2 hmo hd hh hmi hs hm)) hb
  have b : strptime strptimeWhole (isoText y mo d h mi s (c :: t)) = .error .valueError :=
    strptime_bad (fun m hm => (fun h => ⟨h.1, h.2.1, h.2.2.1, h.2.2.2.1, h.2.2.2.2.1, h.2.2.2.2.2.2⟩) (fields_last (by decide) h1 h2 hmo hd hh hmi hs hm)) hb
  unfold isoToSexDate
  simp only [a, b]
  rfl

theorem isoText_eq {y mo d h mi s : Nat} (hmi : mi < 60) (hs : s < 60) (t : Str) : isoText y mo d h mi s t = Spec.isoTime y mo d (h * 3600 + mi * 60 + s) t := by
  have e1 : (h * 3600 + mi * 60 + s) / 3600 = h := by omega
  have e2 : (h * 3600 + mi * 60 + s) / 60 % 60 = mi := by omega
  have e3 : (h * 3600 + mi * 60 + s) % 60 = s := by omega
  rw [Spec.isoTime, e1, e2, e3, isoText]

theorem strptime_none {re : Re} {text : Str} (h : run re text = []) : strptime re text = .error .valueError := by
  unfold strptime
  rw [h]
  rfl

/-- a fraction without digits, or of more than six -/
theorem fraction_refused {y mo d h mi s : Nat} {ds : Str} (h1 : 1000 ≤ y) (h2 : y ≤ 9999) (hmo : mo < 100) (hd : d < 100) (hh : h < 100) (hmi : mi < 100) (hs : s < 100)
    (hds : ∀ c ∈ ds, c ∈ digits10) (hl : ds = [] ∨ 6 < ds.length) (prec : Num) :
    isoToSexDate (isoText y mo d h mi s ('.' :: ds ++ ['Z'])) prec = .error .valueError := by
  have hz : rng '0' '9' 'Z' = false := by decide
  have h0 : run (cat [.grp 7 (.rep 1 (some 6) (rng '0' '9')), .cls (chI 'Z')]) (ds ++ ['Z']) = [] := by
    simp only [cat, run]
    rw [List.flatMap_eq_nil_iff]
    rintro m hm
    simp only [List.mem_map] at hm
    obtain ⟨a, ⟨j, hj, rfl⟩, rfl⟩ := hm
    rcases hl with rfl | hl
    · simp [spanLen, hz, downTo] at hj
    · have hj6 : j ≤ 6 := by
        have : ∀ n l, j ∈ downTo l n → j ≤ n := by
          intro n
          induction n with
          | zero => intro l h; simp only [downTo] at h; split at h <;> simp_all
          | succ n ih =>
            intro l h
            simp only [downTo] at h
            split at h
            · rcases List.mem_cons.mp h with rfl | h
              · exact le_refl _
              · exact le_trans (ih _ h) (by omega)
            · simp at h
        refine le_trans (this _ _ hj) ?_
        have : ∀ n (l : Str), spanLen (rng '0' '9') (some n) l ≤ n := by
          intro n
          induction n with
          | zero => intro l; cases l <;> simp [spanLen]
          | succ n ih =>
            intro l
            cases l with
            | nil => simp [spanLen]
            | cons c l =>
              simp only [spanLen]
              split
              · have := ih l; omega
              · omega
        exact this _ _
      have : ∃ c v, (ds ++ ['Z']).drop j = c :: v ∧ c ∈ digits10 := by
        rw [List.drop_append_of_le_length (by omega)]
        cases hq : ds.drop j with
        | nil => have := congrArg List.length hq; simp at this; omega
        | cons c v => exact ⟨c, v ++ ['Z'], rfl, hds c (List.mem_of_mem_drop (hq ▸ List.mem_cons_self ..))⟩
      obtain ⟨c, v, e, hc⟩ := this
      have hn : ∀ c ∈ digits10, chI 'Z' c = false := by decide
      simp only [e, run, hn c hc]
      rfl
  have a : strptime strptimeFrac (isoText y mo d h mi s ('.' :: ds ++ ['Z'])) = .error .valueError := by
    refine strptime_none (List.eq_nil_iff_forall_not_mem.2 fun m hm => ?_)
    exact (fields_ok (r := [.grp 7 (.rep 1 (some 6) (rng '0' '9')), .cls (chI 'Z')]) (by simp) (by decide) h1 h2 hmo hd hh hmi hs hm).2.2.2.2.2.2.1 h0
  have b : strptime strptimeWhole (isoText y mo d h mi s ('.' :: ds ++ ['Z'])) = .error .valueError := by
    refine strptime_none (List.eq_nil_iff_forall_not_mem.2 fun m hm => ?_)
    exact absurd (fields_last (by decide) h1 h2 hmo hd hh hmi hs hm).2.2.2.2.2.1 (by decide)
  unfold isoToSexDate
  simp only [a, b]
  rfl

end Verif.Sex
