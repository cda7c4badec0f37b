import Verif.Lemmas.Trip80Accept
import Verif.Lemmas.Submit80Line
/-!
  Lemmas.Trip80Fields : returnable observations of valid submissions are readable in the sense of C44, and what comes back of their texts is printable.
-/
set_option linter.unusedSimpArgs false
namespace Verif.Trip80
open Verif.Xml Verif.Spec Verif.PackUtil Verif.Submit80 Verif.ToMpc80
open Verif.Spec.Mpc80 (Printable Returnable Sent fieldOf daySeconds dayDigits raStep decStep half timeUnits bandLetter bandLetters numberChars noteLetters)
open Verif.ToPsv (psvKinds)

variable {e : Elem}

theorem alnum_pr {c : Char} (h : Alnum c) : 32 ≤ c.toNat ∧ c.toNat < 0xD800 := by
  have hr : ∀ a b : Char, 32 ≤ a.toNat → b.toNat < 0xD800 → a ≤ c → c ≤ b → 32 ≤ c.toNat ∧ c.toNat < 0xD800 := by
    intro a b ha hb h1 h2
    have h1 : a.toNat ≤ c.toNat := h1
    have h2 : c.toNat ≤ b.toNat := h2
    omega
  rcases h with ⟨h1, h2⟩ | ⟨h1, h2⟩ | ⟨h1, h2⟩ | rfl
  · exact hr _ _ (by decide) (by decide) h1 h2
  · exact hr _ _ (by decide) (by decide) h1 h2
  · exact hr _ _ (by decide) (by decide) h1 h2
  · decide

theorem code_pr {k m : Nat} {w : Str} (h : Code k m w) : Printable w := fun c hc => alnum_pr (h.2.2 c hc)

theorem text_chars {n : Numeral} (h : n.Valid) : ∀ c ∈ n.text, c ∈ c! "+-.0123456789" := by
  intro c hc
  unfold Numeral.text at hc
  have hd : ∀ c ∈ c! "0123456789", c ∈ c! "+-.0123456789" := by decide
  rcases List.mem_append.1 hc with hc | hc
  · rcases List.mem_append.1 hc with hc | hc
    · have : n.sign = some c := by
        cases hs : n.sign with
        | none => rw [hs] at hc; cases hc
        | some s => rw [hs] at hc; rw [List.mem_singleton.1 hc]
      rcases h.1 c this with rfl | rfl <;> decide
    · exact hd c (h.2.1 c hc)
  · cases hf : n.frac with
    | none => rw [hf] at hc; cases hc
    | some f =>
      rw [hf] at hc
      rcases List.mem_cons.1 hc with rfl | hc
      · decide
      · exact hd c (h.2.2.1 f hf c hc)

theorem numeral_pr {n : Numeral} (h : n.Valid) : Printable n.text := pr_sub (text_chars h) (by unfold Printable; decide)

theorem upper_pr {c : Char} (h : c ∈ upperCase) : 32 ≤ c.toNat ∧ c.toNat < 0xD800 := by
  have : ∀ c ∈ upperCase, 32 ≤ c.toNat ∧ c.toNat < 0xD800 := by decide
  exact this c h
theorem half_pr {c : Char} (h : c ∈ halfMonths) : 32 ≤ c.toNat ∧ c.toNat < 0xD800 := by
  have : ∀ c ∈ halfMonths, 32 ≤ c.toNat ∧ c.toNat < 0xD800 := by decide
  exact this c h
theorem order_pr {c : Char} (h : c ∈ orders) : 32 ≤ c.toNat ∧ c.toNat < 0xD800 := by
  have : ∀ c ∈ orders, 32 ≤ c.toNat ∧ c.toNat < 0xD800 := by decide
  exact this c h
theorem type_pr {c : Char} (h : c ∈ ['A', 'C', 'D', 'P', 'X']) : 32 ≤ c.toNat ∧ c.toNat < 0xD800 := by
  have : ∀ c ∈ ['A', 'C', 'D', 'P', 'X'], 32 ≤ c.toNat ∧ c.toNat < 0xD800 := by decide
  exact this c h
theorem count_pr (n : Nat) : Printable (count n) := by
  unfold count; split
  · exact pr_nil
  · exact pr_dec n

theorem perm_pr {p : Perm} (h : p.Valid) : Printable p.text := by
  cases p with
  | minor n => exact pr_dec n
  | comet n ty =>
    obtain ⟨-, -, h⟩ := h
    exact pr_append (pr_dec n) (pr_one (by rcases h with rfl | rfl <;> decide))
  | fragment n ty f =>
    obtain ⟨-, -, h, -, hf⟩ := h
    exact pr_append (pr_append (pr_dec n) (pr_cons (by rcases h with rfl | rfl <;> decide) (pr_one (by decide)))) fun c hc => upper_pr (hf c hc)
  | satellite q n =>
    exact pr_append (pr_append (by cases q <;> (unfold Printable; decide)) (pr_one (by decide))) (pr_dec n)

theorem prov_pr {q : Prov} (h : q.Valid) : Printable q.text := by
  cases q with
  | minor y a b n =>
    obtain ⟨-, -, h1, h2, -⟩ := h
    exact pr_append (pr_append (pr_dec y) (pr_cons (by decide) (pr_cons (half_pr h1) (pr_one (order_pr h2))))) (count_pr n)
  | survey n s => exact pr_append (pr_fixed 4 n) (by cases s <;> (unfold Printable; decide))
  | comet ty y a o n =>
    obtain ⟨h1, -, -, h2, h3, -⟩ := h
    refine pr_append (pr_append (pr_append (pr_append (pr_cons (type_pr h1) (pr_one (by decide))) (pr_dec y)) (pr_cons (by decide) (pr_one (half_pr h2)))) ?_) (count_pr n)
    cases o with
    | none => exact pr_nil
    | some c => exact pr_one (upper_pr (h3 c (by simp)))
  | fragment ty y a n f =>
    obtain ⟨h1, -, -, h2, -, -, h3⟩ := h
    have h1 : ty ∈ ['A', 'C', 'D', 'P', 'X'] := List.mem_cons_of_mem _ h1
    exact pr_append (pr_append (pr_append (pr_append (pr_cons (type_pr h1) (pr_one (by decide))) (pr_dec y)) (pr_cons (by decide) (pr_one (half_pr h2)))) (count_pr n)) (pr_cons (by decide) (pr_one (upper_pr h3)))
  | satellite y p n =>
    exact pr_append (pr_append (pr_append (by unfold Printable; decide) (pr_dec y)) (by cases p <;> (unfold Printable; decide))) (pr_dec n)

/-- what comes back of the texts of a convertible observation is printable -/
theorem fields_pr (h : Ok (c! "optical") e) (hd : ∃ d : Designation, d.Valid ∧ fieldOf e (c! "permID") = d.permText ∧ fieldOf e (c! "provID") = d.provText ∧ ∀ t, d.trkText = some t → fieldOf e (c! "trkSub") = some t) :
    ∀ n ∈ kept, ∀ v, fieldOf e n = some v → Printable v := by
  intro n hn v hv
  simp only [kept, List.mem_cons, List.not_mem_nil, or_false] at hn
  have code : ∀ {n : Str} {k m : Nat}, (n, Code k m) ∈ fieldValue → fieldOf e n = some v → Printable v := by
    intro n k m hp hf
    obtain ⟨w, a, b, -⟩ := field_valid h hp hf
    rw [← b, code_strip a]; exact code_pr a
  have signed : ∀ {n : Str}, (n, fun v => Signed 13 (Spec.Xsd.trim v)) ∈ fieldValue → fieldOf e n = some v → Printable v := by
    intro n hp hf
    obtain ⟨w, ⟨m, a, a', -⟩, b, -⟩ := field_valid h hp hf
    rw [← b, strip_numeral a.1 a']; exact numeral_pr a.1
  rcases hn with rfl | rfl | rfl | rfl | rfl | rfl | rfl | rfl | rfl | rfl | rfl | rfl
  · obtain ⟨d, d0, d1, -, -⟩ := hd
    rw [d1] at hv
    cases d with
    | perm p => cases hv; exact perm_pr d0
    | both p q => cases hv; exact perm_pr d0.1
    | prov q => cases hv
    | tracklet t => cases hv
  · obtain ⟨d, d0, -, d1, -⟩ := hd
    rw [d1] at hv
    cases d with
    | perm p => cases hv
    | both p q => cases hv; exact prov_pr d0.2.1
    | prov q => cases hv; exact prov_pr d0
    | tracklet t => cases hv
  · obtain ⟨w, a, b, -⟩ := field_valid h (n := c! "trkSub") (by infields) hv
    have hp : Printable w := by
      intro c hc
      rcases a.2.2 c hc with h | rfl
      · exact alnum_pr h
      · decide
    rw [← b]
    refine pr_sub (fun c hc => ?_) hp
    unfold strip lstrip at hc
    exact ToPsv.rstrip_mem ((List.dropWhile_suffix _).subset hc)
  · exact code (n := c! "stn") (by infields) hv
  · obtain ⟨w, ⟨m, a, a', -⟩, b, -⟩ := field_valid h (n := c! "mag") (by infields) hv
    rw [← b, strip_numeral a.1 a']; exact numeral_pr a.1
  · exact code (n := c! "band") (by infields) hv
  · obtain ⟨w, a, b, -⟩ := field_valid h (n := c! "disc") (by infields) hv
    rw [← b]
    rcases a with rfl | rfl <;> (unfold Printable; decide)
  · exact code (n := c! "notes") (by infields) hv
  · rw [field_absent h (n := c! "ref") (by decide +kernel)] at hv; cases hv
  · exact signed (n := c! "pos1") (by infields) hv
  · exact signed (n := c! "pos2") (by infields) hv
  · exact signed (n := c! "pos3") (by infields) hv

/-! ### times -/

theorem take_fixed {n : Nat} (hn : n < 100) (t : Str) : (fixed 2 n ++ t).take 2 = fixed 2 n := by
  have : (fixed 2 n).length = 2 := fixed_length (by omega) (by omega)
  rw [List.take_append_of_le_length (by omega), List.take_of_length_le (by omega)]

theorem day_seconds {a : Sent} (h : a.Writable) : daySeconds a.timeText = a.seconds := by
  have hm := h.month
  have hd := h.day
  have hs := h.second
  have hy := h.year
  have h31 : monthDays a.year a.month ≤ 31 := Sex.monthDays_le
  have l1 : (Spec.dec a.year).length = 4 := by rw [dec_fixed (by omega) hy.2]; exact fixed_length (by omega) (by omega)
  have l2 : ∀ n, n < 100 → (fixed 2 n).length = 2 := fun n hn => fixed_length (by omega) (by omega)
  obtain ⟨fr, hfr, htt⟩ : ∃ fr : Str, (fr = (if a.decimals.isSome then '.' :: a.decimals.getD [] else []) ++ ['Z']) ∧ a.timeText = isoTime a.year a.month a.day a.second fr := by
    refine ⟨_, rfl, ?_⟩
    unfold Sent.timeText
    cases a.decimals <;> rfl
  have e0 : a.timeText = (Spec.dec a.year ++ ['-'] ++ fixed 2 a.month ++ ['-'] ++ fixed 2 a.day ++ ['T']) ++ (fixed 2 (a.second / 3600) ++ (':' :: (fixed 2 (a.second / 60 % 60) ++ (':' :: (fixed 2 (a.second % 60) ++ fr))))) := by
    rw [htt]
    unfold isoTime
    simp
  have L : (Spec.dec a.year ++ ['-'] ++ fixed 2 a.month ++ ['-'] ++ fixed 2 a.day ++ ['T']).length = 11 := by
    simp [l1, l2 a.month (by omega), l2 a.day (by omega)]
  have e11 : a.timeText.drop 11 = fixed 2 (a.second / 3600) ++ (':' :: (fixed 2 (a.second / 60 % 60) ++ (':' :: (fixed 2 (a.second % 60) ++ fr)))) := by
    rw [e0, ← L, List.drop_left]
  have e14 : a.timeText.drop 14 = fixed 2 (a.second / 60 % 60) ++ (':' :: (fixed 2 (a.second % 60) ++ fr)) := by
    have : a.timeText.drop 14 = (a.timeText.drop 11).drop 3 := by rw [List.drop_drop]
    rw [this, e11, show ∀ t : Str, fixed 2 (a.second / 3600) ++ ':' :: t = (fixed 2 (a.second / 3600) ++ [':']) ++ t by intro t; simp]
    rw [show (3 : Nat) = (fixed 2 (a.second / 3600) ++ [':']).length by simp [l2 (a.second / 3600) (by omega)], List.drop_left]
  have e17 : a.timeText.drop 17 = fixed 2 (a.second % 60) ++ fr := by
    have : a.timeText.drop 17 = (a.timeText.drop 14).drop 3 := by rw [List.drop_drop]
    rw [this, e14, show ∀ t : Str, fixed 2 (a.second / 60 % 60) ++ ':' :: t = (fixed 2 (a.second / 60 % 60) ++ [':']) ++ t by intro t; simp]
    rw [show (3 : Nat) = (fixed 2 (a.second / 60 % 60) ++ [':']).length by simp [l2 (a.second / 60 % 60) (by omega)], List.drop_left]
  have e20 : a.timeText.drop 20 = fr.drop 1 := by
    have : a.timeText.drop 20 = ((a.timeText.drop 17).drop 2).drop 1 := by rw [List.drop_drop, List.drop_drop]
    rw [this, e17]
    have hl := l2 (a.second % 60) (by omega)
    generalize fixed 2 (a.second % 60) = z at hl
    rw [← hl, List.drop_left]
  have ed : (a.timeText.drop 20).takeWhile (· ≠ 'Z') = a.decimals.getD [] := by
    rw [e20, hfr]
    cases hds : a.decimals with
    | none => rfl
    | some ds =>
      have hz : ∀ c ∈ ds, c ≠ 'Z' := by
        intro c hc e
        have := (h.decimals ds (by rw [hds]; rfl)).2.2 c hc
        rw [e] at this; revert this; decide
      show (ds ++ ['Z']).takeWhile (· ≠ 'Z') = ds
      rw [List.takeWhile_append_of_pos (by intro c hc; simpa using hz c hc)]
      simp
  unfold daySeconds Sent.seconds
  simp only
  rw [ed, e11, e14, e17, take_fixed (by omega), take_fixed (by omega), take_fixed (by omega), digitsNat_fixed, digitsNat_fixed, digitsNat_fixed]
  have : 3600 * (a.second / 3600) + 60 * (a.second / 60 % 60) + a.second % 60 = a.second := by omega
  rw [this]

/-! ### readable -/

theorem time_value (l : Bool) : (timeUnit l).value = if l then 10 else 1 := by cases l <;> decide +kernel
theorem ra_value (l : Bool) : (raUnit l).value = raStep l := by cases l <;> decide +kernel
theorem dec_value (l : Bool) : (decUnit l).value = decStep l := by cases l <;> decide +kernel

theorem unit_digits {l : Bool} {u : Nat × Nat} (hu : u ∈ timeUnits) (h : (timeUnit l).value = (u.1 : Rat)) : u.2 = dayDigits l := by
  rw [time_value] at h
  have h1 : u.1 = if l then 10 else 1 := by
    cases l
    · have : ((u.1 : Nat) : Rat) = ((1 : Nat) : Rat) := h.symm
      exact_mod_cast this
    · have : ((u.1 : Nat) : Rat) = ((10 : Nat) : Rat) := h.symm
      exact_mod_cast this
  have q : ∀ l : Bool, ∀ u ∈ timeUnits, (u.1 = if l then 10 else 1) → u.2 = dayDigits l := by decide
  exact q l u hu h1

theorem readable_of {n l : Bool} (h : Ok (c! "optical") e) (hr : Returnable l e) {a : Sent} (hw : a.Writable) (hi : a.In (cmdOpts n l).precTime (cmdOpts n l).precRA (cmdOpts n l).precDec e) : a.Readable := by
  have pt : a.precTime = timeUnit l := by
    have := hi.precTime
    rw [field_absent h (n := c! "precTime") (by decide +kernel)] at this
    refine Xsd.text_inj (.of hw.precTime.1) (.of ?_) (this.symm.trans ?_)
    · cases l <;> exact by simp [Numeral.Valid, timeUnit]; try decide
    · cases n <;> cases l <;> decide
  have pr : a.precRA = raUnit l := by
    have := hi.precRA
    rw [field_absent h (n := c! "precRA") (by decide +kernel)] at this
    refine Xsd.text_inj (.of hw.precRA.1) (.of ?_) (this.symm.trans ?_)
    · cases l <;> exact by simp [Numeral.Valid, raUnit]
    · cases n <;> cases l <;> decide
  have pd : a.precDec = decUnit l := by
    have := hi.precDec
    rw [field_absent h (n := c! "precDec") (by decide +kernel)] at this
    refine Xsd.text_inj (.of hw.precDec.1) (.of ?_) (this.symm.trans ?_)
    · cases l <;> exact by simp [Numeral.Valid, decUnit]
    · cases n <;> cases l <;> decide
  have full1 : fullField (raStep l) = 60 := by cases l <;> decide +kernel
  have full2 : fullField (decStep l) = 60 := by cases l <;> decide +kernel
  have hstn := hr.stn _ hi.stn
  have htime := hr.time _ hi.obsTime
  rw [day_seconds hw] at htime
  have hcode : ∀ c ∈ a.stn, isSpace c = false := by
    obtain ⟨w, x, y, -⟩ := field_valid h (n := c! "stn") (by infields) hi.stn
    rw [code_strip x] at y
    subst y
    exact fun c hc => alnum_nospace (x.2.2 c hc)
  have hhalf : half 1 = (1 : Rat) / 2 + (1 : Rat) / ((10 ^ 9 : Nat) : Rat) := rfl
  constructor
  case noExt => exact hr.desig _ hw.desig hi.permID hi.provID hi.trkSub
  case disc =>
    intro c hc
    have hf := hi.disc
    rw [Option.mem_def.1 hc] at hf
    obtain ⟨w, x, y, -⟩ := field_valid h (n := c! "disc") (by infields) hf
    rcases x with rfl | rfl
    · left; have : c! "*" = [c] := y; cases this; rfl
    · right; have : c! "+" = [c] := y; cases this; rfl
  case notes =>
    intro t ht
    have hf := hi.notes
    rw [Option.mem_def.1 ht] at hf
    obtain ⟨x, y⟩ := hr.notes t hf
    refine ⟨x _ hi.stn, fun c hc => ⟨y c hc, ?_⟩⟩
    obtain ⟨w, p, q, -⟩ := field_valid h (n := c! "notes") (by infields) hf
    rw [code_strip p] at q
    subst q
    rintro rfl
    exact absurd (alnum_nospace (p.2.2 _ (List.mem_of_mem_head? hc))) (by decide)
  case prog =>
    intro i hi'
    have := hi.prog
    rw [field_absent h (n := c! "prog") (by decide +kernel), Option.mem_def.1 hi'] at this
    cases this
  case deprecated =>
    intro hd
    have := hi.deprecated
    rw [field_absent h (n := c! "deprecated") (by decide +kernel), hd] at this
    cases this
  case stn => exact ⟨hstn, hcode⟩
  case band =>
    intro b hb
    have hf := hi.band
    rw [Option.mem_def.1 hb] at hf
    obtain ⟨w, p, q, -⟩ := field_valid h (n := c! "band") (by infields) hf
    rw [code_strip p] at q
    subst q
    unfold bandLetter
    split
    · cases w with
      | nil => exact absurd p.1 (by simp)
      | cons c w => exact alnum_nospace (p.2.2 c (by simp))
    · rename_i hl
      have hlet : ∀ x ∈ bandLetters, isSpace x.2 = false := by decide
      cases hx : bandLetters.find? fun x => x.1 = w with
      | some x => exact hlet x (List.mem_of_find?_eq_some hx)
      | none =>
        have : 1 < w.length := by omega
        simp only [Option.map_none, Option.getD_none, List.getD_eq_getElem?_getD, List.getElem?_eq_getElem this, Option.getD_some]
        exact alnum_nospace (p.2.2 _ (List.getElem_mem this))
  case ref =>
    intro r hr'
    have := hi.ref
    rw [field_absent h (n := c! "ref") (by decide +kernel), Option.mem_def.1 hr'] at this
    cases this
  case place =>
    have hp := hi.place
    cases hpl : a.place with
    | ground => trivial
    | spacecraft au x y z => trivial
    | rover lon lat alt =>
      rw [hpl] at hp
      obtain ⟨p1, p2, p3, p4⟩ := hp
      obtain ⟨r1, r2⟩ := hr.rover p1
      have sg : ∀ {n v : Str}, (n, fun v => Signed 13 (Spec.Xsd.trim v)) ∈ fieldValue → fieldOf e n = some v → ∀ c ∈ v, c ∈ numberChars := by
        intro n v hp hf
        obtain ⟨w, ⟨m, x, x', -⟩, y, -⟩ := field_valid h hp hf
        rw [← y, strip_numeral x.1 x']
        have q : ∀ c ∈ c! "+-.0123456789", c ∈ numberChars := by decide
        exact fun c hc => q c (text_chars x.1 c hc)
      refine ⟨Option.some.inj (hi.stn.symm.trans r1), fun c hc => ?_, r2 _ p4⟩
      rcases List.mem_append.1 hc with hc | hc
      · rcases List.mem_append.1 hc with hc | hc
        · exact sg (n := c! "pos1") (by infields) p2 c hc
        · exact sg (n := c! "pos2") (by infields) p3 c hc
      · exact sg (n := c! "pos3") (by infields) p4 c hc
  case midnight =>
    intro u hu hv
    rw [pt] at hv
    rw [unit_digits hu hv, ← hhalf]
    exact htime.1
  case late =>
    intro u hu hv j hj
    rw [pt] at hv
    rw [unit_digits hu hv, ← hhalf]
    exact htime.2 j hj
  case precDec =>
    rw [pd, dec_value]
    cases l <;> decide +kernel
  case raFull =>
    rw [pr, ra_value, full1]
    exact hr.ra _ hw.ra.1 hi.ra
  case decFull =>
    rw [pd, dec_value, full2]
    exact hr.dec _ hw.dec.1 hi.dec

end Verif.Trip80
