import Verif.Lemmas.SexDec
/-!
  C30 (right ascension) and C31 (declination): the conversions between sexagesimal columns and decimal degrees, through
  binary floating point.

  The specification is `Spec.Sexagesimal`: a reading, its text, its exact value in seconds and the unit of its last place.
-/
namespace Verif
open Verif.Sex Verif.Flt

/-- the precision returned for a reading -/
def precOf (r : Spec.Sexagesimal) : Num := (Sex.read r).prec

/-- The precision returned is the unit of the last place (as a float). -/
theorem precision_is_unit {r : Spec.Sexagesimal} (h : r.Valid 3) : (precOf r).f = ofRat r.unit := read_prec h

/-! ### C30 -/

/-- **C30.** For every right ascension column (00–99 hours, seconds with up to three decimals or none, minutes with up to two
    decimals or none) the decimal degrees are within half a unit of their last place (and 10^-11) of the exact value, and
    converting them back with the precision gives the column. -/
theorem C30_round_trip (r : Spec.Sexagesimal) (h : r.Valid 3) : ∃ K : Nat,
    sexRaToDecRa (Spec.column 12 r.text) = .ok (Spec.decimal r.raDecimals K, precOf r) ∧
    |(K : ℚ) / 10 ^ r.raDecimals - r.amount * 15 / 3600| ≤ 1 / 2 / 10 ^ r.raDecimals + 1 / 10 ^ 11 ∧
    decRaToSexRa (Spec.decimal r.raDecimals K) (precOf r) = .ok (Spec.column 12 r.text) := by
  obtain ⟨K, h1, h2, h3⟩ := ra_roundtrip h
  refine ⟨K, h1, ?_, h3⟩
  rw [show r.amount * 15 / 3600 = r.amount / 240 by ring]
  exact h2

/-- **C30.** `checkRa` accepts every such column, with these results. -/
theorem C30_accepted (r : Spec.Sexagesimal) (h : r.Valid 3) : ∃ K : Nat,
    checkRa (Spec.column 12 r.text) = .ok (Spec.decimal r.raDecimals K, precOf r) ∧
    |(K : ℚ) / 10 ^ r.raDecimals - r.amount * 15 / 3600| ≤ 1 / 2 / 10 ^ r.raDecimals + 1 / 10 ^ 11 := by
  obtain ⟨K, h1, h2, h3⟩ := C30_round_trip r h
  refine ⟨K, ?_, h2⟩
  unfold checkRa
  rw [h1]
  simp only [bind, Except.bind, h3, ne_eq, not_true_eq_false, if_false, pure, Except.pure]

/-- **C30.** Whatever the text, when `checkRa` accepts it the results convert back to it. -/
theorem C30_checked (t : Str) (d : Str) (p : Num) (h : checkRa t = .ok (d, p)) : decRaToSexRa d p = .ok t := by
  unfold checkRa at h
  simp only [bind, Except.bind, pure, Except.pure] at h
  split at h
  · simp at h
  · rename_i v hv
    obtain ⟨a, b⟩ := v
    simp only at h
    split at h
    · simp at h
    · rename_i w hw
      split at h
      · simp [raiseRT] at h
      · rename_i he
        injection h with h
        injection h with h1 h2
        subst h1; subst h2
        rw [hw]; simp only [ne_eq, Decidable.not_not] at he; rw [he]

/-- different columns of the same kind have different decimal degrees -/
theorem C30_injective (r s : Spec.Sexagesimal) (hr : r.Valid 3) (hs : s.Valid 3)
    (h : sexRaToDecRa (Spec.column 12 r.text) = sexRaToDecRa (Spec.column 12 s.text)) : Spec.column 12 r.text = Spec.column 12 s.text := by
  obtain ⟨K, h1, _, h3⟩ := C30_round_trip r hr
  obtain ⟨K', h1', _, h3'⟩ := C30_round_trip s hs
  rw [h1, h1'] at h
  injection h with h
  injection h with ha hb
  rw [ha, hb, h3'] at h3
  injection h3 with h3
  exact h3.symm

example : (Spec.Sexagesimal.seconds 23 59 59 3 999).Valid 3 ∧
    checkRa (c! "23 59 59.999") = .ok (c! "359.999996", precOf (.seconds 23 59 59 3 999)) :=
  ⟨by simp [Spec.Sexagesimal.Valid], by decide +kernel⟩
example : (Spec.Sexagesimal.minutes 12 34 1 5).Valid 3 ∧
    checkRa (c! "12 34.5     ") = .ok (c! "188.62", .int 6) :=
  ⟨by simp [Spec.Sexagesimal.Valid], by decide +kernel⟩

/-! ### C31 -/

/-- **C31.** For every declination column (either sign, 00–99 degrees, arc seconds with up to two decimals or none, arc minutes
    with up to two decimals or none) the decimal degrees are within half a unit of their last place (and 10^-11) of the exact
    value, they carry the sign, and converting them back with the precision gives the column, the sign of −00 included. -/
theorem C31_round_trip (neg : Bool) (r : Spec.Sexagesimal) (h : r.Valid 2) : ∃ K : Nat,
    let column := Spec.column 12 ((if neg then '-' else '+') :: r.text)
    let degrees := if neg then '-' :: Spec.decimal r.decDecimals K else Spec.decimal r.decDecimals K
    sexDeclToDecDecl column = .ok (degrees, precOf r) ∧
    |(K : ℚ) / 10 ^ r.decDecimals - r.amount / 3600| ≤ 1 / 2 / 10 ^ r.decDecimals + 1 / 10 ^ 11 ∧
    degDeclToSexDecl degrees (precOf r) = .ok column :=
  dec_roundtrip neg h

/-- **C31.** `checkDec` accepts every such column, with these results. -/
theorem C31_accepted (neg : Bool) (r : Spec.Sexagesimal) (h : r.Valid 2) : ∃ K : Nat,
    checkDec (Spec.column 12 ((if neg then '-' else '+') :: r.text)) =
      .ok (if neg then '-' :: Spec.decimal r.decDecimals K else Spec.decimal r.decDecimals K, precOf r) ∧
    |(K : ℚ) / 10 ^ r.decDecimals - r.amount / 3600| ≤ 1 / 2 / 10 ^ r.decDecimals + 1 / 10 ^ 11 := by
  obtain ⟨K, h1, h2, h3⟩ := C31_round_trip neg r h
  refine ⟨K, ?_, h2⟩
  unfold checkDec
  rw [h1]
  simp only [bind, Except.bind, h3, ne_eq, not_true_eq_false, if_false, pure, Except.pure]

/-- **C31.** Whatever the text, when `checkDec` accepts it the results convert back to it. -/
theorem C31_checked (t : Str) (d : Str) (p : Num) (h : checkDec t = .ok (d, p)) : degDeclToSexDecl d p = .ok t := by
  unfold checkDec at h
  simp only [bind, Except.bind, pure, Except.pure] at h
  split at h
  · simp at h
  · rename_i v hv
    obtain ⟨a, b⟩ := v
    simp only at h
    split at h
    · simp at h
    · rename_i w hw
      split at h
      · simp [raiseRT] at h
      · rename_i he
        injection h with h
        injection h with h1 h2
        subst h1; subst h2
        rw [hw]; simp only [ne_eq, Decidable.not_not] at he; rw [he]

/-- **C31.** The sign column is never lost: opposite signs never convert to the same text. -/
theorem C31_sign (r s : Spec.Sexagesimal) (hr : r.Valid 2) (hs : s.Valid 2) :
    sexDeclToDecDecl (Spec.column 12 ('-' :: r.text)) ≠ sexDeclToDecDecl (Spec.column 12 ('+' :: s.text)) := by
  obtain ⟨K, h1, -, h3⟩ := C31_round_trip true r hr
  obtain ⟨K', h1', -, h3'⟩ := C31_round_trip false s hs
  simp only [if_true, Bool.false_eq_true, if_false] at h1 h1' h3 h3'
  rw [h1, h1']
  intro h
  injection h with h
  injection h with ha hb
  rw [ha, hb, h3'] at h3
  injection h3 with h3
  rw [column_sign, column_sign] at h3
  simp at h3

example : (Spec.Sexagesimal.seconds 0 0 0 2 0).Valid 2 ∧ checkDec (c! "-00 00 00.00") = .ok (c! "-0.000000", precOf (.seconds 0 0 0 2 0)) :=
  ⟨by simp [Spec.Sexagesimal.Valid], by decide +kernel⟩
example : (Spec.Sexagesimal.seconds 89 59 59 1 9).Valid 2 ∧ checkDec (c! "+89 59 59.9 ") = .ok (c! "89.99997", precOf (.seconds 89 59 59 1 9)) :=
  ⟨by simp [Spec.Sexagesimal.Valid], by decide +kernel⟩

end Verif
