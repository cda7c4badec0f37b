import Verif.Lemmas.DateAccept
import Verif.Props.Sexagesimal
/-!
  C60: which texts are accepted in the columns of the date, the right ascension and the declination.
-/
namespace Verif
open Verif.Sex

/-- **C60.** Of all texts of twelve characters the right ascension check accepts exactly the columns of Spec.Sexagesimal: two digits of
    hours, less than 60 minutes, less than 60 seconds, single blanks between them, ASCII digits, blanks only at the end. -/
theorem C60_ra (t : Str) (hl : t.length = 12) :
    (∃ x, checkRa t = .ok x) ↔ ∃ r : Spec.Sexagesimal, r.Valid 3 ∧ t = Spec.column 12 r.text := by
  constructor
  · rintro ⟨x, hx⟩
    rcases ra_any t hl with h | h
    · rw [h] at hx; cases hx
    · exact h
  · rintro ⟨r, hr, rfl⟩
    obtain ⟨K, h, -⟩ := C30_accepted r hr
    exact ⟨_, h⟩

/-- **C60.** All others raise RuntimeError, and no other exception. -/
theorem C60_ra_fails (t : Str) (hl : t.length = 12) (hn : ¬ ∃ r : Spec.Sexagesimal, r.Valid 3 ∧ t = Spec.column 12 r.text) :
    checkRa t = .error .runtimeError := (ra_any t hl).resolve_right hn

/-- **C60.** The declination: the same after a sign, which has to be there, with at most two decimals of the seconds. -/
theorem C60_dec (t : Str) (hl : t.length = 12) :
    (∃ x, checkDec t = .ok x) ↔ ∃ (neg : Bool) (r : Spec.Sexagesimal), r.Valid 2 ∧ t = Spec.column 12 ((if neg then '-' else '+') :: r.text) := by
  constructor
  · rintro ⟨x, hx⟩
    rcases dec_any t hl with h | h
    · rw [h] at hx; cases hx
    · exact h
  · rintro ⟨neg, r, hr, rfl⟩
    obtain ⟨K, h, -⟩ := C31_accepted neg r hr
    exact ⟨_, h⟩

theorem C60_dec_fails (t : Str) (hl : t.length = 12)
    (hn : ¬ ∃ (neg : Bool) (r : Spec.Sexagesimal), r.Valid 2 ∧ t = Spec.column 12 ((if neg then '-' else '+') :: r.text)) :
    checkDec t = .error .runtimeError := (dec_any t hl).resolve_right hn

/-- **C60.** Of all texts the date check accepts exactly the columns of dates that exist, from the year 1600 on, with one to six digits of the
    day, but for those with six digits on which the binary arithmetic fails (`late`, C32). -/
theorem C60_date (t : Str) :
    (∃ x, checkDate t = .ok x) ↔ ∃ d : Spec.ObsDate, d.Valid ∧ t = d.column ∧ (d.late → d.digits ≤ 5) := by
  constructor
  · rintro ⟨x, hx⟩
    obtain ⟨d, hd, rfl⟩ := date_any hx
    refine ⟨d, hd, rfl, fun hl => ?_⟩
    by_contra h5
    have h6 : d.digits ≤ 6 := hd.2.2.2.2.2.2.2.1
    rw [C32_refused d hd hl (by omega)] at hx
    cases hx
  · rintro ⟨d, hd, rfl, hl⟩
    by_cases h : d.late
    · obtain ⟨w, -, -, hw⟩ := C32_late d hd h (hl h)
      exact ⟨_, hw⟩
    · obtain ⟨w, ms, -, -, -, hw, -⟩ := C32_round_trip d hd h
      exact ⟨_, hw⟩

/-- **C60.** With radar's whole seconds as well, only such columns are accepted. -/
theorem C60_date_radar (t : Str) (x : Str × Num) (h : checkDate t true = .ok x) : ∃ d : Spec.ObsDate, d.Valid ∧ t = d.column := date_any h

namespace SamplePositions
/-- a right ascension -/
example : "10 59 59.999".toList.length = 12 ∧ (∃ x, checkRa "10 59 59.999".toList = .ok x) := by
  refine ⟨by decide, ?_⟩
  exact (C60_ra _ (by decide)).2 ⟨.seconds 10 59 59 3 999, by unfold Spec.Sexagesimal.Valid; omega, by decide +kernel⟩
/-- sixty minutes, sixty seconds, a one-digit hour, a point without decimals, a digit of another script, a leading blank -/
theorem refused : checkRa "10 60 00.00 ".toList = .error .runtimeError ∧ checkRa "10 59 60.00 ".toList = .error .runtimeError ∧
    checkRa "1 59 59.00  ".toList = .error .runtimeError ∧ checkRa "10 59 59.   ".toList = .error .runtimeError ∧
    checkRa "1٠ 59 59.00 ".toList = .error .runtimeError ∧ checkRa " 10 59 59.00".toList = .error .runtimeError ∧
    checkRa "99 99 99.99 ".toList = .error .runtimeError ∧ checkDec "10 59 59.00 ".toList = .error .runtimeError ∧
    checkDec "+10 60 00.0 ".toList = .error .runtimeError ∧ checkDate "1599 01 01.5     ".toList = .error .runtimeError := by decide +kernel
/-- and so it is not a column -/
example : ¬ ∃ r : Spec.Sexagesimal, r.Valid 3 ∧ "10 60 00.00 ".toList = Spec.column 12 r.text := by
  intro h
  obtain ⟨x, hx⟩ := (C60_ra _ (by decide)).2 h
  rw [refused.1] at hx; cases hx
example : ∃ x, checkDate "2016 08 29.5     ".toList = .ok x :=
  (C60_date _).2 ⟨⟨2016, 8, 29, 1, 5⟩, by unfold Spec.ObsDate.Valid; decide, by decide +kernel, fun _ => by decide⟩
end SamplePositions

end Verif
