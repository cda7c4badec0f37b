import Verif.Spec.Sexagesimal
import Verif.Spec.Numeral
/-
  Spec.Angles : sexagesimal columns written for arbitrary angles, without reference to the program.
-/
namespace Verif.Spec

/-- a reading whose rounding was not carried over: a field is 60 and everything after it is zero -/
def Sexagesimal.Uncarried (maxd : Nat) : Sexagesimal → Prop
  | .seconds h m s d f => h < 100 ∧ (m < 60 ∧ s = 60 ∨ m = 60 ∧ s = 0) ∧ 1 ≤ d ∧ d ≤ maxd ∧ f = 0
  | .wholeSeconds h m s => h < 100 ∧ (m < 60 ∧ s = 60 ∨ m = 60 ∧ s = 0)
  | .minutes h m d f => h < 100 ∧ m = 60 ∧ 1 ≤ d ∧ d ≤ 2 ∧ f = 0
  | .wholeMinutes h m => h < 100 ∧ m = 60

/-- the units of ADES precisions, in seconds: 1, 0.1, 0.01, 0.001 seconds and 60, 6, 0.6 seconds (1, 0.1, 0.01 minutes) -/
def AngleUnit (u : Rat) : Prop := (∃ d : Nat, d ≤ 3 ∧ u = 1 / ((10 ^ d : Nat) : Rat)) ∨ (∃ d : Nat, d ≤ 2 ∧ u = 60 / ((10 ^ d : Nat) : Rat))

/-- what a full last field amounts to: a minute if the precision is in seconds, an hour (a degree) if it is in minutes -/
def fullField (u : Rat) : Rat := if 1 < u ∨ u = 6 / 10 then 3600 else 60

/-- `x` is not within `half` of a multiple of `m` -/
def FarFrom (m x half : Rat) : Prop := ∀ j : Nat, half < x - m * j ∨ x - m * j < -half

end Verif.Spec
