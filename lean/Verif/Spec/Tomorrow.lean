import Verif.Spec.ObsDate
/-!
  Spec.Tomorrow : the day after a day of the Gregorian calendar.
-/
namespace Verif.Spec

/-- the day after: no days after 31 December 9999 -/
def tomorrow (y m d : Nat) : Option (Nat × Nat × Nat) :=
  if d < monthDays y m then some (y, m, d + 1) else if m ≠ 12 then some (y, m + 1, 1) else if y ≠ 9999 then some (y + 1, 1, 1) else none

end Verif.Spec
