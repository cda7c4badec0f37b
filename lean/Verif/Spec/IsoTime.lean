import Verif.Spec.ObsDate
/-!
  Verif.Spec.IsoTime : times as ADES writes them, for C48.
-/
namespace Verif.Spec

/-- "YYYY-MM-DDThh:mm:ss" followed by `t`; every field but the year has two digits, with any value -/
def isoText (y mo d h mi s : Nat) (t : List Char) : List Char :=
  dec y ++ ['-'] ++ fixed 2 mo ++ ['-'] ++ fixed 2 d ++ ['T'] ++ fixed 2 h ++ [':'] ++ fixed 2 mi ++ [':'] ++ fixed 2 s ++ t

/-- There is such a time (not counting leap seconds). -/
def TimeOk (y mo d h mi s : Nat) : Prop := 1 ≤ mo ∧ mo ≤ 12 ∧ 1 ≤ d ∧ d ≤ monthDays y mo ∧ h < 24 ∧ mi < 60 ∧ s < 60

/-- what may stand after the seconds: `Z`, or a fraction of digits and `Z` -/
inductive IsoEnd : List Char → Option (List Char) → Prop
  | whole : IsoEnd ['Z'] none
  | fraction {ds : List Char} (h : ∀ c ∈ ds, c ∈ ['0', '1', '2', '3', '4', '5', '6', '7', '8', '9']) : IsoEnd ('.' :: ds ++ ['Z']) (some ds)

end Verif.Spec
