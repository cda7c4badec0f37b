import Verif.Spec.Sent
import Verif.Spec.Fields
import Verif.Spec.Widths
/-!
  Spec.Submit80 : what an optical observation of a valid submission must satisfy, beyond validity, to be written in 80 columns.
-/
namespace Verif.Spec
open Verif Verif.Xml Verif.Spec.Mpc80

/-- a number with a point, at most `w` digits before it, and at least one and at most `9 - w` after it -/
def PointNumber (w : Nat) (v : List Char) : Prop :=
  ∃ n : Numeral, n.Valid ∧ v = n.text ∧ n.whole.length ≤ w ∧ ∃ f, n.frac = some f ∧ 1 ≤ f.length ∧ f.length ≤ 9 - w

/-- Beyond validity: no artificial satellite; a designation that can be packed; a mode that has a letter (unless a position is given); not one of the stations 275 and 244; a time in ASCII from the year 1600 on that is
    neither a leap second nor 24 o'clock; a declination that is not within 10⁻⁹ seconds of a tie of two values with a full minute between them (`unit` is the precision); a position in one of the three systems
    the 80-column format has, that fits its columns. -/
structure Convertible (unit : Rat) (e : Elem) : Prop where
  artSat : fieldOf e (c! "artSat") = none
  desig : ∃ d : Designation, d.Valid ∧ fieldOf e (c! "permID") = d.permText ∧ fieldOf e (c! "provID") = d.provText ∧ ∀ t, d.trkText = some t → fieldOf e (c! "trkSub") = some t
  mode : fieldOf e (c! "pos1") = none → ∃ m ∈ modeLetters.map Prod.fst, fieldOf e (c! "mode") = some m
  stn : fieldOf e (c! "stn") ≠ some (c! "275") ∧ fieldOf e (c! "stn") ≠ some (c! "244")
  time : ∀ t, fieldOf e (c! "obsTime") = some t → AsciiText t ∧ 1600 ≤ digitsNat (t.take 4) ∧ (t.drop 11).take 2 ≠ c! "24" ∧ (t.drop 17).take 2 ≠ c! "60"
  dec : ∀ n : Numeral, n.Valid → fieldOf e (c! "dec") = some n.text → FarFrom 60 (3600 * n.size + unit / 2) (1 / ((10 ^ 9 : Nat) : Rat))
  sys : fieldOf e (c! "sys") ≠ some (c! "ITRF") ∧ fieldOf e (c! "sys") ≠ some (c! "IAU")
  wgs84 : fieldOf e (c! "sys") = some (c! "WGS84") → ∀ n ∈ [c! "pos1", c! "pos2"], ∀ v, fieldOf e n = some v → Fits v
  icrf_au : fieldOf e (c! "sys") = some (c! "ICRF_AU") → ∀ n ∈ [c! "pos1", c! "pos2", c! "pos3"], ∀ v, fieldOf e n = some v → PointNumber 1 v
  icrf_km : fieldOf e (c! "sys") = some (c! "ICRF_KM") → ∀ n ∈ [c! "pos1", c! "pos2", c! "pos3"], ∀ v, fieldOf e n = some v → PointNumber 5 v

/-- Beyond validity: a station of `w` characters other than 244, at most 12 characters of an artificial satellite, times in ASCII from the year 1000 on, and at most 5 characters of an altitude. -/
structure Narrow (w : Nat) (e : Elem) : Prop where
  stn : ∀ v, FieldValue e (c! "stn") v → v.length = w ∧ v ≠ c! "244"
  artSat : ∀ v, FieldValue e (c! "artSat") v → v.length ≤ 12
  time : ∀ v, FieldValue e (c! "obsTime") v → AsciiText v ∧ 1000 ≤ digitsNat (v.take 4)
  pos3 : FieldValue e (c! "sys") (c! "WGS84") → ∀ v, FieldValue e (c! "pos3") v → v.length ≤ 5

end Verif.Spec
