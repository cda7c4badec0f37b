import Verif.Spec.Numeral
import Verif.Xml
/-
  Spec.Widths : the ADES observations whose values fit the columns of the 80-column format, written without reference to the program.
-/
namespace Verif.Spec
open Verif.Xml

/-- `v` is the value of a field of an element: the text of a child of that name, without white space at its ends, if anything is left -/
def FieldValue (e : Elem) (name v : List Char) : Prop := ∃ k ∈ e.kids, ∃ t, k.tag = name ∧ k.text = some t ∧ strip t = v ∧ v ≠ []

/-- The values of an optical observation fit their columns, except that the station code has `w` characters.  With `w = 3 ∨ w = 4` all of this except the conditions
    `years`, `precTime`, `precDec` and `pos3` (which only concerns the second line) is required by the ADES schema. -/
structure FitsOptical (w : Nat) (e : Elem) : Prop where
  disc : ∀ v, FieldValue e "disc".toList v → v.length = 1
  deprecated : ∀ v, FieldValue e "deprecated".toList v → v.length = 1
  artSat : ∀ v, FieldValue e "artSat".toList v → v.length ≤ 12
  stn : ∀ v, FieldValue e "stn".toList v → v.length = w ∧ v ≠ "244".toList
  years : ∀ v, FieldValue e "obsTime".toList v → ∃ y rest, 1000 ≤ y ∧ y ≤ 9999 ∧ v = dec y ++ rest
  ra : ∀ v, FieldValue e "ra".toList v ∨ FieldValue e "raStar".toList v → ∃ n : Numeral, n.Valid ∧ v = n.text ∧ n.size ≤ 360
  dec : ∀ v, FieldValue e "dec".toList v ∨ FieldValue e "decStar".toList v → ∃ n : Numeral, n.Valid ∧ v = n.text ∧ n.size ≤ 90
  precTime : ∀ v, FieldValue e "precTime".toList v → ∃ n : Numeral, n.Valid ∧ v = n.text ∧ 1 ≤ n.size
  precRA : ∀ v, FieldValue e "precRA".toList v → ∃ n : Numeral, n.Valid ∧ v = n.text ∧ 1 / 1000 ≤ n.size
  precDec : ∀ v, FieldValue e "precDec".toList v → ∃ n : Numeral, n.Valid ∧ v = n.text ∧ 1 / 100 ≤ n.size
  pos3 : FieldValue e "sys".toList "WGS84".toList → ∀ v, FieldValue e "pos3".toList v → v.length ≤ 5

/-- The values of a radar observation fit their columns: no more digits before and after the point than there are columns. -/
structure FitsRadar (e : Elem) : Prop where
  disc : ∀ v, FieldValue e "disc".toList v → v.length = 1
  notes : ∀ v, FieldValue e "notes".toList v → v.length = 1
  years : ∀ v, FieldValue e "obsTime".toList v → ∃ y rest, 1000 ≤ y ∧ y ≤ 9999 ∧ v = dec y ++ rest
  delay : ∀ v, FieldValue e "delay".toList v → ∃ n : Numeral, n.Valid ∧ v = n.text ∧ n.sign = none ∧ n.whole.length ≤ 5 ∧ (n.frac.getD []).length ≤ 10
  rmsDelay : ∀ v, FieldValue e "rmsDelay".toList v → ∃ n : Numeral, n.Valid ∧ v = n.text ∧ n.sign = none ∧ n.whole.length ≤ 10 ∧ (n.frac.getD []).length ≤ 4
  doppler : ∀ v, FieldValue e "doppler".toList v → ∃ n : Numeral, n.Valid ∧ v = n.text ∧ n.whole.length ≤ 10 ∧ (n.frac.getD []).length ≤ 4
  rmsDoppler : ∀ v, FieldValue e "rmsDoppler".toList v → ∃ n : Numeral, n.Valid ∧ v = n.text ∧ n.sign = none ∧ n.whole.length ≤ 11 ∧ (n.frac.getD []).length ≤ 4
  frq : ∀ v, FieldValue e "frq".toList v → ∃ n : Numeral, n.Valid ∧ v = n.text ∧ n.sign = none ∧ n.whole.length ≤ 5 ∧ (n.frac.getD []).length ≤ 1
  trx : ∀ v, FieldValue e "trx".toList v → v.length = 3
  rcv : ∀ v, FieldValue e "rcv".toList v → v.length = 3
  ref : ∀ v, FieldValue e "ref".toList v → v.length = 5

/-- the observations of a document: those in the obsData of its blocks, and those directly under the root -/
def observations (root : Elem) : List Elem :=
  root.kids.flatMap fun c => if c.tag = "obsBlock".toList then (c.kids.filter fun d => d.tag = "obsData".toList).flatMap Elem.kids else [c]

/-- a header line -/
def IsHeader (l : List Char) : Prop :=
  l.take 4 ∈ ["COD ".toList, "CON ".toList, "OBS ".toList, "MEA ".toList, "TEL ".toList, "COM ".toList]

end Verif.Spec
