import Verif.Spec.Mpc80
import Verif.Spec.Mpc80Optical
import Verif.Spec.Unpacking
/-!
  Spec.Decoded : what a line has to look like to be taken as an optical observation.
-/
namespace Verif.Spec.Decoded
open Verif Verif.Spec Verif.Spec.Mpc80 Verif.Spec.Unpacking

/-- an ASCII letter or digit -/
def LetterOrDigit (c : Char) : Prop := ∃ k, k < 62 ∧ c = b62 k

/-- the codes of optical lines (column 15) -/
def opticalCodes : Str := c! "A PeCBTMcEOHNnSVXx"

/-- columns 16-32: a date that exists, but for those with six digits that are `late` -/
def DateColumns (t : Str) : Prop := ∃ d : ObsDate, d.Valid ∧ t = d.column ∧ (d.late → d.digits ≤ 5)

/-- a date in the right form, from 1600 on, whose month has no such day.  (The digits may be those of any script.) -/
def NoSuchDay (t : Str) : Prop :=
  ∃ Y M D F rest, Unpacking.Digits 4 Y ∧ Unpacking.Digits 2 M ∧ Unpacking.Digits 2 D ∧ Packing.Number F ∧ t = Y ++ ' ' :: M ++ ' ' :: D ++ '.' :: F ++ rest ∧
    1600 ≤ Packing.value Y ∧ 1 ≤ Packing.value M ∧ Packing.value M ≤ 12 ∧ monthDays (Packing.value Y) (Packing.value M) < Packing.value D ∧ Packing.value D ≤ 31

/-- columns 1-12: they stand for a designation, and contain no underscore and no hyphen or other sign -/
structure DesignationColumns (t : Str) : Prop where
  means : ∃ p q k, Unpacks t p q k
  first : ∀ c ∈ t.take 1, LetterOrDigit c ∨ c = ' ' ∨ c = '~'
  rest : ∀ c ∈ t.drop 1, LetterOrDigit c ∨ c = ' '

/-- column 14, for an observatory -/
def NoteColumn (stn : Str) (c : Char) : Prop := if stn ∈ PackUtil.programCodeSites then c = ' ' ∨ c ∈ programLetters else c ∈ noteLetters

/-- the columns of an optical observation.  Nothing is asked of columns 57 to 80. -/
structure OpticalColumns (line : Str) : Prop where
  width : line.length = 80
  desig : DesignationColumns (cols line 1 12)
  disc : ∃ c, cols line 13 13 = [c] ∧ c ∈ [' ', '*', '+']
  note : ∃ c, cols line 14 14 = [c] ∧ NoteColumn (cols line 78 80) c
  code : ∃ c, cols line 15 15 = [c] ∧ c ∈ opticalCodes
  date : DateColumns (cols line 16 32)
  ra : ∃ r : Sexagesimal, r.Valid 3 ∧ cols line 33 44 = Spec.column 12 r.text
  dec : ∃ (south : Bool) (r : Sexagesimal), r.Valid 2 ∧ cols line 45 56 = Spec.column 12 ((if south then '-' else '+') :: r.text)

end Verif.Spec.Decoded
