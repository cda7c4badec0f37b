import Verif.Spec.Decoded
/-!
  Spec.Second : what a line has to look like to be taken as the second line of an observation from a spacecraft or of a roving observer.
-/
namespace Verif.Spec.Second
open Verif Verif.Spec Verif.Spec.Mpc80 Verif.Spec.Decoded

/-- the columns that every line of an observation has, with a condition on its date -/
structure FrontColumns (D : Str → Prop) (line : Str) : Prop where
  width : line.length = 80
  desig : DesignationColumns (cols line 1 12)
  disc : ∃ c, cols line 13 13 = [c] ∧ c ∈ [' ', '*', '+']
  note : ∃ c, cols line 14 14 = [c] ∧ NoteColumn (cols line 78 80) c
  date : D (cols line 16 32)

/-- a digit, a blank or a decimal point -/
def placeChars : Str := c! "0123456789. "

/-- The eleven columns of a coordinate with `w` places before the point: a sign, then a whole part `a` that ends at place `w` (or, when it is longer, begins at
    the first place), then nothing, or a point and anything.  A whole part may be missing, and blanks inside it are not noticed. -/
def CoordColumns (w : Nat) (t : Str) : Prop :=
  ∃ (s : Char) (a rest : Str), (s = '+' ∨ s = '-') ∧ t = s :: (List.leftpad w ' ' a ++ rest) ∧ t.length = 11 ∧ (∀ c ∈ a ++ rest, c ∈ placeChars) ∧ '.' ∉ a ∧ a.head? ≠ some ' ' ∧
    ((a.getLast? ≠ some ' ' ∧ ∃ k, rest = List.replicate k ' ') ∨ ∃ b, '.' ∉ b ∧ rest = '.' :: b)

/-- the columns of a spacecraft's line.  Nothing is asked of columns 34, 46, 58 and 73 to 80. -/
structure SatelliteColumns (line : Str) : Prop where
  front : FrontColumns DateColumns line
  code : cols line 15 15 = ['s']
  place : ∃ w, ((cols line 33 33 = ['1'] ∧ w = 5) ∨ (cols line 33 33 = ['2'] ∧ w = 1)) ∧ CoordColumns w (cols line 35 45) ∧ CoordColumns w (cols line 47 57) ∧ CoordColumns w (cols line 59 69)
  gap : cols line 70 72 = c! "   "

/-- digits, signs, blanks and points, in any order -/
def roverChars : Str := c! "0123456789+-. "

/-- the columns of a roving observer's line.  Its coordinates need not be numbers. -/
structure RoverColumns (line : Str) : Prop where
  front : FrontColumns DateColumns line
  code : cols line 15 15 = ['v']
  one : cols line 33 34 = c! "1 "
  lon : ∀ c ∈ cols line 35 44, c ∈ roverChars
  gap1 : cols line 45 45 = c! " "
  lat : ∀ c ∈ cols line 46 55, c ∈ roverChars
  gap2 : cols line 56 56 = c! " "
  alt : ∀ c ∈ cols line 57 61, c ∈ roverChars
  gap3 : cols line 62 71 = c! "          "
  stn : cols line 78 80 = c! "247"

/-! ### radar -/

/-- half a unit of the last digit of a date, in seconds -/
def halfUnit (d : ObsDate) : Rat := 43200 / (10 ^ d.digits : Nat)

/-- the date of a radar observation: a whole second of the day is nearer than half a unit of the last digit -/
def RadarDate (t : Str) : Prop := ∃ d : ObsDate, d.Valid ∧ t = d.column ∧ ∃ w : Nat, w < 86400 ∧ (w : Rat) - d.seconds < halfUnit d ∧ d.seconds - w < halfUnit d

/-- a date with five or six digits from which a whole second of the day is just half a unit of the last digit away -/
def RadarTie (t : Str) : Prop := ∃ d : ObsDate, d.Valid ∧ t = d.column ∧ 5 ≤ d.digits ∧ ∃ w : Nat, w < 86400 ∧ ((w : Rat) - d.seconds = halfUnit d ∨ d.seconds - w = halfUnit d)

/-- the last half second of the year 9999, after which there is no whole second.  (The digits may be those of any script.) -/
def LastHalfSecond (t : Str) : Prop :=
  ∃ Y M D F, Unpacking.Digits 4 Y ∧ Unpacking.Digits 2 M ∧ Unpacking.Digits 2 D ∧ Unpacking.Digits 6 F ∧ t = Y ++ ' ' :: M ++ ' ' :: D ++ '.' :: F ∧
    Packing.value Y = 9999 ∧ Packing.value M = 12 ∧ Packing.value D = 31 ∧ 999995 ≤ Packing.value F

/-- the columns of the first line of a radar observation.  Nothing is asked of columns 69 to 80, nor of the numbers. -/
structure RadarFirstColumns (line : Str) : Prop where
  front : FrontColumns RadarDate line
  code : cols line 15 15 = ['R']
  delay : ∀ c ∈ cols line 33 47, c ∈ placeChars
  sign : ∃ c, cols line 48 48 = [c] ∧ c ∈ [' ', '+', '-']
  shift : ∀ c ∈ cols line 49 68, c ∈ placeChars

/-- and of the second one -/
structure RadarSecondColumns (line : Str) : Prop where
  front : FrontColumns RadarDate line
  code : cols line 15 15 = ['r']
  bounce : ∃ c, cols line 33 33 = [c] ∧ c ∈ ['S', 'C']
  numbers : ∀ c ∈ cols line 34 68, c ∈ placeChars

end Verif.Spec.Second
