import Verif.Spec.SimpleTypes
/-!
  Spec.Fields : the values of ADES fields in a submission, in words of the ADES document.
-/
namespace Verif.Spec
open Verif Verif.Xml Verif.Spec.Xsd

/-! ### texts -/

/-- at most `k` characters, not all of them white space, and no bar -/
def Text (k : Nat) (v : Str) : Prop := v.length ≤ k ∧ '|' ∉ v ∧ ∃ c ∈ v, white c = false

/-- a letter or digit of ASCII, or an underscore -/
def Alnum (c : Char) : Prop := 'A' ≤ c ∧ c ≤ 'Z' ∨ 'a' ≤ c ∧ c ≤ 'z' ∨ '0' ≤ c ∧ c ≤ '9' ∨ c = '_'

/-- between `k` and `m` such characters -/
def Code (k m : Nat) (v : Str) : Prop := k ≤ v.length ∧ v.length ≤ m ∧ ∀ c ∈ v, Alnum c

/-- names of star catalogues -/
def Catalogue (v : Str) : Prop := 1 ≤ v.length ∧ v.length ≤ 8 ∧ ∀ c ∈ v, Alnum c ∨ c = '.'

/-- an observer's own name of an object -/
def TrackletName (v : Str) : Prop := 1 ≤ v.length ∧ v.length ≤ 8 ∧ ∀ c ∈ v, Alnum c ∨ c = '-'

/-! ### designations -/

/-- a capital letter -/
def Capital (c : Char) : Prop := 'A' ≤ c ∧ c ≤ 'Z'

/-- decimal digits (of any script), at least `k` and at most `m` -/
def Digits (k : Nat) (m : Option Nat) (v : Str) : Prop := k ≤ v.length ∧ (∀ n, m = some n → v.length ≤ n) ∧ ∀ c ∈ v, isDec c = true

/-- A permanent designation: a number, possibly of a comet (P, D) or interstellar object (I), possibly with a fragment; or a number of a satellite of a planet or minor planet. -/
def PermanentName (v : Str) : Prop := v.length ≤ 25 ∧
  ((∃ n, Digits 1 none n ∧ (v = n ∨ ∃ k, (k = 'I' ∨ k = 'P' ∨ k = 'D') ∧ (v = n ++ [k] ∨ ∃ f, 1 ≤ f.length ∧ f.length ≤ 2 ∧ (∀ c ∈ f, Capital c) ∧ v = n ++ k :: '-' :: f)))
  ∨ (∃ p n, p ∈ [c! "Mars", c! "Jupiter", c! "Saturn", c! "Uranus", c! "Neptune"] ∧ Digits 1 (some 3) n ∧ v = p ++ ' ' :: n)
  ∨ ∃ a n, Digits 1 none a ∧ Digits 1 (some 3) n ∧ v = '(' :: a ++ c! ") " ++ n)

/-- a letter of a half month, A to Y without I -/
def HalfMonth (c : Char) : Prop := 'A' ≤ c ∧ c ≤ 'Y' ∧ c ≠ 'I'
/-- the second letter, A to Z without I -/
def Second (c : Char) : Prop := 'A' ≤ c ∧ c ≤ 'Z' ∧ c ≠ 'I'

/-- A provisional designation: of a minor planet; of a survey; of a comet or an object that was named like one; of a satellite of a planet or minor planet. -/
def ProvisionalName (v : Str) : Prop := v.length ≤ 25 ∧ ∃ y, Digits 4 (some 4) y ∧
  ((∃ h s n, HalfMonth h ∧ Second s ∧ Digits 0 none n ∧ v = y ++ ' ' :: h :: s :: n)
  ∨ (∃ s ∈ [c! "P-L", c! "T-1", c! "T-2", c! "T-3"], v = y ++ ' ' :: s)
  ∨ (∃ k l n f, k ∈ c! "ADCPX" ∧ 1 ≤ l.length ∧ l.length ≤ 2 ∧ (∀ c ∈ l, Capital c) ∧ Digits 0 none n ∧ (f = [] ∨ ∃ c, Capital c ∧ f = ['-', c]) ∧ v = k :: '/' :: y ++ ' ' :: l ++ n ++ f)
  ∨ (∃ p n, Digits 1 none n ∧ v = c! "S/" ++ y ++ ' ' :: p ++ ' ' :: n ∧ ((∃ c ∈ c! "MJSUN", p = [c])
      ∨ (∃ a, Digits 1 none a ∧ p = '(' :: a ++ [')'])
      ∨ ∃ z h s m, Digits 4 (some 4) z ∧ HalfMonth h ∧ (s = [] ∨ ∃ c, Second c ∧ s = [c]) ∧ Digits 1 none m ∧ p = '(' :: z ++ ' ' :: h :: s ++ m ++ [')'])))

/-! ### numbers -/

/-- a numeral without superfluous zeros in front -/
def Plain (n : Numeral) : Prop := n.Valid ∧ (n.whole.head? = some '0' → n.whole = ['0'])

/-- the width of a numeral, not counting its sign -/
def width (n : Numeral) : Nat := n.whole.length + (match n.frac with | some f => f.length + 1 | none => 0)

/-- a number of degrees from 0 up to but not including 360, without sign, with at most 9 decimals -/
def RightAscension (v : Str) : Prop := ∃ n, Plain n ∧ v = n.text ∧ n.sign = none ∧ (n.frac.getD []).length ≤ 9 ∧ n.value < 360

/-- a number of degrees from -90 to 90, with at most 9 decimals -/
def DeclinationValue (v : Str) : Prop := ∃ n, Plain n ∧ v = n.text ∧ (n.frac.getD []).length ≤ 9 ∧ n.size ≤ 90

/-- a number, with a digit in front of the point, of at most `k` characters and a sign -/
def Signed (k : Nat) (v : Str) : Prop := ∃ n, Plain n ∧ v = n.text ∧ n.whole ≠ [] ∧ width n ≤ k

/-- a magnitude from -5 to 35 -/
def Magnitude (v : Str) : Prop := ∃ n, Plain n ∧ v = n.text ∧ n.whole ≠ [] ∧ width n ≤ 7 ∧ -5 ≤ n.value ∧ n.value ≤ 35

/-- a positive number less than 100000 of at most `k` characters, with a digit in front of the point -/
def PositiveNumber (k : Nat) (v : Str) : Prop := ∃ n, Plain n ∧ v = n.text ∧ n.sign = none ∧ n.whole ≠ [] ∧ width n ≤ k ∧ 0 < n.value ∧ n.value < 100000

/-- a correlation: a number between -1 and 1 (both excluded) with one digit in front of the point and at most 11 decimals -/
def Correlation (v : Str) : Prop := ∃ n : Numeral, n.Valid ∧ v = n.text ∧ n.whole = ['0'] ∧ (n.frac.getD []).length ≤ 11

/-- a frequency: a positive number of at most 16 characters -/
def Frequency (v : Str) : Prop := ∃ n : Numeral, n.Valid ∧ v = n.text ∧ n.sign = none ∧ width n ≤ 16 ∧ 0 < n.value

/-- an integer from 1 to 999999 (with sign and zeros as one likes) -/
def CountValue (v : Str) : Prop := ∃ n : Numeral, n.Valid ∧ v = n.text ∧ n.frac = none ∧ 0 < n.value ∧ n.value < 1000000

/-- an integer with the value `k` (with sign and zeros as one likes) -/
def IntegerValue (k : Rat) (v : Str) : Prop := ∃ n : Numeral, n.Valid ∧ v = n.text ∧ n.frac = none ∧ n.value = k

/-! ### times -/

/-- A time that exists in the calendar (24:00:00 is the end of the day), with at most six decimals of a second. -/
def OrdinaryTime (v : Str) : Prop := ∃ (y mo d h mi s : Nat) (f : Str), 1 ≤ y ∧ y ≤ 9999 ∧ 1 ≤ mo ∧ mo ≤ 12 ∧ 1 ≤ d ∧ d ≤ monthDays y mo ∧
  (f = [] ∨ ∃ ds, 1 ≤ ds.length ∧ ds.length ≤ 6 ∧ (∀ c ∈ ds, c ∈ c! "0123456789") ∧ f = '.' :: ds) ∧
  (h < 24 ∧ mi < 60 ∧ s < 60 ∨ h = 24 ∧ mi = 0 ∧ s = 0 ∧ ∀ c ∈ f, c = '.' ∨ c = '0') ∧
  v = fixed 4 y ++ '-' :: fixed 2 mo ++ '-' :: fixed 2 d ++ 'T' :: fixed 2 h ++ ':' :: fixed 2 mi ++ ':' :: fixed 2 s ++ f ++ ['Z']

/-- the years with a leap second at the end of June, and at the end of December, up to 2016 -/
def leapJune : List Nat := [1972, 1981, 1982, 1983, 1985, 1992, 1993, 1994, 1997, 2012, 2015]
def leapDecember : List Nat := [1972, 1973, 1974, 1975, 1976, 1977, 1978, 1979, 1987, 1989, 1990, 1995, 1998, 2005, 2008, 2016]

/-- A leap second: one of those up to 2016, or the end of June or December of a year from 2017 on; with any number of decimals.  (In 2005, 2008 and 2016 any character may stand for the point.) -/
def LeapTime (v : Str) : Prop := ∃ (y : Nat) (m f : Str), y ≤ 9999 ∧
  (m = c! "-06-30" ∧ (y ∈ leapJune ∨ 2017 ≤ y) ∨ m = c! "-12-31" ∧ (y ∈ leapDecember ∨ 2017 ≤ y)) ∧
  (f = [] ∨ ∃ p ds, ds ≠ [] ∧ (∀ c ∈ ds, c ∈ c! "0123456789") ∧ f = p :: ds ∧ (p = '.' ∨ m = c! "-12-31" ∧ (y = 2005 ∨ y = 2008 ∨ y = 2016) ∧ p ≠ '\n' ∧ p ≠ '\r')) ∧
  v = fixed 4 y ++ m ++ c! "T23:59:60" ++ f ++ ['Z']

/-- a number as a computer writes it, possibly with an exponent: at most 20 characters and a sign -/
def Covariance (v : Str) : Prop := Double v ∧ v ≠ c! "INF" ∧ v ≠ c! "-INF" ∧ v ≠ c! "NaN" ∧ (v.length ≤ 20 ∨ v.length = 21 ∧ (v.head? = some '+' ∨ v.head? = some '-'))

/-! ### fields -/

/-- The fields of observations (but for the time) with their values in submissions.  White space at the ends of numbers and times does not count. -/
def fieldValue : List (Str × (Str → Prop)) := [
  (c! "permID", PermanentName), (c! "provID", ProvisionalName), (c! "artSat", Text 25), (c! "trkSub", TrackletName), (c! "obsSubID", Text 25),
  (c! "mode", Code 1 3), (c! "stn", Code 3 4), (c! "trx", Code 3 4), (c! "rcv", Code 3 4),
  (c! "sys", fun v => v ∈ [c! "WGS84", c! "ITRF", c! "IAU", c! "ICRF_AU", c! "ICRF_KM"]), (c! "ctr", fun v => IntegerValue 399 (trim v)),
  (c! "pos1", fun v => Signed 13 (trim v)), (c! "pos2", fun v => Signed 13 (trim v)), (c! "pos3", fun v => Signed 13 (trim v)),
  (c! "vel1", fun v => Signed 13 (trim v)), (c! "vel2", fun v => Signed 13 (trim v)), (c! "vel3", fun v => Signed 13 (trim v)),
  (c! "posCov11", fun v => Covariance (trim v)), (c! "posCov12", fun v => Covariance (trim v)), (c! "posCov13", fun v => Covariance (trim v)),
  (c! "posCov22", fun v => Covariance (trim v)), (c! "posCov23", fun v => Covariance (trim v)), (c! "posCov33", fun v => Covariance (trim v)),
  (c! "rmsTime", fun v => PositiveNumber 8 (trim v)), (c! "ra", fun v => RightAscension (trim v)), (c! "dec", fun v => DeclinationValue (trim v)),
  (c! "raStar", fun v => RightAscension (trim v)), (c! "decStar", fun v => DeclinationValue (trim v)),
  (c! "obsCenter", fun v => PermanentName v ∨ ProvisionalName v ∨ v ∈ [c! "Mercury", c! "Venus", c! "Earth", c! "Moon", c! "Mars", c! "Jupiter", c! "Saturn", c! "Uranus", c! "Neptune"]),
  (c! "deltaRA", fun v => Signed 9 (trim v)), (c! "deltaDec", fun v => Signed 9 (trim v)), (c! "dist", fun v => PositiveNumber 10 (trim v)), (c! "pa", fun v => RightAscension (trim v)),
  (c! "rmsRA", fun v => PositiveNumber 7 (trim v)), (c! "rmsDec", fun v => PositiveNumber 7 (trim v)), (c! "rmsDist", fun v => PositiveNumber 6 (trim v)), (c! "rmsPA", fun v => PositiveNumber 6 (trim v)),
  (c! "rmsCorr", fun v => Correlation (trim v)), (c! "delay", fun v => PositiveNumber 14 (trim v)), (c! "rmsDelay", fun v => PositiveNumber 6 (trim v)),
  (c! "doppler", fun v => Signed 13 (trim v)), (c! "rmsDoppler", fun v => PositiveNumber 6 (trim v)), (c! "astCat", Catalogue), (c! "mag", fun v => Magnitude (trim v)),
  (c! "rmsMag", fun v => PositiveNumber 6 (trim v)), (c! "band", Code 1 3), (c! "fltr", Code 1 3), (c! "photCat", Catalogue), (c! "photAp", fun v => PositiveNumber 6 (trim v)),
  (c! "nucMag", fun v => IntegerValue 0 (trim v) ∨ IntegerValue 1 (trim v)), (c! "logSNR", fun v => Signed 5 (trim v)),
  (c! "shapeOcc", fun v => IntegerValue 0 (trim v) ∨ IntegerValue 1 (trim v)), (c! "seeing", fun v => PositiveNumber 6 (trim v)), (c! "exp", fun v => PositiveNumber 6 (trim v)),
  (c! "rmsFit", fun v => PositiveNumber 6 (trim v)), (c! "nStars", fun v => CountValue (trim v)), (c! "com", fun v => IntegerValue 0 (trim v) ∨ IntegerValue 1 (trim v)),
  (c! "frq", fun v => Frequency (trim v)), (c! "disc", fun v => v = c! "*" ∨ v = c! "+"), (c! "uncTime", fun v => PositiveNumber 8 (trim v)), (c! "notes", Code 1 6), (c! "remarks", Text 300)]

/-! ### what only archives use -/

/-- a provisional designation of the years 1800 to 1999 as it is written for objects of the nineteenth century and before 1925 -/
def OldName (v : Str) : Prop := ∃ c y h s, (c = '8' ∨ c = '9') ∧ Digits 2 (some 2) y ∧ HalfMonth h ∧ Second s ∧ v = 'A' :: c :: y ++ [' ', h, s]

/-- names of tracklets as they were in use earlier -/
def OldTracklet (v : Str) : Prop := v.length ≤ 8 ∧ (∀ c ∈ v, Alnum c ∨ c ∈ c! "- ?+@.()/\\") ∧ ∃ c ∈ v, c ≠ ' '

/-- a number with one of some values -/
def OneOf (l : List Rat) (v : Str) : Prop := ∃ n : Numeral, n.Valid ∧ v = n.text ∧ n.value ∈ l

/-- The values of further fields, and of three of those above, in archives. -/
def archiveValue : List (Str × (Str → Prop)) := [
  (c! "provID", fun v => ProvisionalName v ∨ OldName v), (c! "trkSub", fun v => TrackletName v ∨ OldTracklet v),
  (c! "obsCenter", fun v => PermanentName v ∨ ProvisionalName v ∨ OldName v ∨ v ∈ [c! "Mercury", c! "Venus", c! "Earth", c! "Moon", c! "Mars", c! "Jupiter", c! "Saturn", c! "Uranus", c! "Neptune"]),
  (c! "obsID", Code 1 25), (c! "trkID", fun v => 1 ≤ v.length ∧ v.length ≤ 12 ∧ ∀ c ∈ v, Alnum c ∨ c = '-'), (c! "trkMPC", fun v => 1 ≤ v.length ∧ v.length ≤ 12 ∧ ∀ c ∈ v, Alnum c ∨ c = '-'),
  (c! "prog", Code 1 2), (c! "ref", Text 16), (c! "subFmt", Code 1 4), (c! "deprecated", fun v => v = c! "X"),
  (c! "precTime", fun v => OneOf [1, 10, 69, 100, 694, 1000, 4167, 10000, 41667, 100000] (trim v)),
  (c! "precRA", fun v => OneOf [1 / 1000, 1 / 100, 1 / 10, 6 / 10, 1, 6, 60] (trim v)), (c! "precDec", fun v => OneOf [1 / 1000, 1 / 100, 1 / 10, 6 / 10, 1, 6, 60] (trim v))]

/-- characters of ASCII -/
def AsciiText (v : Str) : Prop := ∀ c ∈ v, c.toNat < 128

end Verif.Spec
