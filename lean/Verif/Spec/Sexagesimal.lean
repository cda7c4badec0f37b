import Verif.Spec.Designation
/-
  Spec.Sexagesimal : what the sexagesimal columns of the 80-column format say, written without reference to the program.
-/
namespace Verif.Spec

/-- a sexagesimal reading; `h` counts hours (right ascension) or degrees (declination) -/
inductive Sexagesimal
  /-- HH MM SS.f…, with `d` decimals -/
  | seconds (h m s d f : Nat)
  /-- HH MM SS -/
  | wholeSeconds (h m s : Nat)
  /-- HH MM.f…, with `d` decimals -/
  | minutes (h m d f : Nat)
  /-- HH MM -/
  | wholeMinutes (h m : Nat)
deriving DecidableEq

/-- the reading makes sense and has at most `maxd` decimals in the seconds, or at most two in the minutes -/
def Sexagesimal.Valid (maxd : Nat) : Sexagesimal → Prop
  | .seconds h m s d f => h < 100 ∧ m < 60 ∧ s < 60 ∧ 1 ≤ d ∧ d ≤ maxd ∧ f < 10 ^ d
  | .wholeSeconds h m s => h < 100 ∧ m < 60 ∧ s < 60
  | .minutes h m d f => h < 100 ∧ m < 60 ∧ 1 ≤ d ∧ d ≤ 2 ∧ f < 10 ^ d
  | .wholeMinutes h m => h < 100 ∧ m < 60

/-- the text -/
def Sexagesimal.text : Sexagesimal → List Char
  | .seconds h m s d f => fixed 2 h ++ [' '] ++ fixed 2 m ++ [' '] ++ fixed 2 s ++ ['.'] ++ fixed d f
  | .wholeSeconds h m s => fixed 2 h ++ [' '] ++ fixed 2 m ++ [' '] ++ fixed 2 s
  | .minutes h m d f => fixed 2 h ++ [' '] ++ fixed 2 m ++ ['.'] ++ fixed d f
  | .wholeMinutes h m => fixed 2 h ++ [' '] ++ fixed 2 m

/-- the exact value, in seconds (of time or arc) -/
def Sexagesimal.amount : Sexagesimal → Rat
  | .seconds h m s d f => 3600 * h + 60 * m + s + (f : Rat) / (10 ^ d : Nat)
  | .wholeSeconds h m s => 3600 * h + 60 * m + s
  | .minutes h m d f => 3600 * h + 60 * (m + (f : Rat) / (10 ^ d : Nat))
  | .wholeMinutes h m => 3600 * h + 60 * m

/-- one unit in the last place of the reading, in seconds -/
def Sexagesimal.unit : Sexagesimal → Rat
  | .seconds _ _ _ d _ => 1 / (10 ^ d : Nat)
  | .wholeSeconds _ _ _ => 1
  | .minutes _ _ d _ => 60 / (10 ^ d : Nat)
  | .wholeMinutes _ _ => 60

/-- a column of width `w`: the text and blanks -/
def column (w : Nat) (t : List Char) : List Char := List.rightpad w ' ' t

/-- the number of decimals of a right ascension in degrees: the unit in the last place is a quarter of the unit of the reading or less -/
def Sexagesimal.raDecimals : Sexagesimal → Nat
  | .seconds _ _ _ d _ => d + 3
  | .wholeSeconds _ _ _ => 3
  | .minutes _ _ d _ => d + 1
  | .wholeMinutes _ _ => 1

/-- the number of decimals of a declination in degrees -/
def Sexagesimal.decDecimals : Sexagesimal → Nat
  | .seconds _ _ _ d _ => d + 4
  | .wholeSeconds _ _ _ => 4
  | .minutes _ _ d _ => d + 2
  | .wholeMinutes _ _ => 2

/-- `k / 10^n` written with `n` decimals -/
def decimal (n k : Nat) : List Char := dec (k / 10 ^ n) ++ ['.'] ++ fixed n (k % 10 ^ n)

end Verif.Spec
