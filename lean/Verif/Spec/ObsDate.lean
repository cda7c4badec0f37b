import Verif.Spec.Designation
/-
  Spec.ObsDate : the date column of the 80-column format and ISO times, written without reference to the program.
-/
namespace Verif.Spec

/-- Gregorian leap years -/
def leap (y : Nat) : Prop := 4 ∣ y ∧ (¬ 100 ∣ y ∨ 400 ∣ y)

instance (y : Nat) : Decidable (leap y) := by unfold leap; infer_instance

/-- days of a month -/
def monthDays (y m : Nat) : Nat :=
  [31, if leap y then 29 else 28, 31, 30, 31, 30, 31, 31, 30, 31, 30, 31].getD (m - 1) 0

/-- a date with a fraction of a day: `frac / 10^digits` -/
structure ObsDate where
  year : Nat
  month : Nat
  day : Nat
  digits : Nat
  frac : Nat
deriving DecidableEq

/-- a date the 80-column format can hold -/
def ObsDate.Valid (d : ObsDate) : Prop :=
  1600 ≤ d.year ∧ d.year ≤ 9999 ∧ 1 ≤ d.month ∧ d.month ≤ 12 ∧ 1 ≤ d.day ∧ d.day ≤ monthDays d.year d.month ∧
  1 ≤ d.digits ∧ d.digits ≤ 6 ∧ d.frac < 10 ^ d.digits

/-- the 17 columns: YYYY MM DD.dddddd, blank filled -/
def ObsDate.column (d : ObsDate) : List Char :=
  List.rightpad 17 ' ' (dec d.year ++ [' '] ++ fixed 2 d.month ++ [' '] ++ fixed 2 d.day ++ ['.'] ++ fixed d.digits d.frac)

/-- seconds since midnight, exactly -/
def ObsDate.seconds (d : ObsDate) : Rat := (d.frac : Rat) / (10 ^ d.digits : Nat) * 86400

/-- YYYY-MM-DDThh:mm:ss for `w` seconds after midnight, followed by `t` -/
def isoTime (year month day w : Nat) (t : List Char) : List Char :=
  dec year ++ ['-'] ++ fixed 2 month ++ ['-'] ++ fixed 2 day ++ ['T'] ++ fixed 2 (w / 3600) ++ [':'] ++
    fixed 2 (w / 60 % 60) ++ [':'] ++ fixed 2 (w % 60) ++ t

/-- The whole multiples of 54 seconds (j/1600 of a day) for which the binary product of the fraction and 86400 falls below the
    exact whole number of seconds. -/
def unlucky : List Nat := 
  [35, 57, 69, 70, 113, 114, 115, 138, 139, 140, 201, 203, 205, 226, 228, 230, 251, 253, 255, 276, 278, 280, 301, 303,
   402, 406, 410, 427, 431, 435, 452, 456, 460, 477, 481, 485, 502, 506, 510, 527, 531, 535, 552, 556, 560, 577, 581, 585,
   602, 606, 804, 812, 820, 829, 837, 845, 854, 862, 870, 879, 887, 895, 904, 912, 920, 929, 937, 945, 954, 962, 970, 979,
   987, 995, 1004, 1012, 1020, 1029, 1037, 1045, 1054, 1062, 1070, 1079, 1087, 1095, 1104, 1112, 1120, 1129, 1137, 1145,
   1154, 1162, 1170, 1179, 1187, 1195, 1204, 1212]

/-- the fraction is one of those -/
def ObsDate.late (d : ObsDate) : Prop := ∃ j ∈ unlucky, d.frac * 1600 = j * 10 ^ d.digits

end Verif.Spec
