import Verif.Spec.Designation
/-
  Spec.Numeral : decimal numerals as they occur in ADES documents, written without reference to the program.
-/
namespace Verif.Spec

/-- the number that a row of digits stands for -/
def digitsNat (ds : List Char) : Nat := ds.foldl (fun n c => 10 * n + (c.toNat - 48)) 0

/-- a decimal numeral without exponent: an optional sign, digits, and an optional point with further digits -/
structure Numeral where
  sign : Option Char
  whole : List Char
  frac : Option (List Char)

/-- signs are `+` and `-`; digits are the ten decimal digits; there is a digit -/
def Numeral.Valid (n : Numeral) : Prop :=
  (∀ c ∈ n.sign, c = '+' ∨ c = '-') ∧ (∀ c ∈ n.whole, c ∈ "0123456789".toList) ∧ (∀ f ∈ n.frac, ∀ c ∈ f, c ∈ "0123456789".toList) ∧
  (n.whole ≠ [] ∨ n.frac.getD [] ≠ [])

/-- the text -/
def Numeral.text (n : Numeral) : List Char :=
  n.sign.toList ++ n.whole ++ (match n.frac with | some f => '.' :: f | none => [])

/-- the absolute value, exactly -/
def Numeral.size (n : Numeral) : Rat := digitsNat n.whole + (digitsNat (n.frac.getD []) : Rat) / ((10 ^ (n.frac.getD []).length : Nat) : Rat)

/-- the value, exactly -/
def Numeral.value (n : Numeral) : Rat := if n.sign = some '-' then -n.size else n.size

end Verif.Spec
