import Verif.Spec.Reference
import Verif.Spec.Packing
/-!
  Spec.References : what every text in columns 73-77 stands for, and which references can be packed.
  Only the character tables (`isSpace`, `isDec`, `decVal`) and the list of Python's exceptions are shared with the model.
-/
namespace Verif.Spec.References
open Verif Verif.Spec Verif.Spec.Packing

/-- groups of digits with single underscores between them -/
def joined : List Str → Str
  | [] => []
  | [g] => g
  | g :: gs => g ++ '_' :: joined gs

/-- a number in the way Python reads one: white space around it, a sign, digits (of any script) with single underscores between them -/
def IsInt (s : Str) (n : Int) : Prop :=
  ∃ before after groups, (∀ c ∈ before, isSpace c = true) ∧ (∀ c ∈ after, isSpace c = true) ∧ groups ≠ [] ∧ (∀ g ∈ groups, Number g) ∧
    ((s = before ++ joined groups ++ after ∧ n = value groups.flatten) ∨ (s = before ++ '+' :: joined groups ++ after ∧ n = value groups.flatten) ∨
      (s = before ++ '-' :: joined groups ++ after ∧ n = -(value groups.flatten : Int)))

/-- an integer in decimal -/
def shown (n : Int) : Str := if 0 ≤ n then dec n.toNat else '-' :: dec n.natAbs

/-- characters that begin a packed page -/
def Special (c : Char) : Prop := c ∈ (c! "0123456789@#~") ∨ ∃ k, k < 26 ∧ c = letter k

/-- What the text in columns 73-77 stands for. -/
inductive Means : Str → Str → Prop
  | page {c : Char} {r : Str} {n : Int} : c ∈ (c! "0123456789") → IsInt (c :: r) n → Means (c :: r) (c! "MPC  " ++ shown n)
  | pageAt {r : Str} {n : Int} : IsInt r n → Means ('@' :: r) (c! "MPC  " ++ shown (100000 + n))
  | pageHash {x : Nat} {r : Str} : x < 62 ^ 4 → Means ('#' :: b62x4 x ++ r) (c! "MPC  " ++ dec (110000 + x))
  | supplement {k : Nat} {r : Str} {n : Int} : k < 26 → IsInt r n → Means (letter k :: r) (c! "MPS  " ++ shown (n + 10000 * k))
  | supplementTilde {x : Nat} {r : Str} : x < 62 ^ 4 → Means ('~' :: b62x4 x ++ r) (c! "MPS  " ++ dec (260000 + x))
  /-- anything else is left as it is -/
  | other {c : Char} {r : Str} : ¬ Special c → Means (c :: r) (c :: r)

/-- a base 62 digit -/
def Digit62 (c : Char) : Prop := ∃ i, i < 62 ∧ c = b62 i

/-- Texts in columns 73-77 that stand for nothing, and the exception they give. -/
inductive Meaningless : Str → PyErr → Prop
  | empty : Meaningless [] .indexError
  | page {c : Char} {r : Str} : c ∈ (c! "0123456789") → (∀ n, ¬ IsInt (c :: r) n) → Meaningless (c :: r) .valueError
  | number {c : Char} {r : Str} : c = '@' ∨ (∃ k, k < 26 ∧ c = letter k) → (∀ n, ¬ IsInt r n) → Meaningless (c :: r) .valueError
  /-- fewer than four digits of base 62 and then nothing -/
  | short {c : Char} {ds : Str} : c = '#' ∨ c = '~' → ds.length < 4 → (∀ d ∈ ds, Digit62 d) → Meaningless (c :: ds) .indexError
  /-- fewer than four digits of base 62 and then another character -/
  | digit {c d : Char} {ds r : Str} : c = '#' ∨ c = '~' → ds.length < 4 → (∀ d ∈ ds, Digit62 d) → ¬ Digit62 d → Meaningless (c :: ds ++ d :: r) .keyError

/-- the second word of a text that begins with a word -/
def SecondWord (s w : Str) : Prop :=
  ∃ first gap rest, s = first ++ gap ++ w ++ rest ∧ first ≠ [] ∧ (∀ c ∈ first, isSpace c = false) ∧ gap ≠ [] ∧ (∀ c ∈ gap, isSpace c = true) ∧
    w ≠ [] ∧ (∀ c ∈ w, isSpace c = false) ∧ ∀ c ∈ rest.head?, isSpace c = true

/-- References that cannot be packed, and the exception they give. -/
inductive Unpackable (t : Str) : PyErr → Prop
  | noPage : t.take 3 = c! "MPC" ∨ t.take 3 = c! "MPS" → (∀ w, ¬ SecondWord t w) → Unpackable t .indexError
  | noNumber {w : Str} : t.take 3 = c! "MPC" ∨ t.take 3 = c! "MPS" → SecondWord t w → (∀ n, ¬ IsInt w n) → Unpackable t .valueError
  | negative {w : Str} {n : Int} : t.take 3 = c! "MPS" → SecondWord t w → IsInt w n → n ≤ -270000 → Unpackable t .indexError

/-- a reference to a journal: five columns that are not a packed page, nor the beginning of a reference that is to be packed -/
def Journal (t : Str) : Prop := t.length = 5 ∧ (∀ c ∈ t.head?, ¬ Special c) ∧ t.take 3 ≠ c! "MPC" ∧ t.take 3 ≠ c! "MPS"

/-- pages that are packed as they should be -/
def Safe : Ref → Prop
  | .mpc n => n < 110000 ∨ 200000 ≤ n
  | .mps n => n ≠ 259999

end Verif.Spec.References
