/-
  Verif.Py : the fragment of the Python run time the modelled code relies on.

  * `str` is `List Char` (`Str`); an exception is a value of class `PyErr`
    (message text dropped).
  * `int()` and `\d` accept every Unicode decimal digit (category Nd, Unicode
    14.0 = CPython 3.11), exactly as CPython does.
-/

namespace Verif

/-- A Python `str`. -/
abbrev Str := List Char

/-- `c! "abc"` is the list literal `['a','b','c']` (a `List Char` literal that
    reduces in the kernel without going through `String`). -/
macro "c!" s:str : term => do
  let cs := s.getString.toList
  let elems ← cs.mapM fun c => `($(Lean.Syntax.mkCharLit c))
  let arr : Array (Lean.TSyntax `term) := elems.toArray
  `(([$arr,*] : List Char))

/-- Python exception classes that occur in the modelled code. -/
inductive PyErr
  | runtimeError
  | valueError
  | indexError
  | keyError
  | typeError
  | nameError
  | attributeError
  | unboundLocalError
  | systemExit
  | zeroDivisionError
  | overflowError
  | osError
  deriving DecidableEq, Repr

/-- Result of a Python call. -/
abbrev Py (α : Type) := Except PyErr α

deriving instance DecidableEq for Except

/-- `raise RuntimeError(...)`. -/
def raiseRT {α : Type} : Py α := .error .runtimeError

/-! ### Characters -/

/-- Code points of the digit zero of every Unicode decimal-digit block
    (category Nd; CPython 3.11 ships Unicode 14.0). -/
def decZeros : List Nat :=
  [48, 1632, 1776, 1984, 2406, 2534, 2662, 2790, 2918, 3046, 3174, 3302, 3430, 3558, 3664,
   3792, 3872, 4160, 4240, 6112, 6160, 6470, 6608, 6784, 6800, 6992, 7088, 7232, 7248, 42528,
   43216, 43264, 43472, 43504, 43600, 44016, 65296, 66720, 68912, 69734, 69872, 69942, 70096,
   70384, 70736, 70864, 71248, 71360, 71472, 71904, 72016, 72784, 73040, 73120, 92768, 92864,
   93008, 120782, 120792, 120802, 120812, 120822, 123200, 123632, 125264, 130032]

/-- Decimal value of a character, if it is a Unicode decimal digit. -/
def decVal (c : Char) : Option Nat :=
  (decZeros.find? fun z => decide (z ≤ c.toNat) && decide (c.toNat < z + 10)).map (c.toNat - ·)

/-- Regex `\d` on `str` patterns: any Unicode decimal digit. -/
def isDec (c : Char) : Bool := (decVal c).isSome

/-- `str.isspace` of one character (also regex `\s` on `str` patterns). -/
def isSpace (c : Char) : Bool :=
  let n := c.toNat
  (decide (9 ≤ n) && decide (n ≤ 13)) || (decide (28 ≤ n) && decide (n ≤ 32)) || n == 133 || n == 160 ||
  n == 5760 || (decide (8192 ≤ n) && decide (n ≤ 8202)) || n == 8232 || n == 8233 || n == 8239 ||
  n == 8287 || n == 12288

/-- The ASCII digit for `d < 10`. -/
def digitChar (d : Nat) : Char := (c! "0123456789").getD d '0'

/-- ASCII `str.upper` of one character (only applied to `[a-z]` captures). -/
def asciiUpper (c : Char) : Char :=
  if 97 ≤ c.toNat ∧ c.toNat ≤ 122 then Char.ofNat (c.toNat - 32) else c

/-- ASCII `str.lower` of one character (only applied to `[A-Z]` captures). -/
def asciiLower (c : Char) : Char :=
  if 65 ≤ c.toNat ∧ c.toNat ≤ 90 then Char.ofNat (c.toNat + 32) else c

/-! ### Strings -/

/-- `s.lstrip()` -/
def lstrip (s : Str) : Str := s.dropWhile isSpace
/-- `s.rstrip()` -/
def rstrip (s : Str) : Str := (s.reverse.dropWhile isSpace).reverse
/-- `s.strip()` -/
def strip (s : Str) : Str := lstrip (rstrip s)

/-- `s[i:j]` for non-negative `i`, `j`. -/
def slice (s : Str) (i j : Nat) : Str := (s.drop i).take (j - i)

/-- `s[i]` for non-negative `i` (IndexError past the end). -/
def charAt (s : Str) (i : Nat) : Py Char :=
  match s[i]? with
  | some c => .ok c
  | none => .error .indexError

/-- `s[i]` for any Python integer index: negative indices count from the end. -/
def charAtInt (s : Str) (i : Int) : Py Char :=
  if 0 ≤ i then charAt s i.toNat
  else if 0 ≤ i + s.length then charAt s (i + s.length).toNat
  else .error .indexError

/-- `s.ljust(w)` / `'{0:<ws}'.format(s)` / `'{0:ws}'.format(s)`. -/
def ljust (w : Nat) (s : Str) : Str := s ++ List.replicate (w - s.length) ' '
/-- `s.rjust(w)` / `'{0:>ws}'.format(s)`. -/
def rjust (w : Nat) (s : Str) : Str := List.replicate (w - s.length) ' ' ++ s

/-- worker of `str.split()`: `cur` is the word being collected. -/
def splitWsAux : Str → Str → List Str
  | cur, [] => if cur.isEmpty then [] else [cur]
  | cur, c :: cs =>
    if isSpace c then (if cur.isEmpty then splitWsAux [] cs else cur :: splitWsAux [] cs)
    else splitWsAux (cur ++ [c]) cs

/-- `s.split()` (any white space, no empty words). -/
def splitWs (s : Str) : List Str := splitWsAux [] s

/-- `l[i]` on a Python list. -/
def listAt {α : Type} (l : List α) (i : Nat) : Py α :=
  match l[i]? with
  | some c => .ok c
  | none => .error .indexError

/-- truth value of an optional string: `None` and `''` are false. -/
def truthy : Option Str → Bool
  | none => false
  | some s => !s.isEmpty

/-! ### Integers -/

/-- worker of `natStr` (the fuel `n + 1` always suffices). -/
def natStrAux : Nat → Nat → Str
  | 0, _ => []
  | f + 1, n => if n < 10 then [digitChar n] else natStrAux f (n / 10) ++ [digitChar (n % 10)]

/-- `str(n)` for a non-negative integer. -/
def natStr (n : Nat) : Str := natStrAux (n + 1) n

/-- `str(n)` for an integer. -/
def intStr (n : Int) : Str := if 0 ≤ n then natStr n.toNat else '-' :: natStr n.natAbs

/-- the digits part of `int(s)`: decimal digits with single underscores between digits. -/
def intDigits : Nat → Bool → Str → Option Nat
  | acc, prevDigit, [] => if prevDigit then some acc else none
  | acc, prevDigit, c :: cs =>
    if c == '_' then (if prevDigit then intDigits acc false cs else none)
    else match decVal c with
      | some d => intDigits (acc * 10 + d) true cs
      | none => none

/-- `int(s)` for a string: surrounding white space, optional sign, digits
    (ValueError otherwise). CPython's limit of 4300 digits is not modelled. -/
def pyInt (s : Str) : Py Int :=
  match strip s with
  | [] => .error .valueError
  | c :: cs =>
    let r : Option Int :=
      if c == '-' then (intDigits 0 false cs).map (fun n => -(Int.ofNat n))
      else if c == '+' then (intDigits 0 false cs).map Int.ofNat
      else (intDigits 0 false (c :: cs)).map Int.ofNat
    match r with
    | some n => .ok n
    | none => .error .valueError

/-- `int(s)` on a string matched by `\d+`: its natural-number value.
    Simplification: used only where a regex has already ensured digits, so that
    the sign/space/underscore cases of `int` cannot occur; ValueError on `''`. -/
def pyNat (s : Str) : Py Nat :=
  match intDigits 0 false s with
  | some n => .ok n
  | none => .error .valueError

end Verif
