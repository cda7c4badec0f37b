import Verif.Py
/-
  Verif.Float : Python floats (IEEE binary64) as a sign and an exact rational magnitude.
  Simplifications: the exponent range is unbounded (no overflow, subnormals, inf, nan).  The values that occur in sexVals.py
  are 0 or have magnitudes between 10^-12 and 10^8, far inside the range.
-/
namespace Verif.Flt
open Verif

/-- 2^e -/
def two (e : Int) : Rat := if 0 ≤ e then ((2 ^ e.toNat : Nat) : Rat) else mkRat 1 (2 ^ (-e).toNat)

/-- ⌊log2 q⌋ for q > 0 -/
def ilog2 (q : Rat) : Int :=
  let e : Int := (Nat.log2 q.num.natAbs : Int) - Nat.log2 q.den
  if q < two e then e - 1 else e

/-- the nearest integer, ties to even, for q ≥ 0 -/
def roundEven (q : Rat) : Nat :=
  let f := q.floor.toNat
  let r := q - f
  if r < mkRat 1 2 then f else if mkRat 1 2 < r then f + 1 else if f % 2 = 0 then f else f + 1

/-- the nearest number with a 53 bit significand, ties to even, for q ≥ 0 -/
def rnd (q : Rat) : Rat :=
  if q ≤ 0 then 0
  else
    let e := ilog2 q - 52
    (roundEven (q / two e) : Rat) * two e

/-- a Python float -/
structure F64 where
  neg : Bool
  mag : Rat
deriving DecidableEq

/-- the value -/
def F64.val (x : F64) : Rat := if x.neg then -x.mag else x.mag

/-- the float nearest to `q` (`zeroNeg`: the sign of a zero result) -/
def ofRat (q : Rat) (zeroNeg : Bool := false) : F64 :=
  if q = 0 then ⟨zeroNeg, 0⟩ else if q < 0 then ⟨true, rnd (-q)⟩ else ⟨false, rnd q⟩

/-- `float(n)` -/
def ofInt (n : Int) : F64 := ofRat n

/-- `x + y` -/
def add (x y : F64) : F64 := ofRat (x.val + y.val) (x.neg && y.neg)
/-- `-x` -/
def neg (x : F64) : F64 := { x with neg := !x.neg }
/-- `x - y` -/
def sub (x y : F64) : F64 := add x (neg y)
/-- `x * y` -/
def mul (x y : F64) : F64 := ⟨x.neg != y.neg, rnd (x.mag * y.mag)⟩
/-- `x / y`, for y ≠ 0 -/
def div (x y : F64) : F64 := ⟨x.neg != y.neg, rnd (x.mag / y.mag)⟩

/-- `int(x)` -/
def trunc (x : F64) : Int := if x.neg then -x.mag.floor else x.mag.floor

/-- `round(x)`: to the nearest integer, ties to even -/
def round (x : F64) : Int := if x.neg then -(roundEven x.mag : Int) else roundEven x.mag

/-- the decimal digits of `n`, at least `k` of them -/
def zfill (k n : Nat) : Str := List.replicate (k - (natStr n).length) '0' ++ natStr n

/-- `'{0:.nf}'.format(x)`: the exact value rounded to `n` decimals, ties to even -/
def fmtF (n : Nat) (x : F64) : Str :=
  let k := roundEven (x.mag * (10 ^ n : Nat))
  (if x.neg then ['-'] else []) ++ natStr (k / 10 ^ n) ++ (if n = 0 then [] else '.' :: zfill n (k % 10 ^ n))

/-! ### reading -/

/-- the number written with decimal digits (of any script), `none` if there is anything else -/
def digitsVal : Str → Option Nat
  | s => s.foldl (fun acc c => match acc, decVal c with | some a, some d => some (a * 10 + d) | _, _ => none) (some 0)

/-- the value of `ddd`, `ddd.ddd`, `.ddd`, `ddd.` -/
def decimalVal (s : Str) : Option Rat :=
  let a := s.takeWhile (· ≠ '.')
  let b := s.drop (a.length + 1)
  if a.length + b.length = 0 then none
  else
    match digitsVal a, digitsVal b with
    | some x, some y => some (mkRat (x * 10 ^ b.length + y) (10 ^ b.length))
    | _, _ => none

/-- the text without the underscores between digits (`1_000`), `none` if there is one anywhere else; `prev`: the character before is a digit -/
def noUnderscores : Bool → Str → Option Str
  | _, [] => some []
  | prev, c :: t =>
    if c = '_' then
      match prev, t with
      | true, d :: _ => if (decVal d).isSome then noUnderscores false t else none
      | _, _ => none
    else (noUnderscores (decVal c).isSome t).map (c :: ·)

/-- 10^k -/
def ten (k : Int) : Rat := if 0 ≤ k then ((10 ^ k.toNat : Nat) : Rat) else mkRat 1 (10 ^ (-k).toNat)

/-- the exponent: digits, with or without a sign -/
def exponentVal : Str → Option Int
  | '-' :: t => if t = [] then none else (digitsVal t).map fun n => -(n : Int)
  | '+' :: t => if t = [] then none else (digitsVal t).map fun n => (n : Int)
  | t => if t = [] then none else (digitsVal t).map fun n => (n : Int)

/-- the value of an unsigned number: a decimal, or one with underscores or with an exponent -/
def magnitude (t : Str) : Option Rat :=
  match decimalVal t with
  | some q => some q
  | none =>
    match noUnderscores false t with
    | none => none
    | some u =>
      let a := u.takeWhile fun c => !(c == 'e' || c == 'E')
      if a.length = u.length then decimalVal a
      else
        match decimalVal a, exponentVal (u.drop (a.length + 1)) with
        | some q, some k => some (q * ten k)
        | _, _ => none

/-- `float(s)`: correctly rounded.  Not modelled: 'inf', 'infinity' and 'nan' (the model raises ValueError) and numbers outside the range of the
    exponents (the model has no inf). -/
def parse (s : Str) : Py F64 :=
  match strip s with
  | '-' :: t => match magnitude t with
    | some q => .ok (neg (ofRat q))
    | none => .error .valueError
  | '+' :: t => match magnitude t with
    | some q => .ok (ofRat q)
    | none => .error .valueError
  | t => match magnitude t with
    | some q => .ok (ofRat q)
    | none => .error .valueError

/-- a plain decimal -/
theorem magnitude_decimal {t : Str} {q : Rat} (h : decimalVal t = some q) : magnitude t = some q := by simp [magnitude, h]

/-! ### logarithms -/

/-- the smallest `d` from `d0` on with `q ≥ 10^-d`, at most `fuel` steps -/
def findPow (q : Rat) : Nat → Nat → Nat
  | 0, d => d
  | f + 1, d => if ten (-(d : Int)) ≤ q then d else findPow q f (d + 1)

/-- ⌊log10 q⌋, for 10^-300 < q (`math.floor(math.log10(x))`; the library function is taken to be exact enough, which it is unless x is within 10^-15 of a power of ten) -/
def floorLog10 (q : Rat) : Int :=
  if 1 ≤ q then ((natStr q.floor.toNat).length : Int) - 1 else -(findPow q 300 1 : Int)

/-- `int(math.log10(x))`: toward zero; for the floats nearest to a power of ten the library returns the exact integer -/
def truncLog10 (q : Rat) : Int :=
  if 1 ≤ q then floorLog10 q
  else
    let d := findPow q 300 1
    -- 10^-d ≤ q < 10^-(d-1), so -d ≤ log10 q < -(d-1)
    if q = rnd (ten (-(d : Int))) then -(d : Int)
    else if q = rnd (ten (-(d : Int) + 1)) then -(d : Int) + 1
    else -(d : Int) + 1

end Verif.Flt
