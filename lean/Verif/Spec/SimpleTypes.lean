import Verif.Spec.Schema
import Verif.Spec.Numeral
import Verif.Spec.ObsDate
/-!
  Spec.SimpleTypes : the meaning of built-in types and facets as XML Schema Part 2 (datatypes) gives it, for those that xml/adesmaster.xml uses, and what
  else is needed to say that a text is a legal value of an ADES field.
-/
namespace Verif.Spec.Xsd
open Verif Verif.Xml Verif.Spec

/-! ### regular expressions (Part 2, appendix F) -/

/-- regular expressions; `rep lo hi r`: at least `lo` and (with `hi = some n`) at most `n` times `r` -/
inductive Rx
  | eps
  | one (p : Char → Bool)
  | seq (a b : Rx)
  | alt (a b : Rx)
  | rep (lo : Nat) (hi : Option Nat) (r : Rx)

/-- the whole text matches -/
inductive Rx.Takes : Rx → Str → Prop
  | eps : Takes .eps []
  | one {p : Char → Bool} {c : Char} : p c = true → Takes (.one p) [c]
  | seq {a b : Rx} {s t : Str} : Takes a s → Takes b t → Takes (.seq a b) (s ++ t)
  | left {a b : Rx} {s : Str} : Takes a s → Takes (.alt a b) s
  | right {a b : Rx} {s : Str} : Takes b s → Takes (.alt a b) s
  | done {hi : Option Nat} {r : Rx} : Takes (.rep 0 hi r) []
  | more {lo : Nat} {hi : Option Nat} {r : Rx} {s t : Str} : hi ≠ some 0 → Takes r s → Takes (.rep (lo - 1) (hi.map (· - 1)) r) t → Takes (.rep lo hi r) (s ++ t)

/-- XML white space -/
def white (c : Char) : Bool := c = ' ' ∨ c = '\t' ∨ c = '\n' ∨ c = '\r'

/-- what stands after a backslash -/
def escape (c : Char) : Option (Char → Bool) :=
  if c = 'd' then some isDec
  else if c = 's' then some white
  else if c ∈ c! "\\|.-^?*+{}()[]" then some (· == c)
  else none

/-- one item of a class in brackets: an escape, a range, a character -/
def classItem : Str → Option ((Char → Bool) × Str)
  | '\\' :: c :: t => (escape c).map (·, t)
  | c :: '-' :: d :: t => if d = ']' then some ((· == c), '-' :: d :: t) else some (fun x => decide (c ≤ x) && decide (x ≤ d), t)
  | c :: t => some ((· == c), t)
  | [] => none

/-- the items up to the closing bracket -/
def classItems : Nat → Str → Option ((Char → Bool) × Str)
  | 0, _ => none
  | _ + 1, ']' :: t => some (fun _ => false, t)
  | f + 1, s => do
    let (p, t) ← classItem s
    let (q, u) ← classItems f t
    return (fun c => p c || q c, u)

/-- digits, as a number -/
def number (s : Str) : Nat × Str := (digitsNat (s.takeWhile (·.isDigit)), s.dropWhile (·.isDigit))

/-- `?`, `*`, `+`, `{n}`, `{n,}`, `{n,m}`, or nothing -/
def quantified (r : Rx) : Str → Option (Rx × Str)
  | '?' :: t => some (.rep 0 (some 1) r, t)
  | '*' :: t => some (.rep 0 none r, t)
  | '+' :: t => some (.rep 1 none r, t)
  | '{' :: t =>
    match number t with
    | (n, '}' :: u) => some (.rep n (some n) r, u)
    | (n, ',' :: '}' :: u) => some (.rep n none r, u)
    | (n, ',' :: u) =>
      match number u with
      | (m, '}' :: v) => some (.rep n (some m) r, v)
      | _ => none
    | _ => none
  | t => some (r, t)

mutual
/-- branches, separated by bars -/
def regExp : Nat → Str → Option (Rx × Str)
  | 0, _ => none
  | f + 1, s => do
    let (a, t) ← branch f s
    match t with
    | '|' :: t => do
      let (b, u) ← regExp f t
      return (.alt a b, u)
    | _ => return (a, t)
/-- pieces, one after the other -/
def branch : Nat → Str → Option (Rx × Str)
  | 0, _ => none
  | _ + 1, [] => some (.eps, [])
  | f + 1, c :: s =>
    if c = '|' ∨ c = ')' then some (.eps, c :: s)
    else do
      let (a, t) ← atom f (c :: s)
      let (q, u) ← quantified a t
      let (b, v) ← branch f u
      return (.seq q b, v)
/-- a character, a class, a group -/
def atom : Nat → Str → Option (Rx × Str)
  | 0, _ => none
  | f + 1, '(' :: s => do
    let (r, t) ← regExp f s
    match t with
    | ')' :: u => return (r, u)
    | _ => none
  | f + 1, '[' :: '^' :: s => (classItems f s).map fun (p, t) => (.one fun c => !p c, t)
  | f + 1, '[' :: s => (classItems f s).map fun (p, t) => (.one p, t)
  | _ + 1, '.' :: s => some (.one fun c => c != '\n' && c != '\r', s)
  | _ + 1, '\\' :: c :: s => (escape c).map fun p => (.one p, s)
  | _ + 1, c :: s => if c ∈ c! "?*+{}]\\" then none else some (.one (· == c), s)
  | _ + 1, [] => none
end

/-- a pattern -/
def pattern (s : Str) : Option Rx :=
  match regExp (3 * s.length + 3) s with
  | some (r, []) => some r
  | _ => none

/-! ### built-in types -/

/-- the text without white space at its ends.  (Except for strings white space is also collapsed in the middle; but no value of the other types contains any.) -/
def trim (x : Str) : Str := ((x.dropWhile white).reverse.dropWhile white).reverse

/-- a decimal number -/
def Decimal (v : Str) (q : Rat) : Prop := ∃ n : Numeral, n.Valid ∧ v = n.text ∧ q = n.value

/-- an integer -/
def Integer (v : Str) (q : Rat) : Prop := ∃ n : Numeral, n.Valid ∧ n.frac = none ∧ v = n.text ∧ q = n.value

/-- xsd:double: a decimal number, possibly with an exponent -/
def Double (v : Str) : Prop :=
  (∃ n : Numeral, n.Valid ∧ (v = n.text ∨ ∃ m : Numeral, m.Valid ∧ m.frac = none ∧ (v = n.text ++ 'e' :: m.text ∨ v = n.text ++ 'E' :: m.text)))
    ∨ v = c! "INF" ∨ v = c! "-INF" ∨ v = c! "NaN"

/-- a time zone -/
def Zone (z : Str) : Prop :=
  z = [] ∨ z = ['Z'] ∨ ∃ s h m, (s = '+' ∨ s = '-') ∧ m < 60 ∧ (h < 14 ∨ h = 14 ∧ m = 0) ∧ z = s :: fixed 2 h ++ ':' :: fixed 2 m

/-- xsd:dateTime: year (not 0, at least four digits), month and day of the calendar, a time of the day (24:00:00 is the end of the day), a fraction of a second, a time zone -/
def DateTime (v : Str) : Prop :=
  ∃ (neg : Bool) (y mo d h mi s : Nat) (f z : Str), y ≠ 0 ∧ 1 ≤ mo ∧ mo ≤ 12 ∧ 1 ≤ d ∧ d ≤ monthDays y mo
    ∧ (f = [] ∨ ∃ ds, ds ≠ [] ∧ (∀ c ∈ ds, c ∈ c! "0123456789") ∧ f = '.' :: ds)
    ∧ (h < 24 ∧ mi < 60 ∧ s < 60 ∨ h = 24 ∧ mi = 0 ∧ s = 0 ∧ ∀ c ∈ f, c = '.' ∨ c = '0')
    ∧ Zone z
    ∧ v = (if neg then ['-'] else []) ++ fixed 4 y ++ '-' :: fixed 2 mo ++ '-' :: fixed 2 d ++ 'T' :: fixed 2 h ++ ':' :: fixed 2 mi ++ ':' :: fixed 2 s ++ f ++ z

/-- the text that is compared with patterns and values: white space at the ends only counts in strings -/
def normal (b x : Str) : Str := if b = c! "xsd:string" then x else trim x

/-- `x` is of the built-in type `b` (those that ADES uses) -/
def Builtin (b x : Str) : Prop :=
  b = c! "xsd:string" ∨ b = c! "xsd:decimal" ∧ (∃ q, Decimal (trim x) q) ∨ b = c! "xsd:integer" ∧ (∃ q, Integer (trim x) q)
    ∨ b = c! "xsd:positiveInteger" ∧ (∃ q, Integer (trim x) q ∧ 0 < q) ∨ b = c! "xsd:double" ∧ Double (trim x) ∨ b = c! "xsd:dateTime" ∧ DateTime (trim x)

/-! ### facets -/

/-- the values of a facet -/
def values (fs : List (Str × Str)) (name : Str) : List Str := (fs.filter fun f => f.1 = name).map (·.2)

/-- two texts stand for the same value: as strings if they are the same, otherwise if they are the same number -/
def Same (b x y : Str) : Prop := if b = c! "xsd:string" then x = y else ∃ q, Decimal (trim x) q ∧ Decimal (trim y) q

/-- the facets of one restriction of the built-in type `b`: one of its patterns, one of its enumerated values, all limits -/
structure Within (b : Str) (fs : List (Str × Str)) (x : Str) : Prop where
  pattern : values fs (c! "xsd:pattern") = [] ∨ ∃ p ∈ values fs (c! "xsd:pattern"), ∃ r, pattern p = some r ∧ r.Takes (normal b x)
  enumeration : values fs (c! "xsd:enumeration") = [] ∨ ∃ v ∈ values fs (c! "xsd:enumeration"), Same b x v
  minInclusive : ∀ v ∈ values fs (c! "xsd:minInclusive"), ∃ p q, Decimal v p ∧ Decimal (normal b x) q ∧ p ≤ q
  minExclusive : ∀ v ∈ values fs (c! "xsd:minExclusive"), ∃ p q, Decimal v p ∧ Decimal (normal b x) q ∧ p < q
  maxInclusive : ∀ v ∈ values fs (c! "xsd:maxInclusive"), ∃ p q, Decimal v p ∧ Decimal (normal b x) q ∧ q ≤ p
  maxExclusive : ∀ v ∈ values fs (c! "xsd:maxExclusive"), ∃ p q, Decimal v p ∧ Decimal (normal b x) q ∧ q < p
  minLength : ∀ v ∈ values fs (c! "xsd:minLength"), digitsNat v ≤ (normal b x).length
  maxLength : ∀ v ∈ values fs (c! "xsd:maxLength"), (normal b x).length ≤ digitsNat v
  /-- there are no others -/
  known : ∀ f ∈ fs, f.1 ∈ [c! "xsd:pattern", c! "xsd:enumeration", c! "xsd:minInclusive", c! "xsd:minExclusive", c! "xsd:maxInclusive", c! "xsd:maxExclusive",
    c! "xsd:minLength", c! "xsd:maxLength"]

/-- the type `t` restricts (in some steps) the built-in type `b` -/
inductive BasedOn (S : Schema) : Str → Str → Prop
  | builtin {t : Str} : lookup S.simple t = none → BasedOn S t t
  | restriction {t b : Str} {s : SimpleType} {r : Str × List (Str × Str)} : lookup S.simple t = some s → s.restriction = some r → BasedOn S r.1 b → BasedOn S t b

/-- types and facets as XML Schema defines them; `S` says on what the types that are restricted are based -/
def standard (S : Schema) : Facets := ⟨Builtin, fun base fs x => ∃ b, BasedOn S base b ∧ Within b fs x⟩

end Verif.Spec.Xsd
