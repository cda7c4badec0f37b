import Verif.Spec.Packing
/-!
  Spec.Unpacking : what columns 1-12 of an 80-column line stand for, for every text that stands for something.  Only the character table (`isDec`, `decVal`) is shared with
  the model.
-/
namespace Verif.Spec.Unpacking
open Verif Verif.Spec Verif.Spec.Packing

def spaces (n : Nat) : Str := List.replicate n ' '

/-- `n` decimal digits -/
def Digits (n : Nat) (s : Str) : Prop := s.length = n ∧ ∀ c ∈ s, isDec c = true

/-! ### minor planets -/

/-- columns 1-5: blank, or a number -/
inductive Number5 : Str → Option Nat → Prop
  | blank : Number5 (spaces 5) none
  | low {k : Nat} {ds : Str} : k < 62 → Digits 4 ds → Number5 (b62 k :: ds) (some (10000 * k + value ds))
  | high {n : Nat} : n < 62 ^ 4 → Number5 ('~' :: b62x4 n) (some (620000 + n))

/-- columns 6-12: a provisional designation -/
inductive Minor7 : Str → Str → Prop
  | normal {c : Nat} {yy : Str} {h : Char} {k : Nat} {d o : Char} : 18 ≤ c → c ≤ 20 → Digits 2 yy → HalfMonth h → k < 62 → isDec d = true → Second o →
      Minor7 ([b62 c] ++ yy ++ [h, b62 k, d, o]) (dec (100 * c + value yy) ++ [' ', h, o] ++ count (10 * k + value [d]))
  | old {c : Nat} {yy : Str} {h : Char} {k : Nat} {d : Char} : 18 ≤ c → c ≤ 20 → Digits 2 yy → HalfMonth h → k < 62 → isDec d = true →
      Minor7 ([b62 c] ++ yy ++ [h, b62 k, d, '0']) (c! "A/" ++ dec (100 * c + value yy) ++ [' ', h] ++ count (10 * k + value [d]))
  | survey (s : Survey) {n : Str} : Digits 4 n → Minor7 ([s.letter, s.digit, 'S'] ++ n) (n ++ [' ', s.letter, '-', s.digit])
  | extended {y : Nat} {h o : Char} {n : Nat} : 25 ≤ y → y ≤ 35 → HalfMonth h → Second o → 15500 ≤ 25 * n + orderIndex o → 25 * n + orderIndex o < 15500 + 62 ^ 4 →
      Minor7 (['_', b62 y, h] ++ b62x4 (25 * n + orderIndex o - 15500)) (dec (2000 + y) ++ [' ', h, o] ++ dec n)

/-! ### comets -/

/-- columns 1-4: blank, or a number -/
inductive Number4 : Str → Option Nat → Prop
  | blank : Number4 (spaces 4) none
  | number {ds : Str} : Digits 4 ds → Number4 ds (some (value ds))

/-- columns 6-12, after the type in column 5: the provisional designation, and what is added to the permanent one -/
inductive Comet7 (ty : Char) : Str → Option Str → Str → Prop
  | plain {c : Nat} {yy : Str} {h : Char} {k : Nat} {d : Char} : c < 62 → Digits 2 yy → HalfMonth h → k < 62 → isDec d = true →
      Comet7 ty ([b62 c] ++ yy ++ [h, b62 k, d, '0']) (some ([ty, '/'] ++ dec (100 * c + value yy) ++ [' ', h] ++ count (10 * k + value [d]))) []
  | letters {c : Nat} {yy : Str} {h : Char} {k : Nat} {d o : Char} : c < 62 → Digits 2 yy → HalfMonth h → k < 62 → isDec d = true → Capital o →
      Comet7 ty ([b62 c] ++ yy ++ [h, b62 k, d, o]) (some ([ty, '/'] ++ dec (100 * c + value yy) ++ [' ', h, o] ++ count (10 * k + value [d]))) []
  | fragment {c : Nat} {yy : Str} {h : Char} {k : Nat} {d f : Char} : c < 62 → Digits 2 yy → HalfMonth h → k < 62 → isDec d = true → Capital f →
      Comet7 ty ([b62 c] ++ yy ++ [h, b62 k, d, lower f]) (some ([ty, '/'] ++ dec (100 * c + value yy) ++ [' ', h] ++ count (10 * k + value [d]) ++ ['-', f])) ['-', f]
  | one {f : Char} : Capital f → Comet7 ty (spaces 6 ++ [lower f]) none ['-', f]
  | two {f g : Char} : Capital f → Capital g → Comet7 ty (spaces 5 ++ [lower f, lower g]) none ['-', f, g]
  | blank (n : Nat) : Comet7 ty (spaces n) none []

/-! ### satellites -/

/-- columns 1-4: blank, or a planet and a number -/
inductive Sat4 : Str → Option (Planet × Nat) → Prop
  | blank : Sat4 (spaces 4) none
  | number {p : Planet} {ds : Str} : Digits 3 ds → Sat4 (p.letter :: ds) (some (p, value ds))

/-- columns 6-12: a provisional designation, or blank -/
inductive Sat7 : Str → Option Str → Prop
  | prov {c : Nat} {yy : Str} {p : Planet} {k : Nat} {d : Char} : c < 62 → Digits 2 yy → k < 62 → isDec d = true →
      Sat7 ([b62 c] ++ yy ++ [p.letter, b62 k, d, '0']) (some (c! "S/" ++ dec (100 * c + value yy) ++ [' ', p.letter, ' '] ++ count (10 * k + value [d])))
  | blank (n : Nat) : Sat7 (spaces n) none

/-! ### all -/

/-- The columns stand for the permanent designation `p`, the provisional designation `q` and the observer's own name `t`, each of which may be missing. -/
inductive Unpacks : Str → Option Str → Option Str → Option Str → Prop
  | minor {a r q e : Str} {n : Option Nat} : Number5 a n → n ≠ some 0 → Minor7 r q → End e → Unpacks (a ++ r ++ e) (n.map dec) (some q) none
  | name {a t e : Str} {n : Option Nat} {k : Nat} : Number5 a n → n ≠ some 0 → t.length ≤ 8 → (∀ c ∈ t, c ∈ trkChars) → (∀ q, ¬ Minor7 (t ++ spaces k) q) → (n = none → t ≠ []) → End e →
      Unpacks (a ++ (t ++ spaces k) ++ e) (n.map dec) none (some t)
  | comet {a r f e : Str} {n : Option Nat} {ty : Char} {q : Option Str} : Number4 a n → n ≠ some 0 → ty ∈ c! "APCDXI" → (n ≠ none → ty = 'P' ∨ ty = 'D') → Comet7 ty r q f → (n ≠ none ∨ q ≠ none) → End e →
      Unpacks (a ++ [ty] ++ r ++ e) (n.map fun n => dec n ++ [ty] ++ f) q none
  | satellite {a r e : Str} {n : Option (Planet × Nat)} {q : Option Str} : Sat4 a n → (∀ x ∈ n, x.2 ≠ 0) → Sat7 r q → (n ≠ none ∨ q ≠ none) → End e →
      Unpacks (a ++ ['S'] ++ r ++ e) (n.map fun x => x.1.name ++ [' '] ++ dec x.2) q none

end Verif.Spec.Unpacking
