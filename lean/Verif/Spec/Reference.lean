import Verif.Spec.Designation
/-
  Independent specification of publication references in columns 73-77
  (https://www.minorplanetcenter.net/iau/info/References.html, cases A-E,
  as restated in packUtil.py:249-255).
-/
namespace Verif.Spec

/-- A Minor Planet Circular page or a Minor Planet Circular Supplement page. -/
inductive Ref
  | mpc (n : Nat)
  | mps (n : Nat)
  deriving DecidableEq

/-- the pages the five columns can express -/
def Ref.Valid : Ref → Prop
  | .mpc n => n < 110000 + 62 ^ 4
  | .mps n => n < 260000 + 62 ^ 4

/-- the text used in ADES -/
def Ref.text : Ref → List Char
  | .mpc n => ['M', 'P', 'C', ' ', ' '] ++ dec n
  | .mps n => ['M', 'P', 'S', ' ', ' '] ++ dec n

/-- the 26 letters a to z -/
def letter (k : Nat) : Char := Char.ofNat (97 + k)

/-- the five columns -/
def Ref.columns : Ref → List Char
  | .mpc n =>
    if n < 100000 then fixed 5 n                                        -- case A
    else if n < 110000 then '@' :: fixed 4 (n - 100000)                 -- case B
    else '#' :: b62x4 (n - 110000)                                      -- case C
  | .mps n =>
    if n < 260000 then letter (n / 10000) :: fixed 4 (n % 10000)        -- case D
    else '~' :: b62x4 (n - 260000)                                      -- case E

end Verif.Spec
