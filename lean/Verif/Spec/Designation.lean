/-
  Independent specification of the MPC designations and of their 12-column
  packed form (https://www.minorplanetcenter.net/iau/info/PackedDes.html as
  restated in the comments of packUtil.py).  Nothing here refers to the model.
-/
namespace Verif.Spec

/-- decimal digits of `n`, no leading zeros -/
def dec (n : Nat) : List Char := Nat.toDigits 10 n
/-- decimal digits of `n`, zero-padded on the left to `w` columns -/
def fixed (w n : Nat) : List Char := List.leftpad w '0' (dec n)

/-- the base-62 digit of value `k`: 0-9, A-Z, a-z -/
def b62 (k : Nat) : Char :=
  if k < 10 then Char.ofNat (48 + k) else if k < 36 then Char.ofNat (55 + k) else Char.ofNat (61 + k)
/-- four base-62 digits, most significant first -/
def b62x4 (n : Nat) : List Char := [b62 (n / 62 ^ 3 % 62), b62 (n / 62 ^ 2 % 62), b62 (n / 62 % 62), b62 (n % 62)]

/-- half-month letters: A to Y without I -/
def halfMonths : List Char :=
  ['A','B','C','D','E','F','G','H','J','K','L','M','N','O','P','Q','R','S','T','U','V','W','X','Y']
/-- order-within-half-month letters: A to Z without I -/
def orders : List Char := halfMonths ++ ['Z']
/-- the letters A to Z -/
def upperCase : List Char :=
  ['A','B','C','D','E','F','G','H','I','J','K','L','M','N','O','P','Q','R','S','T','U','V','W','X','Y','Z']
/-- lower-case form of a letter A-Z -/
def lower (c : Char) : Char := Char.ofNat (c.toNat + 32)

inductive Survey | PL | T1 | T2 | T3
  deriving DecidableEq
def Survey.letter : Survey → Char
  | .PL => 'P' | .T1 => 'T' | .T2 => 'T' | .T3 => 'T'
def Survey.digit : Survey → Char
  | .PL => 'L' | .T1 => '1' | .T2 => '2' | .T3 => '3'

inductive Planet | jupiter | saturn | uranus | neptune
  deriving DecidableEq
def Planet.name : Planet → List Char
  | .jupiter => ['J','u','p','i','t','e','r']
  | .saturn => ['S','a','t','u','r','n']
  | .uranus => ['U','r','a','n','u','s']
  | .neptune => ['N','e','p','t','u','n','e']
def Planet.letter : Planet → Char
  | .jupiter => 'J' | .saturn => 'S' | .uranus => 'U' | .neptune => 'N'

/-- permanent designations -/
inductive Perm
  | minor (n : Nat)
  | comet (n : Nat) (ty : Char)
  | fragment (n : Nat) (ty : Char) (frag : List Char)
  | satellite (p : Planet) (n : Nat)
  deriving DecidableEq

/-- the permanent designations that exist -/
def Perm.Valid : Perm → Prop
  | .minor n => 1 ≤ n ∧ n ≤ 15396335
  | .comet n ty => 1 ≤ n ∧ n ≤ 9999 ∧ (ty = 'P' ∨ ty = 'D')
  | .fragment n ty frag => 1 ≤ n ∧ n ≤ 9999 ∧ (ty = 'P' ∨ ty = 'D') ∧
      (frag.length = 1 ∨ frag.length = 2) ∧ ∀ c ∈ frag, c ∈ upperCase
  | .satellite _ n => 1 ≤ n ∧ n ≤ 999

/-- how ADES writes it, e.g. `433`, `73P`, `73P-AF`, `Jupiter 5` -/
def Perm.text : Perm → List Char
  | .minor n => dec n
  | .comet n ty => dec n ++ [ty]
  | .fragment n ty frag => dec n ++ [ty, '-'] ++ frag
  | .satellite p n => p.name ++ [' '] ++ dec n

/-- columns 1-5 of the 80-column format -/
def Perm.cols : Perm → List Char
  | .minor n => if n < 620000 then b62 (n / 10000) :: fixed 4 (n % 10000) else '~' :: b62x4 (n - 620000)
  | .comet n ty => fixed 4 n ++ [ty]
  | .fragment n ty _ => fixed 4 n ++ [ty]
  | .satellite p n => p.letter :: (fixed 3 n ++ ['S'])

/-- columns 6-12 when there is no provisional designation: blank, except that the
    fragment letters of a comet go, lower case, in columns 11-12 -/
def Perm.tail : Perm → List Char
  | .fragment _ _ frag => List.leftpad 7 ' ' (frag.map lower)
  | _ => List.replicate 7 ' '

/-- provisional designations -/
inductive Prov
  | minor (year : Nat) (half order : Char) (cycle : Nat)
  | survey (n : Nat) (s : Survey)
  | comet (ty : Char) (year : Nat) (half : Char) (order : Option Char) (num : Nat)
  | fragment (ty : Char) (year : Nat) (half : Char) (num : Nat) (frag : Char)
  | satellite (year : Nat) (p : Planet) (num : Nat)
  deriving DecidableEq

/-- position of an order letter (A = 0, …, Z = 24) -/
def orderIndex (c : Char) : Nat := orders.idxOf c

/-- the provisional designations that the packed format can carry -/
def Prov.Valid : Prov → Prop
  | .minor year half order cycle => 1800 ≤ year ∧ year ≤ 2099 ∧ half ∈ halfMonths ∧ order ∈ orders ∧
      (cycle ≤ 619 ∨ (2025 ≤ year ∧ year ≤ 2035 ∧ 25 * cycle + orderIndex order < 15500 + 62 ^ 4))
  | .survey n _ => n ≤ 9999
  | .comet ty year half order num => ty ∈ ['A','C','D','P','X'] ∧ 1000 ≤ year ∧ year ≤ 6199 ∧
      half ∈ halfMonths ∧ (∀ o ∈ order, o ∈ upperCase) ∧ num ≤ 619
  | .fragment ty year half num frag => ty ∈ ['C','D','P','X'] ∧ 1000 ≤ year ∧ year ≤ 6199 ∧
      half ∈ halfMonths ∧ 1 ≤ num ∧ num ≤ 619 ∧ frag ∈ upperCase
  | .satellite year _ num => 1000 ≤ year ∧ year ≤ 6199 ∧ 1 ≤ num ∧ num ≤ 619

/-- a count that is not written when it is zero -/
def count (n : Nat) : List Char := if n = 0 then [] else dec n

/-- how ADES writes it, e.g. `1995 XA12`, `2040 P-L`, `C/1997 BA6`, `P/1994 P1-B`, `S/2010 J 1` -/
def Prov.text : Prov → List Char
  | .minor year half order cycle => dec year ++ [' ', half, order] ++ count cycle
  | .survey n s => fixed 4 n ++ [' ', s.letter, '-', s.digit]
  | .comet ty year half order num => [ty, '/'] ++ dec year ++ [' ', half] ++ order.toList ++ count num
  | .fragment ty year half num frag => [ty, '/'] ++ dec year ++ [' ', half] ++ count num ++ ['-', frag]
  | .satellite year p num => ['S', '/'] ++ dec year ++ [' ', p.letter, ' '] ++ dec num

/-- year as one base-62 digit for the century and two decimal digits -/
def yearCols (year : Nat) : List Char := b62 (year / 100) :: fixed 2 (year % 100)
/-- a count up to 619 as one base-62 digit and one decimal digit -/
def countCols (n : Nat) : List Char := [b62 (n / 10), b62 (n % 10)]

/-- columns 5-12 of the 80-column format -/
def Prov.cols : Prov → List Char
  | .minor year half order cycle =>
      if cycle ≤ 619 then [' '] ++ yearCols year ++ [half] ++ countCols cycle ++ [order]
      else [' ', '_', b62 (year % 100), half] ++ b62x4 (25 * cycle + orderIndex order - 15500)
  | .survey n s => [' ', s.letter, s.digit, 'S'] ++ fixed 4 n
  | .comet ty year half order num => [ty] ++ yearCols year ++ [half] ++ countCols num ++ [order.getD '0']
  | .fragment ty year half num frag => [ty] ++ yearCols year ++ [half] ++ countCols num ++ [lower frag]
  | .satellite year p num => ['S'] ++ yearCols year ++ [p.letter] ++ countCols num ++ ['0']

/-- a permanent and a provisional designation that can belong to one object -/
def Compatible : Perm → Prov → Prop
  | .minor _, .minor .. => True
  | .minor _, .survey .. => True
  | .minor _, .comet ty year _ order _ => ty = 'A' ∧ 1800 ≤ year ∧ year ≤ 2099 ∧ order = none
  | .comet _ ty, .comet ty' .. => ty = ty'
  | .fragment _ ty frag, .fragment ty' _ _ _ f' => ty = ty' ∧ frag = [f']
  | .satellite .., .satellite .. => True
  | _, _ => False

/-- characters of a tracklet ID -/
def trkChars : List Char := '-' :: (List.range 62).map b62

/-- a tracklet ID that reads as a packed provisional or survey designation -/
def LooksPacked (t : List Char) : Prop :=
  (∃ c d1 d2 h l d o, t = [c, d1, d2, h, l, d, o] ∧ c ∈ ['I','J','K'] ∧ d1 ∈ (List.range 10).map b62 ∧
      d2 ∈ (List.range 10).map b62 ∧ h ∈ halfMonths ∧ l ∈ (List.range 62).map b62 ∧
      d ∈ (List.range 10).map b62 ∧ (o ∈ orders ∨ o = '0')) ∨
  (∃ s : Survey, ∃ n, n ≤ 9999 ∧ t = [s.letter, s.digit, 'S'] ++ fixed 4 n)

/-- everything columns 1-12 can designate -/
inductive Designation
  | perm (p : Perm)
  | prov (q : Prov)
  | both (p : Perm) (q : Prov)
  | tracklet (t : List Char)
  deriving DecidableEq

def Designation.Valid : Designation → Prop
  | .perm p => p.Valid
  | .prov q => q.Valid
  | .both p q => p.Valid ∧ q.Valid ∧ Compatible p q
  | .tracklet t => 1 ≤ t.length ∧ t.length ≤ 7 ∧ (∀ c ∈ t, c ∈ trkChars) ∧ ¬ LooksPacked t

def Designation.permText : Designation → Option (List Char)
  | .perm p => some p.text
  | .both p _ => some p.text
  | _ => none
def Designation.provText : Designation → Option (List Char)
  | .prov q => some q.text
  | .both _ q => some q.text
  | _ => none
def Designation.trkText : Designation → Option (List Char)
  | .tracklet t => some t
  | _ => none

/-- columns 1-12 -/
def Designation.columns : Designation → List Char
  | .perm p => p.cols ++ p.tail
  | .prov q => List.replicate 4 ' ' ++ q.cols
  | .both p q => p.cols ++ q.cols.drop 1
  | .tracklet t => List.replicate 5 ' ' ++ t ++ List.replicate (7 - t.length) ' '

end Verif.Spec

namespace Verif.Spec

/-- kind of object a designation is for; `A/…` designations are for minor planets on comet-like
    orbits -/
inductive Kind | minorPlanet | comet | cometFragment | satellite
  deriving DecidableEq
def Perm.kind : Perm → Kind
  | .minor _ => .minorPlanet
  | .comet .. => .comet
  | .fragment .. => .cometFragment
  | .satellite .. => .satellite
def Prov.kind : Prov → Kind
  | .minor .. => .minorPlanet
  | .survey .. => .minorPlanet
  | .comet ty .. => if ty = 'A' then .minorPlanet else .comet
  | .fragment .. => .cometFragment
  | .satellite .. => .satellite
/-- fragment letters -/
def Perm.fragment? : Perm → List Char
  | .fragment _ _ f => f
  | _ => []
def Prov.fragment? : Prov → List Char
  | .fragment _ _ _ _ f => [f]
  | _ => []

end Verif.Spec
