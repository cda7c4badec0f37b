import Verif.Spec.Designation
import Verif.Spec.Fields
/-!
  Spec.Packing : the texts that can be packed into columns 1-12, whatever their digits (of any script, with leading zeros), and
  what becomes of those that have the right form and still cannot.  Only the character table (`isDec`, `decVal`) and the list of
  Python's exceptions are shared with the model.
-/
namespace Verif.Spec.Packing
open Verif Verif.Spec

/-- the number decimal digits stand for -/
def value (s : Str) : Nat := s.foldl (fun n c => 10 * n + (decVal c).getD 0) 0

/-- one or more decimal digits -/
def Number (s : Str) : Prop := s ≠ [] ∧ ∀ c ∈ s, isDec c = true
/-- no or more decimal digits -/
def Digits0 (s : Str) : Prop := ∀ c ∈ s, isDec c = true
/-- four decimal digits -/
def Year (s : Str) : Prop := s.length = 4 ∧ ∀ c ∈ s, isDec c = true

/-- what may follow the text: nothing, or a line feed -/
def End (e : Str) : Prop := e = [] ∨ e = ['\n']

/-! ### permanent designations -/

/-- a permanent designation as written -/
inductive PermName
  | minor (n : Str)
  | comet (n : Str) (ty : Char)
  | fragment (n : Str) (ty : Char) (frag : Str)
  | satellite (p : Planet) (n : Str)

def PermName.text : PermName → Str
  | .minor n => n
  | .comet n ty => n ++ [ty]
  | .fragment n ty frag => n ++ [ty, '-'] ++ frag
  | .satellite p n => p.name ++ [' '] ++ n

/-- its parts have the right form -/
def PermName.Formed : PermName → Prop
  | .minor n => Number n
  | .comet n ty => Number n ∧ ty ∈ ['P', 'D', 'I']
  | .fragment n ty frag => Number n ∧ ty ∈ ['P', 'D', 'I'] ∧ (frag.length = 1 ∨ frag.length = 2) ∧ ∀ c ∈ frag, Capital c
  | .satellite _ n => Number n

/-- the designation it is -/
def PermName.perm : PermName → Perm
  | .minor n => .minor (value n)
  | .comet n ty => .comet (value n) ty
  | .fragment n ty frag => .fragment (value n) ty frag
  | .satellite p n => .satellite p (value n)

/-- its number can be packed -/
def PermName.InRange : PermName → Prop
  | .minor n => 1 ≤ value n ∧ value n ≤ 15396335
  | .comet n _ => 1 ≤ value n ∧ value n ≤ 9999
  | .fragment n _ _ => 1 ≤ value n ∧ value n ≤ 9999
  | .satellite _ n => 1 ≤ value n ∧ value n ≤ 999

/-- `v` is that designation -/
def PermName.Is (w : PermName) (v : Str) : Prop := w.Formed ∧ ∃ e, End e ∧ v = w.text ++ e

/-! ### provisional designations -/

/-- a provisional designation as written -/
inductive ProvName
  | minor (y : Str) (half order : Char) (n : Str)
  | survey (n : Str) (s : Survey)
  | comet (ty : Char) (y : Str) (half : Char) (order : Option Char) (n : Str)
  | fragment (ty : Char) (y : Str) (half : Char) (n : Str) (frag : Char)
  | satellite (y : Str) (p : Planet) (n : Str)

def ProvName.text : ProvName → Str
  | .minor y half order n => y ++ [' ', half, order] ++ n
  | .survey n s => n ++ [' ', s.letter, '-', s.digit]
  | .comet ty y half order n => [ty, '/'] ++ y ++ [' ', half] ++ order.toList ++ n
  | .fragment ty y half n frag => [ty, '/'] ++ y ++ [' ', half] ++ n ++ ['-', frag]
  | .satellite y p n => ['S', '/'] ++ y ++ [' ', p.letter, ' '] ++ n

/-- its parts have the right form -/
def ProvName.Formed : ProvName → Prop
  | .minor y half order n => Year y ∧ HalfMonth half ∧ Second order ∧ Digits0 n
  | .survey n _ => Year n
  | .comet ty y half order n => ty ∈ ['A', 'C', 'D', 'P', 'X'] ∧ Year y ∧ Capital half ∧ (∀ o ∈ order, Capital o) ∧ Digits0 n
  | .fragment ty y half n frag => ty ∈ ['C', 'D', 'P', 'X'] ∧ Year y ∧ Capital half ∧ Digits0 n ∧ Capital frag
  | .satellite y _ n => Year y ∧ Number n

/-- the century of a year: its first two digits -/
def century (y : Str) : Nat := value (y.take 2)

/-- a comet's or satellite's year, letter and count, between `a` and `z`: the last two digits of the year are copied as they are -/
def cometCols (a : Char) (y : Str) (letter : Char) (n : Nat) (z : Char) : Except PyErr Str :=
  if 619 < n then .error .runtimeError
  else if 61 < century y then .error .indexError
  else .ok ([a, b62 (century y)] ++ y.drop 2 ++ [letter] ++ countCols n ++ [z])

/-- what it is packed into (columns 5-12), or the exception it is refused with -/
def ProvName.cols : ProvName → Except PyErr Str
  | .minor y half order n =>
    if century y < 18 ∨ 61 < century y then .error .runtimeError
    else if value n ≤ 619 then .ok ([' ', b62 (century y)] ++ y.drop 2 ++ [half] ++ countCols (value n) ++ [order])
    else if 15500 + 62 ^ 4 ≤ 25 * value n + orderIndex order then .error .runtimeError
    else if 61 < value (y.drop 2) then .error .indexError
    else .ok ([' ', '_', b62 (value (y.drop 2)), half] ++ b62x4 (25 * value n + orderIndex order - 15500))
  | .survey n s => .ok ([' ', s.letter, s.digit, 'S'] ++ fixed 4 (value n))
  | .comet ty y half order n => cometCols ty y half (value n) (order.getD '0')
  | .fragment ty y half n frag => if n = [] then .error .valueError else cometCols ty y half (value n) (lower frag)
  | .satellite y p n => if value n = 0 then .error .runtimeError else cometCols 'S' y p.letter (value n) '0'

/-- kind of object -/
def ProvName.kind : ProvName → Kind
  | .minor .. => .minorPlanet
  | .survey .. => .minorPlanet
  | .comet ty .. => if ty = 'A' then .minorPlanet else .comet
  | .fragment .. => .cometFragment
  | .satellite .. => .satellite
/-- fragment letter -/
def ProvName.fragment? : ProvName → Str
  | .fragment _ _ _ _ f => [f]
  | _ => []

/-- `v` is that designation -/
def ProvName.Is (w : ProvName) (v : Str) : Prop := w.Formed ∧ ∃ e, End e ∧ v = w.text ++ e

/-! ### tracklets -/

/-- `v` is the tracklet name `t`: one to eight letters, digits or dashes -/
def TrackletIs (t v : Str) : Prop := (1 ≤ t.length ∧ t.length ≤ 8 ∧ ∀ c ∈ t, c ∈ trkChars) ∧ ∃ e, End e ∧ v = t ++ e

/-- columns 6-12: the last seven characters -/
def trackletCols (t : Str) : Str :=
  let s := t.drop (t.length - 7)
  s ++ List.replicate (7 - s.length) ' '

/-! ### both designations -/

/-- The designations are for the same kind of object, and for the same fragment. -/
def Agree (w : PermName) (u : ProvName) : Prop := w.perm.kind = u.kind ∧ w.perm.fragment? = u.fragment?

/-- The permanent designation `p`, the provisional designation `q` and the observer's own name `t`, each of which may be missing, are packed into columns 1-12. -/
def Packs (p q t : Option Str) (columns : Str) : Prop :=
  (∃ v w, p = some v ∧ q = none ∧ PermName.Is w v ∧ w.InRange ∧ columns = w.perm.cols ++ w.perm.tail)
  ∨ (∃ v w c, p = none ∧ q = some v ∧ ProvName.Is w v ∧ w.cols = .ok c ∧ columns = c! "    " ++ c)
  ∨ (∃ v x w u c, p = some v ∧ q = some x ∧ PermName.Is w v ∧ w.InRange ∧ ProvName.Is u x ∧ u.cols = .ok c ∧ Agree w u ∧ columns = w.perm.cols ++ c.drop 1)
  ∨ ∃ v s, p = none ∧ q = none ∧ t = some v ∧ TrackletIs s v ∧ columns = c! "     " ++ trackletCols s

/-! ### valid designations without columns -/

/-- permanent designations of satellites of Mars and of minor planets -/
def PermWithout (v : Str) : Prop := (∃ n, v = c! "Mars " ++ n) ∨ ∃ r, v = '(' :: r

/-- provisional designations of fragments of an object `A/` or with two letters, and of satellites of Mars and of minor planets -/
def ProvWithout (v : Str) : Prop :=
  (∃ k y l n c, k ∈ ['A', 'D', 'C', 'P', 'X'] ∧ Year y ∧ (∀ x ∈ l, Capital x) ∧ (l.length = 1 ∧ k = 'A' ∨ l.length = 2) ∧ Digits0 n ∧ Capital c ∧ v = [k, '/'] ++ y ++ [' '] ++ l ++ n ++ ['-', c])
  ∨ ∃ y p r, Year y ∧ (p = 'M' ∨ p = '(') ∧ v = ['S', '/'] ++ y ++ [' ', p] ++ r

end Verif.Spec.Packing
