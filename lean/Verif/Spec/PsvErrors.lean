import Verif.Spec.Psv
/-!
  Spec.PsvErrors : how the conversion of a PSV file that is not a document ends.
-/
namespace Verif.Spec
open Verif Verif.Xml

/-- a line of cells that all begin with letters (or are blank): taken as column names -/
def NamesLine (text : Str) (h : List Str) : Prop :=
  strip text ≠ [] ∧ (strip text).head? ≠ some '#' ∧ (strip text).head? ≠ some '!' ∧ IsCells (strip text) h ∧ ∀ n ∈ h, ∀ c ∈ n.head?, Letter c

/-- the groups with one more line are the beginning of a document (`gs'`) -/
def Continues (gs : List Group) (l : PLine) (gs' : List Group) : Prop := Document gs' ∧ gs'.flatMap Group.lines = gs.flatMap Group.lines ++ [l]

/-- What is wrong with a line after the lines of `gs`, and the exception this gives. -/
inductive Wrong (ty : Types) (lx : Lxml) (version : Str) (gs : List Group) (line : Str) : PyErr → Prop
  /-- column names that are not those of any type of observation: the program ends with its own message -/
  | names {h : List Str} : NamesLine line h → (∀ t, ¬ ty.Is h t) → Wrong ty lx version gs line .systemExit
  /-- a line of its kind cannot stand here, or a row has more cells than there are columns -/
  | misplaced {l : PLine} : LineIs ty line l → (∀ gs', ¬ Continues gs l gs') → Wrong ty lx version gs line .nameError
  /-- nothing but `#` or `!` (`l` is any line that begins so) where such a line cannot stand -/
  | mark {l : Item → PLine} : (strip line, l) ∈ [(['#'], PLine.top), (['!'], PLine.second)] → (∀ i gs', ¬ Continues gs (l i) gs') → Wrong ty lx version gs line .nameError
  /-- nothing but `#` or `!` where such a line can stand -/
  | blank {l : Item → PLine} {i : Item} {gs' : List Group} : (strip line, l) ∈ [(['#'], PLine.top), (['!'], PLine.second)] → Continues gs (l i) gs' → Wrong ty lx version gs line .indexError
  /-- a name or a text that XML does not have -/
  | refused {l : PLine} {gs' : List Group} : LineIs ty line l → Continues gs l gs' → ¬ Accepted lx (adesElem ty.allowed version gs') → Wrong ty lx version gs line .valueError

/-- How the conversion of a file ends that is not a document. -/
inductive Fails (ty : Types) (lx : Lxml) (lines : List Str) : PyErr → Prop
  /-- no line with anything on it -/
  | nothing : nonBlank lines = [] → Fails ty lx lines .nameError
  /-- the first line does not give a version -/
  | noVersion {first : Str} {rest : List Str} : nonBlank lines = first :: rest → (∀ v, ¬ VersionIs first v) → Fails ty lx lines .systemExit
  /-- a version that XML does not have -/
  | badVersion {first v : Str} {rest : List Str} : nonBlank lines = first :: rest → VersionIs first v → ¬ Accepted lx (adesElem ty.allowed v []) → Fails ty lx lines .valueError
  /-- some line is wrong, those before it are the beginning of a document -/
  | line {first v bad : Str} {good rest : List Str} {gs : List Group} {e : PyErr} : nonBlank lines = first :: (good ++ bad :: rest) → VersionIs first v →
      Each (LineIs ty) good (gs.flatMap Group.lines) → Document gs → Accepted lx (adesElem ty.allowed v gs) → Wrong ty lx v gs bad e → Fails ty lx lines e

end Verif.Spec
