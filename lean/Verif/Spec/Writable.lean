import Verif.Spec.Psv
/-!
  Specification of the ADES documents a PSV file can express.
  No reference to xmltopsv or psvtoxml.
-/
namespace Verif.Spec
open Verif Verif.Xml

/-- a value that a cell can hold: not empty, no separator, no line break, no white space at its ends -/
def CellValue (v : Str) : Prop := v ≠ [] ∧ strip v = v ∧ '|' ∉ v ∧ '\n' ∉ v ∧ '\r' ∉ v

/-- does not begin like a context line -/
def NoMark (v : Str) : Prop := v.head? ≠ some '#' ∧ v.head? ≠ some '!'

/-- An observation of type `t` without attributes and text whose sub-elements are simple values; only `remarks` may begin with '#' or '!';
    some value (for instance the observation time) begins with something else than a letter. -/
structure Cells (valid : Str → Elem → Prop) (t : Str) (o : Elem) : Prop where
  shape : o = .mk t none [] o.kids
  valid : valid t o
  cells : ∀ k ∈ o.kids, ∃ v, k = .mk k.tag (some v) [] [] ∧ CellValue v ∧ (k.tag ≠ c! "remarks" → NoMark v)
  nonLetter : ∃ k ∈ o.kids, k.tag ≠ c! "remarks" ∧ ∃ v c, k.text = some v ∧ v.head? = some c ∧ ¬ Letter c

/-- an element name as it can be written on a context line -/
def Word (w : Str) : Prop := w ≠ [] ∧ ∀ c ∈ w, isSpace c = false

/-- an element of a context: a name, possibly a text without line breaks and outer white space -/
def ContextLine (e : Elem) : Prop := Word e.tag ∧ e.attrib = [] ∧ ∀ v, e.text = some v → v ≠ [] ∧ strip v = v ∧ '\n' ∉ v ∧ '\r' ∉ v

/-- an element of `obsContext`: at most two levels -/
def ContextTree (e : Elem) : Prop := ContextLine e ∧ ∀ k ∈ e.kids, ContextLine k ∧ k.kids = []

/-- an `obsBlock`: a context that is not empty, and observations of one type -/
def WBlock (kinds : List Str) (valid : Str → Elem → Prop) (e : Elem) : Prop :=
  ∃ ctx obs, ctx ≠ [] ∧ (∀ c ∈ ctx, ContextTree c) ∧ obs ≠ [] ∧ (∃ t ∈ kinds, ∀ o ∈ obs, Cells valid t o) ∧
    e = .mk (c! "obsBlock") none [] [.mk (c! "obsContext") none [] ctx, .mk (c! "obsData") none [] obs]

/-- An ADES document that a PSV file can express: a version, and observations and blocks in any order and number. -/
def Expressible (kinds : List Str) (valid : Str → Elem → Prop) (doc : Elem) : Prop :=
  ∃ v kids, doc = .mk (c! "ades") none [(c! "version", v)] kids ∧ '=' ∉ v ∧ (∀ c ∈ v, isSpace c = false) ∧
    ∀ k ∈ kids, WBlock kinds valid k ∨ ∃ t ∈ kinds, Cells valid t k

/-! ### columns -/

/-- the layout of a column: its width; for numbers also the column of the decimal point (counted from 1) -/
inductive Layout
  | text (w : Nat)
  | number (w point : Nat)

def Layout.width : Layout → Nat
  | .text w => w
  | .number w _ => w

/-- A cell of a row keeps to the layout.  A number has its decimal point, if any, in the given column; it can be wider than the column (see C23), but then it ends without padding. -/
def Layout.Holds : Layout → Str → Prop
  | .text w, cell => cell.length = w
  | .number w p, cell => ('.' ∉ cell ∧ cell.length = w) ∨
      ∃ a b, cell = a ++ '.' :: b ∧ '.' ∉ a ∧ '.' ∉ b ∧ a.length + 1 = p ∧ (cell.length = w ∨ w < cell.length ∧ rstrip cell = cell)

/-- the line consisting of the given (padded) cells, without trailing white space -/
def cellsLine (cells : List Str) : Str := rstrip (List.intercalate ['|'] cells)

/-- the value of sub-element `n` of an observation: the text, without outer white space, of the last sub-element of that name that has any -/
def value (o : Elem) (n : Str) : Option Str :=
  (o.kids.filterMap fun k => if k.tag = n ∧ strip (k.text.getD []) ≠ [] then some (strip (k.text.getD [])) else none).getLast?

/-- the text `v` with blanks around it -/
def Padded (v cell : Str) : Prop := ∃ i j, cell = List.replicate i ' ' ++ v ++ List.replicate j ' '

/-- `header` and `rows` are a table of the observations `obs`: there are columns, one for each name that has a value in some observation,
    such that the header has the names, the rows have the values of one observation each, and all cells keep to the columns in the sense of `keeps`. -/
def IsTable (keeps : Layout → Str → Prop) (obs : List Elem) (header : Str) (rows : List Str) : Prop :=
  ∃ cols : List (Str × Layout), (cols.map (·.1)).Nodup ∧ (∀ n, n ∈ cols.map (·.1) ↔ ∃ o ∈ obs, (value o n).isSome) ∧
    (∃ cells, header = cellsLine cells ∧ Each (fun col cell => Padded col.1 cell ∧ cell.length = col.2.width) cols cells) ∧
    Each (fun o row => ∃ cells, row = cellsLine cells ∧ Each (fun col cell => Padded ((value o col.1).getD []) cell ∧ keeps col.2 cell) cols cells) obs rows

/-- exactly as wide as the column -/
def Layout.HoldsExactly (l : Layout) (cell : Str) : Prop := l.Holds cell ∧ cell.length = l.width

/-- the observations in a child of `ades` -/
def observationsIn (k : Elem) : List Elem :=
  if k.tag = c! "obsBlock" then (k.kids.filter fun d => d.tag = c! "obsData").flatMap Elem.kids else [k]

/-- the contexts in a child of `ades` -/
def contextsIn (k : Elem) : List Elem :=
  if k.tag = c! "obsBlock" then k.kids.filter fun d => d.tag = c! "obsContext" else []

/-- the line for an element of a context -/
def contextText (mark : Char) (e : Elem) : Str := rstrip (mark :: ' ' :: e.tag ++ ' ' :: strip (e.text.getD []))

/-- a part of a PSV file -/
inductive Chunk
  | context (e : Elem) (lines : List Str)
  | table (obs : List Elem) (header : Str) (rows : List Str)

def Chunk.lines : Chunk → List Str
  | .context _ ls => ls
  | .table _ h rows => h :: rows

def Chunk.obs : Chunk → List Elem
  | .context _ _ => []
  | .table obs _ _ => obs

def Chunk.contexts : Chunk → List Elem
  | .context e _ => [e]
  | .table _ _ _ => []

/-- the lines show the context, or the observations, which are of one type -/
def Chunk.Right : Chunk → Prop
  | .context e lines => lines = e.kids.flatMap fun i => contextText '#' i :: i.kids.map (contextText '!')
  | .table obs header rows => obs ≠ [] ∧ (∃ t, ∀ o ∈ obs, o.tag = t) ∧ IsTable Layout.Holds obs header rows

/-- The values of `o` agree with the formats (name, width, justification, column of the decimal point): the integer part of a number fits before the decimal point,
    and there is no decimal point in a column without a format. -/
def FitsFormats (fmts : List (Str × Int × Str × Int)) (o : Elem) : Prop :=
  ∀ n v, value o n = some v →
    (∀ f ∈ fmts, f.1 = n → f.2.2.1 = c! "D" → ((v.takeWhile (· ≠ '.')).length : Int) < f.2.2.2) ∧ (n ∉ fmts.map (·.1) → '.' ∉ v)

/-- a table whose values agree with the formats has cells of the same width in each column -/
def Chunk.Neat (fmts : Str → List (Str × Int × Str × Int)) : Chunk → Prop
  | .context _ _ => True
  | .table obs header rows => (∀ o ∈ obs, FitsFormats (fmts o.tag) o) → IsTable Layout.HoldsExactly obs header rows

end Verif.Spec
