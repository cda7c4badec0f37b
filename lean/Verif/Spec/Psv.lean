import Verif.Xml
/-!
  Specification of PSV documents: what a sequence of (classified) PSV lines means as an ADES document.
  No reference to the state machine; only to the type of finished XML elements.
-/
namespace Verif.Spec
open Verif Verif.Xml

/-- a header line `# tag text` or `! tag text`: the tag and the rest of the line, if any -/
structure Item where
  tag : Str
  more : Option Str

/-- a non-blank line: `# item`, `! item`, column names (with the observation type they belong to), or a row of cells -/
inductive PLine
  | top (i : Item)
  | second (i : Item)
  | keyword (hdr : List Str) (tag : Str)
  | data (cells : List Str)

/-- a table: an observation type, column names, rows -/
structure Table where
  tag : Str
  hdr : List Str
  rows : List (List Str)

/-- A PSV document is a sequence of groups: a bare table, or a block of context lines (each `#` line with its `!` lines) followed by a table. -/
inductive Group
  | table (t : Table)
  | block (ctx : List (Item × List Item)) (t : Option Table)

def Table.lines (t : Table) : List PLine := .keyword t.hdr t.tag :: t.rows.map .data

def ctxLines (c : Item × List Item) : List PLine := .top c.1 :: c.2.map .second

/-- the lines of a group -/
def Group.lines : Group → List PLine
  | .table t => t.lines
  | .block ctx none => ctx.flatMap ctxLines
  | .block ctx (some t) => ctx.flatMap ctxLines ++ t.lines

/-- the text of an element: an empty text is no text -/
def textOf : Option Str → Option Str
  | some [] => none
  | x => x

def Item.elem (i : Item) (kids : List Elem) : Elem := .mk i.tag (textOf i.more) [] kids

/-- the cell under column `name` (the last one, if several columns have that name) -/
def cell (hdr cells : List Str) (name : Str) : Option Str :=
  ((hdr.zip cells).filter fun p => p.1 = name).getLast?.map (·.2)

/-- the non-blank cells of a row as elements, in the order `order` of the element names -/
def rowKids (order hdr cells : List Str) : List Elem :=
  order.filterMap fun name =>
    match cell hdr cells name with
    | some v => if v = [] then none else some (.mk name (some v) [] [])
    | none => none

/-- the element a row stands for; `order` gives the order of sub-elements of each observation type -/
def rowElem (order : Str → List Str) (tag : Str) (hdr cells : List Str) : Elem := .mk tag none [] (rowKids (order tag) hdr cells)

def Table.elems (order : Str → List Str) (t : Table) : List Elem := t.rows.map (rowElem order t.tag t.hdr)

def contextElem (ctx : List (Item × List Item)) : Elem :=
  .mk (c! "obsContext") none [] (ctx.map fun c => c.1.elem (c.2.map fun i => i.elem []))

/-- the elements a group contributes to the document -/
def Group.elems (order : Str → List Str) : Group → List Elem
  | .table t => t.elems order
  | .block ctx none => [.mk (c! "obsBlock") none [] [contextElem ctx]]
  | .block ctx (some t) =>
    if t.rows = [] then [.mk (c! "obsBlock") none [] [contextElem ctx]]
    else [.mk (c! "obsBlock") none [] [contextElem ctx, .mk (c! "obsData") none [] (t.elems order)]]

/-- the whole document -/
def adesElem (order : Str → List Str) (version : Str) (gs : List Group) : Elem :=
  .mk (c! "ades") none [(c! "version", version)] (gs.flatMap (Group.elems order))

def Table.Fits (t : Table) : Prop := ∀ r ∈ t.rows, r.length ≤ t.hdr.length

/-- no row has more cells than there are columns, a block has context lines -/
def Group.Fits : Group → Prop
  | .table t => t.Fits
  | .block ctx none => ctx ≠ []
  | .block ctx (some t) => ctx ≠ [] ∧ t.Fits

/-- the group has at least one row -/
def Group.HasRows : Group → Prop
  | .table t => t.rows ≠ []
  | .block _ (some t) => t.rows ≠ []
  | .block _ none => False

/-- a document: every group but the last has at least one row -/
def Document (gs : List Group) : Prop := (∀ g ∈ gs, g.Fits) ∧ ∀ g ∈ gs.dropLast, g.HasRows

/-! ### lines as text -/

/-- the cells of a `|`-separated line, without surrounding white space: `cells` joined by `|` is the line, up to that white space -/
def IsCells (text : Str) (cells : List Str) : Prop :=
  ∃ pieces : List Str, List.intercalate ['|'] pieces = text ∧ pieces ≠ [] ∧ (∀ p ∈ pieces, '|' ∉ p) ∧ cells = pieces.map strip

/-- an ASCII letter or an underscore -/
def Letter (c : Char) : Prop := ('A' ≤ c ∧ c ≤ 'Z') ∨ ('a' ≤ c ∧ c ≤ 'z') ∨ c = '_'

/-- `w`, or `w` followed by white space and `rest`; leading white space is skipped -/
def FirstWord (s : Str) (i : Item) : Prop :=
  i.tag ≠ [] ∧ (∀ c ∈ i.tag, isSpace c = false) ∧ ∃ sp : Str, (∀ c ∈ sp, isSpace c = true) ∧
    match i.more with
    | none => s = sp ++ i.tag
    | some r => r ≠ [] ∧ (∀ c ∈ r.head?, isSpace c = false) ∧ ∃ sp' : Str, sp' ≠ [] ∧ (∀ c ∈ sp', isSpace c = true) ∧ s = sp ++ i.tag ++ sp' ++ r

/-- the observation types and, for each, the names allowed and required -/
structure Types where
  kinds : List Str
  allowed : Str → List Str
  required : Str → List Str

/-- the columns `h` suit the observation type `t` -/
def Types.Suits (ty : Types) (h : List Str) (t : Str) : Prop := (∀ n ∈ h, n ∈ ty.allowed t) ∧ (∀ n ∈ ty.required t, n ∈ h)

/-- the last observation type that suits the columns -/
def Types.Is (ty : Types) (h : List Str) (t : Str) : Prop :=
  ∃ a b, ty.kinds = a ++ t :: b ∧ ty.Suits h t ∧ ∀ t' ∈ b, ¬ ty.Suits h t'

/-- the line `text` is a line of the given kind -/
def LineIs (ty : Types) (text : Str) : PLine → Prop
  | .top i => ∃ r, strip text = '#' :: r ∧ FirstWord r i
  | .second i => ∃ r, strip text = '!' :: r ∧ FirstWord r i
  | .keyword h t => strip text ≠ [] ∧ (strip text).head? ≠ some '#' ∧ (strip text).head? ≠ some '!' ∧ IsCells (strip text) h ∧
      (∀ n ∈ h, ∀ c ∈ n.head?, Letter c) ∧ ty.Is h t
  | .data cells => strip text ≠ [] ∧ (strip text).head? ≠ some '#' ∧ (strip text).head? ≠ some '!' ∧ IsCells (strip text) cells ∧
      ∃ n ∈ cells, ∃ c ∈ n.head?, ¬ Letter c

/-- the first line: `#version=v`, with any white space anywhere -/
def VersionIs (text v : Str) : Prop :=
  ∃ a b, text = a ++ '=' :: b ∧ '=' ∉ a ∧ '=' ∉ b ∧ a.filter (fun c => !isSpace c) = c! "#version" ∧ v = b.filter (fun c => !isSpace c)

/-- the non-blank ones of a list of lines -/
def nonBlank (lines : List Str) : List Str := lines.filter fun l => strip l ≠ []

/-- two lists of the same length, related item by item -/
inductive Each {α β : Type} (R : α → β → Prop) : List α → List β → Prop
  | nil : Each R [] []
  | cons {a : α} {b : β} {as : List α} {bs : List β} : R a b → Each R as bs → Each R (a :: as) (b :: bs)

/-- the lines are those of the document `gs` with version `v` (blank lines anywhere) -/
def IsText (ty : Types) (lines : List Str) (v : Str) (gs : List Group) : Prop :=
  ∃ first rest, nonBlank lines = first :: rest ∧ VersionIs first v ∧ Each (LineIs ty) rest (gs.flatMap Group.lines)

/-- the content of a file consisting of the given lines, each ended by a newline -/
def fileText (lines : List Str) : Str := lines.flatMap (· ++ ['\n'])

/-- a line of text -/
def IsLine (l : Str) : Prop := '\n' ∉ l ∧ '\r' ∉ l

/-- an element without attributes or sub-elements -/
def Leaf : Elem → Prop
  | .mk _ text attrib kids => text ≠ none ∧ attrib = [] ∧ kids = []

/-- an observation: an element named `t` whose sub-elements are leaves that `t` may have, in the order of the list of `t` -/
def Observation (ty : Types) (t : Str) : Elem → Prop
  | .mk tag text attrib kids => tag = t ∧ text = none ∧ attrib = [] ∧ (∀ k ∈ kids, Leaf k) ∧ (kids.map Elem.tag).Sublist (ty.allowed t)

/-- an item of an `obsContext`: at most two levels, no attributes -/
def ContextItem : Elem → Prop
  | .mk _ _ attrib kids => attrib = [] ∧ ∀ k ∈ kids, k.attrib = [] ∧ k.kids = []

/-- `obsBlock` with an `obsContext`, then possibly an `obsData` with observations of one type -/
def Block (ty : Types) (e : Elem) : Prop :=
  ∃ ctx : List Elem, ctx ≠ [] ∧ (∀ c ∈ ctx, ContextItem c) ∧
    (e = .mk (c! "obsBlock") none [] [.mk (c! "obsContext") none [] ctx] ∨
     ∃ t ∈ ty.kinds, ∃ obs, obs ≠ [] ∧ (∀ o ∈ obs, Observation ty t o) ∧
       e = .mk (c! "obsBlock") none [] [.mk (c! "obsContext") none [] ctx, .mk (c! "obsData") none [] obs])

/-- `ades` with a version, containing blocks and observations -/
def Nested (ty : Types) (e : Elem) : Prop :=
  ∃ v kids, e = .mk (c! "ades") none [(c! "version", v)] kids ∧ ∀ k ∈ kids, Block ty k ∨ ∃ t ∈ ty.kinds, Observation ty t k

/-- lxml accepts all names and texts of a tree -/
inductive Accepted (lx : Lxml) : Elem → Prop
  | mk {tag : Str} {text : Option Str} {attrib : Attrib} {kids : List Elem} : lx.tagOk tag = true →
      (∀ t, text = some t → lx.textOk t = true) → (∀ a ∈ attrib, lx.tagOk a.1 = true ∧ lx.textOk a.2 = true) → (∀ k ∈ kids, Accepted lx k) →
      Accepted lx (.mk tag text attrib kids)

end Verif.Spec
