import Verif.Master
import Verif.Justify
/-
  Verif.XmlToPsv : /repo/Python/ades/xmltopsv.py.
  The module globals `dataDicts`, `headerInfo`, `psvList` are fields of `Out`, together
  with the lines printed so far.  `headerDict` maps a name to the `headerInfo` item of
  that name inserted last; duplicates only come from the PSV table (inserted at the end),
  so it is the last item of that name in `headerInfo`.
  Not modelled: comments and processing instructions among the children of an element
  (lxml iterates over them), the encoding of the output file, and the file being left
  incomplete when an exception is raised.
-/
namespace Verif.ToPsv
open Verif Verif.Xml Verif.Master

/-- the values `headerItem[2]` can have (adesutility.py:371-443) -/
def jtypeOf (s : Str) : JType :=
  if s = c! "L" then .L else if s = c! "R" then .R else if s = c! "C" then .C else if s = c! "D" then .D else .other

/-- a `headerItem`: xmltopsv.py:66-73 -/
structure HItem where
  name : Str
  width : Int
  fmt : JType
  dpos : Int
  seen : Bool

structure Out where
  dataDicts : List (List (Str × Str))
  headerInfo : List HItem
  psvList : List Str
  out : List Str

/-- `print(sline, file=encodedout)` -/
def Out.print (g : Out) (l : Str) : Out := { g with out := g.out ++ [l] }

/-- xmltopsv.py:47-52: the children that have text, as a dict -/
def subDict (element : Elem) : List (Str × Str) :=
  element.kids.foldl (fun d i => let (t, x) := getElementTagText i; if x.isEmpty then d else dictSet d t x) []

/-- `l.insert(-1, x)` -/
def insertBeforeLast {α : Type} (l : List α) (x : α) : List α := l.dropLast ++ x :: l.getLast?.toList

/-- xmltopsv.py:79-96: the header items of a table of type `tag` before any data (the PSV formats
    with widths extended to the names, then the other allowed names before the last item) -/
def initialHeader (tabs : Tables) (tag : Str) : Py (List Str × List HItem) := do
  let fmts ← Psv.getItem tabs.psv tag
  let psvList := fmts.map (·.1)
  let items := fmts.map fun j => (⟨j.1, if (j.1.length : Int) > j.2.1 then j.1.length else j.2.1, jtypeOf j.2.2.1, j.2.2.2, false⟩ : HItem)
  let allowed ← Psv.getItem tabs.allowed tag
  let items := (allowed.filter fun j => j ∉ psvList).foldl (fun l j => insertBeforeLast l ⟨j, j.length, .R, 0, false⟩) items
  return (psvList, items)

/-- `s.index('.')` -/
def indexDot (s : Str) : Option Nat := if s.contains '.' then some (s.takeWhile (· ≠ '.')).length else none

/-- xmltopsv.py:104-129: a value for a known column -/
def adjust (psvList : List Str) (value : Str) (it : HItem) : Py HItem := do
  let it := if it.name ∉ psvList ∧ it.seen = false ∧ (it.fmt = .R ∨ it.fmt = .L) then
      match indexDot value with
      | some i => { it with fmt := .D, dpos := i + 1 }
      | none => { it with dpos := 0 }
    else it
  let (_, width, dpos) ← applyPJ value it.width it.fmt it.dpos
  return { it with seen := true, width := width, dpos := dpos }

/-- `f` applied to the last item named `n` (`none`: there is none) -/
def updateLast (n : Str) (f : HItem → Py HItem) : List HItem → Option (Py (List HItem))
  | [] => none
  | it :: l =>
    match updateLast n f l with
    | some r => some (do return it :: (← r))
    | none => if it.name = n then some (do return (← f it) :: l) else none

/-- xmltopsv.py:130-158: a value for an unknown column -/
def newItem (n value : Str) : HItem :=
  let l := if value.length < n.length then n.length else value.length
  match indexDot value with
  | some i => ⟨n, l, .D, i + 1, true⟩
  | none => ⟨n, l, .R, 0, true⟩

/-- xmltopsv.py:102-158: one value -/
def addValue (psvList : List Str) (l : List HItem) (nv : Str × Str) : Py (List HItem) :=
  match updateLast nv.1 (adjust psvList nv.2) l with
  | some r => r
  | none => .ok (insertBeforeLast l (newItem nv.1 nv.2))

/-- xmltopsv.py:39-160 `processDataElement` -/
def processDataElement (tabs : Tables) (g : Out) (first : Bool) (element : Elem) : Py Out := do
  let sub := subDict element
  let g ← if first then do
      let (psvList, items) ← initialHeader tabs element.tag
      pure { g with headerInfo := items, psvList := psvList, dataDicts := [] }
    else pure g
  let info ← sub.foldlM (addValue g.psvList) g.headerInfo
  return { g with headerInfo := info, dataDicts := g.dataDicts ++ [sub] }

/-- `'|'.join(l)`, as the loops of printDataDicts build it -/
def joinBars : List Str → Str
  | [] => []
  | [x] => x
  | x :: xs => x ++ '|' :: joinBars xs

/-- xmltopsv.py:247-259: the header line -/
def headerLine (info : List HItem) : Py Str := do
  let cells ← (info.filter (·.seen)).mapM fun it => do
    let r ← applyPJ it.name it.width .L 0
    return r.1
  return rstrip (joinBars cells)

/-- xmltopsv.py:268-278: one cell -/
def cellText (sub : List (Str × Str)) (it : HItem) : Py Str :=
  match PackUtil.dictGet sub it.name with
  | some v => do
    let r ← applyPJ v it.width it.fmt it.dpos
    return r.1
  | none => .ok (blanks it.width)

/-- xmltopsv.py:264-280: one row -/
def rowLine (info : List HItem) (sub : List (Str × Str)) : Py Str := do
  let cells ← (info.filter (·.seen)).mapM (cellText sub)
  return rstrip (joinBars cells)

/-- xmltopsv.py:238-280 `printDataDicts` -/
def printDataDicts (g : Out) : Py Out :=
  if g.dataDicts.isEmpty then .ok g
  else do
    let h ← headerLine g.headerInfo
    let rows ← g.dataDicts.mapM (rowLine g.headerInfo)
    return { g with out := g.out ++ h :: rows }

/-- xmltopsv.py:284-297 `processObsContext`: the lines printed -/
def contextLines (element : Elem) : List Str :=
  element.kids.flatMap fun i =>
    rstrip (c! "# " ++ i.tag ++ ' ' :: regularizeWhiteSpace i.text) :: i.kids.map fun j => rstrip (c! "! " ++ j.tag ++ ' ' :: regularizeWhiteSpace j.text)

/-- xmltopsv.py:175-187: the observations in an `obsData`; `type` is `none` while `first` is true -/
def processObsData (tabs : Tables) : Out × Option Str → List Elem → Py (Out × Option Str)
  | s, [] => .ok s
  | (g, type), x :: xs => do
    match type with
    | none => do
      let allowed ← Psv.getItem tabs.allowed (c! "obsData")
      if x.tag ∉ allowed then raiseRT
      let g ← processDataElement tabs g true x
      processObsData tabs (g, some x.tag) xs
    | some t => do
      if x.tag ≠ t then raiseRT
      let g ← processDataElement tabs g false x
      processObsData tabs (g, some t) xs

/-- xmltopsv.py:163-187 `processObsBlock` -/
def processObsBlock (tabs : Tables) : Out × Option Str → List Elem → Py (Out × Option Str)
  | s, [] => .ok s
  | (g, type), child :: l => do
    let allowed ← Psv.getItem tabs.allowed (c! "obsBlock")
    if child.tag ∉ allowed then raiseRT
    else if child.tag = c! "obsContext" then processObsBlock tabs ({ g with out := g.out ++ contextLines child }, type) l
    else if child.tag = c! "obsData" then do
      let s ← processObsData tabs (g, type) child.kids
      processObsBlock tabs s l
    else processObsBlock tabs (g, type) l

/-- xmltopsv.py:214-231: the children of the root; `last` is `lastDataTagType` -/
def processChildren (tabs : Tables) : Out → Option Str → List Elem → Py Out
  | g, _, [] => .ok g
  | g, last, child :: l => do
    let allowed ← Psv.getItem tabs.allowed (c! "ades")
    if child.tag ∉ allowed then raiseRT
    else if child.tag = c! "obsBlock" then do
      let g ← printDataDicts g
      let (g, _) ← processObsBlock tabs (g, none) child.kids
      processChildren tabs g (some (c! "obsBlock")) l
    else if last ≠ some child.tag then do
      let g ← printDataDicts g
      let g ← processDataElement tabs g true child
      processChildren tabs g (some child.tag) l
    else do
      let g ← processDataElement tabs g false child
      processChildren tabs g (some child.tag) l

/-- xmltopsv.py:192-233 `processAdesElement` and 319-323 `xmltopsv`: the lines of the file -/
def xmltopsv (tabs : Tables) (root : Elem) : Py (List Str) := do
  if root.tag ≠ c! "ades" then raiseRT
  else do
    let v ← Psv.getItem root.attrib (c! "version")
    let g : Out := ⟨[], [], [], [c! "# version=" ++ v]⟩
    let g ← processChildren tabs g none root.kids
    let g ← printDataDicts g
    return g.out

end Verif.ToPsv
