import Verif.Xml
import Verif.Justify
import Verif.Tables
/-
  Verif.PsvToXml : /repo/Python/ades/psvtoxml.py.
  The module globals (`state`, `firstLine`, `stack`, `headerType`, `headerVals`)
  are the fields of `Globals`; a global that was never assigned is `none`.
  `lineNumber` is only ever assigned as a *local* of `psvtoxml`
  (psvtoxml.py:524), so that every use of it as a global (lines 201, 345)
  raises NameError.
-/
namespace Verif.Psv
open Verif Verif.Xml

/-- the tables psvtoxml.py:34-35 obtains from `getAdesTables()`, as dicts -/
structure Tab where
  allowed : List (Str × List Str)
  required : List (Str × List Str)

/-- `d[k]` on a dict (KeyError if absent) -/
def getItem {β : Type} (d : List (Str × β)) (k : Str) : Py β :=
  match PackUtil.dictGet d k with
  | some v => .ok v
  | none => .error .keyError

/-- `s.split(None, 1)` -/
def splitWs1 (s : Str) : List Str :=
  let s := lstrip s
  if s.isEmpty then []
  else
    let w := s.takeWhile (fun c => !isSpace c)
    let r := lstrip (s.dropWhile (fun c => !isSpace c))
    if r.isEmpty then [w] else [w, r]

/-- psvtoxml.py:74-77 -/
inductive LineType | top | second | keyword | data
  deriving DecidableEq, Repr

/-- psvtoxml.py:84-89 -/
inductive PState | empty | obsContext | firstObsData | obsData | firstData | data
  deriving DecidableEq, Repr

/-- the character class of psvtoxml.py:96 -/
def alpha_ (c : Char) : Bool :=
  (decide ('A' ≤ c) && decide (c ≤ 'Z')) || (decide ('a' ≤ c) && decide (c ≤ 'z')) || c == '_'

/-- psvtoxml.py:162-170: the loop over the allowed elements of `ades` (the last match wins) -/
def headerTag (tab : Tab) (fields : List Str) : List Str → Option Str → Py (Option Str)
  | [], tag => .ok tag
  | possible :: l, tag => do
    let a ← getItem tab.allowed possible
    if fields.all (fun f => a.contains f) then
      let r ← getItem tab.required possible
      if r.all (fun f => fields.contains f) then headerTag tab fields l (some possible)
      else headerTag tab fields l tag
    else headerTag tab fields l tag

/-- psvtoxml.py:98-178 `parsePSVLine`.  The regex of line 146 is applied to the
    first characters of stripped fields, which are never '\n': it holds iff all
    of them are in the class. -/
def parsePSVLine (tab : Tab) (line : Str) : Py (Option (LineType × List Str)) :=
  let l := strip line
  match l with
  | [] => .ok none
  | c :: rest =>
    if c = '#' then .ok (some (.top, splitWs1 rest))
    else if c = '!' then .ok (some (.second, splitWs1 rest))
    else
      let fields := (splitChar '|' l).map strip
      let firstChars := fields.flatMap (fun x => x.take 1)
      if firstChars.all alpha_ then do
        let ps ← getItem tab.allowed (c! "ades")
        match ← headerTag tab fields ps none with
        | none => raiseRT
        | some tag => if tag.isEmpty then raiseRT else return some (.keyword, fields ++ [tag])
      else .ok (some (.data, fields))

structure Globals where
  state : PState
  firstLine : Bool
  stack : Option Stk
  headerType : Option (Option Str)
  headerVals : List Str

/-- the module globals after import: psvtoxml.py:187, 436, 438 -/
def Globals.initial : Globals := ⟨.empty, true, none, none, []⟩

/-- reading the global `stack` (NameError before it is assigned) -/
def Globals.getStack (g : Globals) : Py Stk :=
  match g.stack with
  | some s => .ok s
  | none => .error .nameError

/-- an operation on the global `stack` -/
def Globals.on (g : Globals) (f : Stk → Py Stk) : Py Globals := do
  let s ← g.getStack
  let s ← f s
  return { g with stack := some s }

/-- psvtoxml.py:204-207 `errorAction`: `actionStatus` (line 201) evaluates the
    unassigned global `lineNumber` before the RuntimeError is raised. -/
def errorAction : Py Globals := .error .nameError

/-- psvtoxml.py:257-269 `obsContextAction`; `action` is `addPopPush` or `addPush` -/
def obsContextAction (g : Globals) (action : Stk → Str → Option Str → Py Stk) (fields : List Str) : Py Globals :=
  match fields with
  | [] => .error .indexError
  | [a] => g.on fun s => action s a none
  | a :: b :: _ => g.on fun s => action s a (some b)

/-- psvtoxml.py:210-233 `firstObsBlockAction` -/
def firstObsBlockAction (lx : Lxml) (g : Globals) (fields : List Str) : Py Globals := do
  let g := { g with headerType := some none }
  let g ← g.on fun s => s.addPush lx (c! "obsBlock")
  let g ← g.on fun s => s.addPush lx (c! "obsContext")
  obsContextAction g (fun s t x => s.addPush lx t x) fields

/-- psvtoxml.py:236-246 `closeObsBlockOpenObsBlockAction` -/
def closeObsBlockOpenObsBlockAction (lx : Lxml) (g : Globals) (fields : List Str) : Py Globals := do
  let g := { g with headerType := some none }
  let g ← g.on Stk.pop
  let g ← g.on Stk.pop
  let g ← g.on Stk.pop
  firstObsBlockAction lx g fields

/-- psvtoxml.py:249-255 `closeDataOpenObsBlockAction` -/
def closeDataOpenObsBlockAction (lx : Lxml) (g : Globals) (fields : List Str) : Py Globals := do
  let g ← g.on Stk.pop
  firstObsBlockAction lx g fields

/-- psvtoxml.py:271-283 `subObsContextAction` -/
def subObsContextAction (lx : Lxml) (g : Globals) (fields : List Str) : Py Globals :=
  match fields with
  | [] => .error .indexError
  | [a] => g.on fun s => s.add lx a none
  | a :: b :: _ => g.on fun s => s.add lx a (some b)

/-- psvtoxml.py:285-306 `keywordHeaderAction` -/
def keywordHeaderAction (g : Globals) (fields : List Str) : Py Globals := do
  let g := { g with headerVals := fields.dropLast }
  match g.headerType with
  | none => .error .nameError
  | some old => do
    let new ← match fields.getLast? with
      | some t => .ok t
      | none => .error .indexError
    if truthy old ∧ some new ≠ old then raiseRT
    else return { g with headerType := some (some new) }

/-- psvtoxml.py:308-317 `openDataKeywordHeaderAction` -/
def openDataKeywordHeaderAction (g : Globals) (fields : List Str) : Py Globals :=
  match fields.getLast? with
  | some t => .ok { g with headerVals := fields.dropLast, headerType := some (some t) }
  | none => .error .indexError

/-- psvtoxml.py:319-325 `closeDataKeywordHeaderAction` -/
def closeDataKeywordHeaderAction (g : Globals) (fields : List Str) : Py Globals := do
  let g ← g.on Stk.pop
  openDataKeywordHeaderAction g fields

/-- psvtoxml.py:327-335 `closeObsBlockKeywordHeaderAction` -/
def closeObsBlockKeywordHeaderAction (g : Globals) (fields : List Str) : Py Globals := do
  let g ← g.on Stk.pop
  let g ← g.on Stk.pop
  let g ← g.on Stk.pop
  openDataKeywordHeaderAction g fields

/-- psvtoxml.py:356-362: the cells of a row as (name, value), in the order of
    the allowed elements; `dict(zip(...))` keeps the last of duplicated names -/
def rowItems (order headerVals fields : List Str) : List (Str × Str) :=
  let d := headerVals.zip fields
  order.filterMap fun item =>
    match PackUtil.dictGet d item with
    | some v => if v ≠ [] then some (item, v) else none
    | none => none

/-- psvtoxml.py:337-371 `dataAction`.  A row with too many cells evaluates the
    unassigned global `lineNumber` (line 345).  `headerType = None` makes lxml
    raise TypeError; it does not occur. -/
def dataAction (tab : Tab) (lx : Lxml) (g : Globals) (action : Stk → Str → Py Stk) (fields : List Str) : Py Globals :=
  if g.headerVals.length < fields.length then .error .nameError
  else
    match g.headerType with
    | none => .error .nameError
    | some none => .error .typeError
    | some (some ht) => do
      let g ← g.on fun s => action s ht
      let order ← getItem tab.allowed ht
      let elements ← makeElementList lx (rowItems order g.headerVals fields)
      g.on fun s => s.addElementList elements

/-- psvtoxml.py:374-381 `firstObsDataAction` -/
def firstObsDataAction (tab : Tab) (lx : Lxml) (g : Globals) (fields : List Str) : Py Globals := do
  let g ← g.on Stk.pop
  let g ← g.on Stk.pop
  let g ← g.on fun s => s.addPush lx (c! "obsData")
  dataAction tab lx g (fun s t => s.addPush lx t) fields

/-- psvtoxml.py:397-434 `stateTransitions`: next state and action -/
def transition (tab : Tab) (lx : Lxml) (st : PState) (r : LineType) : PState × (Globals → List Str → Py Globals) :=
  let err : PState × (Globals → List Str → Py Globals) := (.empty, fun _ _ => errorAction)
  match st, r with
  | .empty, .top => (.obsContext, firstObsBlockAction lx)
  | .empty, .second => err
  | .empty, .keyword => (.firstData, openDataKeywordHeaderAction)
  | .empty, .data => err
  | .obsContext, .top => (.obsContext, fun g f => obsContextAction g (fun s t x => s.addPopPush lx t x) f)
  | .obsContext, .second => (.obsContext, subObsContextAction lx)
  | .obsContext, .keyword => (.firstObsData, keywordHeaderAction)
  | .obsContext, .data => err
  | .firstObsData, .top => err
  | .firstObsData, .second => err
  | .firstObsData, .keyword => err
  | .firstObsData, .data => (.obsData, firstObsDataAction tab lx)
  | .obsData, .top => (.obsContext, closeObsBlockOpenObsBlockAction lx)
  | .obsData, .second => err
  | .obsData, .keyword => (.firstData, closeObsBlockKeywordHeaderAction)
  | .obsData, .data => (.obsData, fun g f => dataAction tab lx g (fun s t => s.addPopPush lx t) f)
  | .firstData, .top => err
  | .firstData, .second => err
  | .firstData, .keyword => err
  | .firstData, .data => (.data, fun g f => dataAction tab lx g (fun s t => s.addPush lx t) f)
  | .data, .top => (.obsContext, closeDataOpenObsBlockAction lx)
  | .data, .second => err
  | .data, .keyword => (.firstData, closeDataKeywordHeaderAction)
  | .data, .data => (.data, fun g f => dataAction tab lx g (fun s t => s.addPopPush lx t) f)

/-- psvtoxml.py:463-476: the version line -/
def versionLine (lx : Lxml) (g : Globals) (line : Str) : Py Globals :=
  match splitChar '=' line with
  | [a, b] =>
    if (splitWs a).flatten ≠ c! "#version" then raiseRT
    else do
      let s ← Stk.init lx (c! "ades") none [(c! "version", (splitWs b).flatten)]
      return { g with firstLine := false, stack := some s }
  | _ => raiseRT

/-- psvtoxml.py:440-483 `parsePSV` -/
def parsePSV (tab : Tab) (lx : Lxml) (g : Globals) (line : Str) : Py Globals := do
  match ← parsePSVLine tab line with
  | none => return g
  | some (record, fields) =>
    if g.firstLine then versionLine lx g line
    else do
      let (next, action) := transition tab lx g.state record
      let g ← action g fields
      return { g with state := next }

/-- text-mode reading with universal newlines: `\r\n` and `\r` become `\n` -/
def universalNewlines : Str → Str
  | '\r' :: '\n' :: s => '\n' :: universalNewlines s
  | '\r' :: s => '\n' :: universalNewlines s
  | c :: s => c :: universalNewlines s
  | [] => []

/-- `for line in f`: the lines with their terminating `\n` (the last line may have none) -/
def fileLines : Str → List Str
  | [] => []
  | c :: s =>
    if c = '\n' then [c] :: fileLines s
    else match fileLines s with
      | [] => [[c]]
      | l :: ls => (c :: l) :: ls

/-- psvtoxml.py:525-531: the loop; a RuntimeError ends the process (SystemExit),
    any other exception propagates -/
def readLines (tab : Tab) (lx : Lxml) : Globals → List Str → Py Globals
  | g, [] => .ok g
  | g, line :: lines =>
    match parsePSV tab lx g line.dropLast with
    | .ok g => readLines tab lx g lines
    | .error .runtimeError => .error .systemExit
    | .error e => .error e

/-- psvtoxml.py:521-538 `psvtoxml`: the tree handed to lxml for writing, and the
    globals afterwards.  On an exception nothing is written.  `content` is the
    decoded text of the file. -/
def psvtoxml (tab : Tab) (lx : Lxml) (g : Globals) (content : Str) : Py (Elem × Globals) := do
  let g ← readLines tab lx g (fileLines (universalNewlines content))
  let s ← g.getStack
  let (tree, s) ← s.takeTreeAndClear
  return (tree, { g with stack := some s })

end Verif.Psv
