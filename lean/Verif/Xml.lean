import Verif.Py
/-
  Verif.Xml : XML elements and the element stack.
  /repo/Python/ades/xmlutility.py:200-289 (element helpers) and 324-502 (class `ElementStack`).

  lxml elements are mutable objects with reference semantics; `ElementStack`
  holds references into one growing tree.  The model therefore has a heap:
  a reference is an index, an element is a `Cell` whose children are
  references.  Not modelled: `tail`, comments, processing instructions,
  namespaces, and the textual form lxml writes.
-/
namespace Verif.Xml
open Verif

abbrev Attrib := List (Str × Str)

/-- A finished XML element (tag, text or `None`, attributes, children in document order). -/
inductive Elem
  | mk (tag : Str) (text : Option Str) (attrib : Attrib) (kids : List Elem)

instance : Inhabited Elem := ⟨.mk [] none [] []⟩

def Elem.tag : Elem → Str | .mk t _ _ _ => t
def Elem.text : Elem → Option Str | .mk _ x _ _ => x
def Elem.attrib : Elem → Attrib | .mk _ _ a _ => a
def Elem.kids : Elem → List Elem | .mk _ _ _ k => k

/-- What lxml accepts as an element name and as element or attribute text
    (`ValueError` otherwise).  Left open: every theorem holds for any choice. -/
structure Lxml where
  tagOk : Str → Bool
  textOk : Str → Bool

/-- xmlutility.py:200-213 `regularizeWhiteSpace` -/
def regularizeWhiteSpace (text : Option Str) : Str :=
  match text with
  | none => []
  | some t => strip t

/-- xmlutility.py:232-246 `getElementTagText` -/
def getElementTagText (e : Elem) : Str × Str := (e.tag, regularizeWhiteSpace e.text)

/-- One lxml element object; children are references (heap indices). -/
structure Cell where
  tag : Str
  text : Option Str
  attrib : Attrib
  kids : List Nat

abbrev Heap := List Cell

/-- xmlutility.py:248-276 `newElement`: an empty text is `None`; lxml raises
    ValueError on an unacceptable tag, attribute value or text. -/
def newElement (lx : Lxml) (tag : Str) (text : Option Str) (attrib : Attrib) : Py Cell :=
  if lx.tagOk tag ∧ attrib.all (fun a => lx.tagOk a.1 && lx.textOk a.2) then
    match text with
    | none => .ok ⟨tag, none, attrib, []⟩
    | some t =>
      if t.isEmpty then .ok ⟨tag, none, attrib, []⟩
      else if lx.textOk t then .ok ⟨tag, some t, attrib, []⟩
      else .error .valueError
  else .error .valueError

/-- xmlutility.py:278-289 `makeElementList` -/
def makeElementList (lx : Lxml) : List (Str × Str) → Py (List Cell)
  | [] => .ok []
  | (tag, value) :: l => do
    let c ← newElement lx tag (some value) []
    let cs ← makeElementList lx l
    return c :: cs

/-- The heap together with `self.elementStack`; the list is kept top first, so
    that its head is `elementStack[-1]` and its last item `elementStack[0]`. -/
structure Stk where
  heap : Heap
  stack : List Nat

/-- `heap[i].extend(refs)` -/
def Heap.extend (h : Heap) (i : Nat) (refs : List Nat) : Heap :=
  h.modify i fun c => { c with kids := c.kids ++ refs }

/-- xmlutility.py:363-376 `ElementStack.__init__` (with a tag) -/
def Stk.init (lx : Lxml) (tag : Str) (text : Option Str) (attrib : Attrib) : Py Stk := do
  let c ← newElement lx tag text attrib
  return ⟨[c], [0]⟩

/-- xmlutility.py:378-387 `pop` -/
def Stk.pop (s : Stk) : Py Stk :=
  if s.stack.length < 2 then raiseRT else .ok { s with stack := s.stack.tail }

/-- xmlutility.py:389-400 `addElementList` (the elements are fresh objects) -/
def Stk.addElementList (s : Stk) (l : List Cell) : Py Stk :=
  match s.stack with
  | [] => raiseRT
  | top :: _ =>
    let n := s.heap.length
    .ok { s with heap := Heap.extend (s.heap ++ l) top (List.range' n l.length) }

/-- xmlutility.py:416-431 `add` -/
def Stk.add (lx : Lxml) (s : Stk) (tag : Str) (text : Option Str := none) (attrib : Attrib := []) : Py Stk :=
  match s.stack with
  | [] => raiseRT
  | top :: _ => do
    let c ← newElement lx tag text attrib
    let n := s.heap.length
    return { s with heap := Heap.extend (s.heap ++ [c]) top [n] }

/-- xmlutility.py:433-453 `addPush` -/
def Stk.addPush (lx : Lxml) (s : Stk) (tag : Str) (text : Option Str := none) (attrib : Attrib := []) : Py Stk :=
  match s.stack with
  | [] => do
    let c ← newElement lx tag text attrib
    return ⟨s.heap ++ [c], [s.heap.length]⟩
  | top :: rest => do
    let c ← newElement lx tag text attrib
    let n := s.heap.length
    return ⟨Heap.extend (s.heap ++ [c]) top [n], n :: top :: rest⟩

/-- xmlutility.py:455-470 `addPopPush` -/
def Stk.addPopPush (lx : Lxml) (s : Stk) (tag : Str) (text : Option Str := none) (attrib : Attrib := []) : Py Stk := do
  let s ← s.pop
  s.addPush lx tag text attrib

/-- The tree below reference `i`, to depth `fuel`. -/
def treeAt : Nat → Heap → Nat → Elem
  | 0, _, _ => default
  | f + 1, h, i =>
    match h[i]? with
    | none => default
    | some c => .mk c.tag c.text c.attrib (c.kids.map (treeAt f h))

/-- xmlutility.py:488-496 `takeTreeAndClear`: the tree at `elementStack[0]`
    (IndexError if the stack is empty) and the cleared stack.  The heap is as
    deep as it has cells at most, so its size is enough fuel. -/
def Stk.takeTreeAndClear (s : Stk) : Py (Elem × Stk) :=
  match s.stack.getLast? with
  | none => .error .indexError
  | some root => .ok (treeAt s.heap.length s.heap root, { s with stack := [] })

end Verif.Xml
