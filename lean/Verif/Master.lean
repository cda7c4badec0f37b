import Verif.Xml
import Verif.Tables
import Verif.PsvToXml
import Verif.Spec.Schema
/-
  Verif.Master : what is derived from xml/adesmaster.xml.
  * xslt/util/tableades.xslt and `readAdesTables` (adesutility.py:173-330): the tables
    psvtoxml and xmltopsv use;
  * xslt/xsd/generalxsd.xslt and submitxsd.xslt: the two schemas.
  The master file is an element tree (`Elem`).
-/
namespace Verif.Master
open Verif Verif.Xml Verif.Spec

/-- `@name` -/
def attr (e : Elem) (k : Str) : Option Str := lookup e.attrib k

/-- children with a given tag (`select="tag"`) -/
def kidsNamed (e : Elem) (tag : Str) : List Elem := e.kids.filter fun k => k.tag = tag

/-- `/ades/XSDTypes/*` -/
def types (m : Elem) : List Elem := (kidsNamed m (c! "XSDTypes")).flatMap Elem.kids

/-- `/ades/XSDElementTypes/element` -/
def elementTypes (m : Elem) : List Elem := (kidsNamed m (c! "XSDElementTypes")).flatMap fun s => kidsNamed s (c! "element")

/-! ### tableades.xslt -/

/-- tableades.xslt:28-33 `processUse`, as words -/
def useWords (e : Elem) : List Str :=
  match attr e (c! "use") with
  | none => [c! "use", c! "required"]
  | some u => if u ∈ [c! "optional", c! "NoSubmitDistribRequired", c! "NoSubmit", c! "unbounded"] then [c! "use", u] else []

/-- tableades.xslt:44-83: the lines (as words) for one item of a content model.
    `//grouptype[@name=...]` is looked up among the children of XSDTypes.  `fuel`
    bounds the depth (groups refer to groups); XSLT would not end on cyclic groups. -/
def itemLines (m : Elem) : Nat → Elem → Option (List (List Str))
  | 0, _ => none
  | f + 1, e =>
    let name := fun k => (attr e k).getD []
    if e.tag = c! "element" then
      some [[c! "element", if (attr e (c! "ref")).isSome then name (c! "ref") else name (c! "name")] ++ useWords e]
    else if e.tag = c! "group" ∧ (attr e (c! "ref")).isSome then do
      let groups := (types m).filter fun t => t.tag = c! "grouptype" ∧ attr t (c! "name") = attr e (c! "ref")
      let inner ← (groups.flatMap Elem.kids).mapM (itemLines m f)
      return [[c! "open", c! "group", name (c! "ref")] ++ useWords e] ++ inner.flatten ++ [[c! "close", c! "group", name (c! "ref")]]
    else if e.tag = c! "sequence" ∨ e.tag = c! "all" ∨ e.tag = c! "choice" then do
      let inner ← e.kids.mapM (itemLines m f)
      return [[c! "open", e.tag] ++ useWords e] ++ inner.flatten ++ [[c! "close", e.tag]]
    else some []

/-- tableades.xslt:38-42, 90-94: one element of XSDElementTypes -/
def elementLines (m : Elem) (f : Nat) (e : Elem) : Option (List (List Str)) := do
  let name := (attr e (c! "name")).getD []
  let ct := (types m).filter fun t => t.tag = c! "complextype" ∧ attr t (c! "name") = attr e (c! "type")
  let inner ← ct.mapM fun t => do
    let n := (attr t (c! "name")).getD []
    let body ← t.kids.mapM (itemLines m f)
    return [[c! "complex", c! "type", c! "name", c! "is", n]] ++ body.flatten ++ [[c! "end", c! "complex", c! "type", n]]
  return [[c! "top", name]] ++ inner.flatten ++ [[c! "close", name]]

/-- tableades.xslt:21-23: a line of the PSV table -/
def psvLine (e : Elem) : List Str :=
  let v := fun k => (attr e k).getD []
  [c! "psv", c! "tagtype", v (c! "tagtype"), c! "name", v (c! "name"), c! "width", v (c! "width"), c! "just", v (c! "justification"), c! "dpos", v (c! "dpos")]

/-- tableades.xslt:11-17 and adesutility.py:224-229: all lines, split into words -/
def tableLines (m : Elem) (f : Nat) : Option (List (List Str)) := do
  let els ← (elementTypes m).mapM (elementLines m f)
  return els.flatten ++ ((kidsNamed m (c! "PSVObservationFields")).flatMap fun s => kidsNamed s (c! "psv")).map psvLine

/-! ### readAdesTables -/

/-- the dictionaries, and the variables of the loop (`none`: unbound) -/
structure Tables where
  allowed : List (Str × List Str)
  required : List (Str × List Str)
  psv : List (Str × List (Str × Int × Str × Int))
  current : Option Str
  stillRequired : Option Bool

/-- `d[k] = v` keeping the position of an existing key -/
def dictSet {β : Type} (d : List (Str × β)) (k : Str) (v : β) : List (Str × β) :=
  if d.any (fun p => p.1 == k) then d.map fun p => if p.1 = k then (k, v) else p else d ++ [(k, v)]

/-- `l[i]` -/
def word (l : List Str) (i : Nat) : Py Str :=
  match l[i]? with
  | some w => .ok w
  | none => .error .indexError

/-- reading a local variable -/
def bound {α : Type} : Option α → Py α
  | some x => .ok x
  | none => .error .unboundLocalError

/-- `d[k].append(x)` -/
def appendTo {β : Type} (d : List (Str × List β)) (k : Str) (x : β) : Py (List (Str × List β)) := do
  let l ← Psv.getItem d k
  return dictSet d k (l ++ [x])

/-- adesutility.py:249-293: one line -/
def readTableLine (t : Tables) (words : List Str) : Py Tables := do
  let w0 ← word words 0
  if w0 = c! "top" then
    let e ← word words 1
    return { t with current := some e, allowed := dictSet t.allowed e [], required := dictSet t.required e [], stillRequired := some true }
  else if w0 = c! "open" then
    let w1 ← word words 1
    if w1 ≠ c! "choice" then return { t with stillRequired := some false }
    else
      let w3 ← word words 3
      if w3 ≠ c! "required" then return { t with stillRequired := some false } else return t
  else if w0 = c! "close" then return { t with stillRequired := some true }
  else if w0 = c! "element" then
    let e ← word words 1
    let cur ← bound t.current
    let a ← appendTo t.allowed cur e
    let t := { t with allowed := a }
    let s ← bound t.stillRequired
    if s then
      let w3 ← word words 3
      if w3 = c! "required" then
        let r ← appendTo t.required cur e
        return { t with required := r }
      else return t
    else return t
  else if w0 = c! "psv" then
    let tt ← word words 2
    let psv := if t.psv.any (fun p => p.1 == tt) then t.psv else dictSet t.psv tt []
    let n ← word words 4
    let w ← word words 6
    let w ← pyInt w
    let j ← word words 8
    let d ← word words 10
    let d ← pyInt d
    let psv ← appendTo psv tt (n, w, j, d)
    return { t with psv := psv }
  else return t

/-- `list(OrderedDict.fromkeys(l))`: the first occurrences -/
def firsts : List Str → List Str
  | [] => []
  | x :: l => x :: (firsts l).filter (fun y => y ≠ x)

/-- adesutility.py:303-317: reverse, keep first occurrences, reverse -/
def lasts (l : List Str) : List Str := (firsts l.reverse).reverse

/-- adesutility.py:173-330 `readAdesTables` -/
def readAdesTables (lines : List (List Str)) : Py Tables := do
  let t ← lines.foldlM readTableLine ⟨[], [], [], none, none⟩
  return { t with allowed := t.allowed.map fun p => (p.1, lasts p.2), required := t.required.map fun p => (p.1, lasts p.2) }

/-! ### generalxsd.xslt, submitxsd.xslt -/

inductive Mode | general | submit
  deriving DecidableEq

/-- `@use` is one of the two values that exclude an item from submissions -/
def noSubmit (e : Elem) : Bool := attr e (c! "use") = some (c! "NoSubmitDistribRequired") ∨ attr e (c! "use") = some (c! "NoSubmit")

/-- generalxsd.xslt:86-105 `processUse`: minOccurs=0 (submitxsd.xslt:86-104 has no minOccurs for the excluded items) -/
def isOpt (mode : Mode) (e : Elem) : Bool := (mode = .general ∧ noSubmit e) ∨ attr e (c! "use") = some (c! "optional")

/-- generalxsd.xslt:98-100: maxOccurs=unbounded -/
def isMany (e : Elem) : Bool := attr e (c! "use") = some (c! "unbounded")

mutual
/-- generalxsd.xslt:107-146, submitxsd.xslt:107-145: a content model item.  When both
    templates match an element, the later one (`name` and `type`) applies.  Items no
    template matches (in submissions: `ref` items excluded from them) give nothing. -/
def particles (mode : Mode) : Elem → List Particle
  | .mk tag text attrib kids =>
    let e : Elem := .mk tag text attrib []
    let get := fun k => (attr e k).getD []
    if tag = c! "element" ∧ (attr e (c! "name")).isSome ∧ (attr e (c! "type")).isSome ∧ ¬ noSubmit e then
      [.elemDecl (get (c! "name")) (get (c! "type")) (isOpt mode e) (isMany e)]
    else if tag = c! "element" ∧ (attr e (c! "ref")).isSome ∧ ¬ (mode = .submit ∧ noSubmit e) then
      [.elemRef (get (c! "ref")) (isOpt mode e) (isMany e)]
    else if tag = c! "group" ∧ (attr e (c! "ref")).isSome ∧ ¬ (mode = .submit ∧ noSubmit e) then
      [.groupRef (get (c! "ref")) (isOpt mode e) (isMany e)]
    else if tag = c! "sequence" then [.seq (isMany e) (particlesL mode kids)]
    else if tag = c! "choice" then [.choice (isMany e) (particlesL mode kids)]
    else if tag = c! "all" then [.all (isMany e) (particlesL mode kids)]
    else if tag = c! "any" then [.any]
    else []
def particlesL (mode : Mode) : List Elem → List Particle
  | [] => []
  | e :: es => particles mode e ++ particlesL mode es
end

/-- `<xsl:apply-templates select="all|sequence|choice"/>` -/
def content (mode : Mode) (e : Elem) : List Particle :=
  particlesL mode (e.kids.filter fun k => k.tag = c! "all" ∨ k.tag = c! "sequence" ∨ k.tag = c! "choice")

/-- `<xsl:apply-templates select="attribute"/>` -/
def attributes (e : Elem) : List Attribute :=
  ((kidsNamed e (c! "attribute")).filter fun a => (attr a (c! "name")).isSome ∧ (attr a (c! "type")).isSome ∧ ¬ noSubmit a).map fun a =>
    ⟨(attr a (c! "name")).getD [], (attr a (c! "type")).getD [], attr a (c! "use") = some (c! "requiredAttribute")⟩

/-- generalxsd.xslt:17-23, 51-68; submitxsd.xslt:20, 63: a simple type.  `memberTypes` is a list separated by white space. -/
def simpleType (mode : Mode) (e : Elem) : SimpleType where
  union := ((kidsNamed e (if mode = .submit then c! "submitunion" else c! "union")).head?).map fun u => splitWs ((attr u (c! "memberTypes")).getD [])
  restriction := ((kidsNamed e (c! "restriction")).head?).map fun r =>
    ((attr r (c! "base")).getD [], (kidsNamed r (c! "restrict")).map fun x => ((attr x (c! "name")).getD [], (attr x (c! "value")).getD []))

/-- generalxsd.xslt:11-44, submitxsd.xslt: the schema -/
def schema (mode : Mode) (m : Elem) : Schema where
  simple := ((types m).filter fun t => t.tag = c! "simpletype").map fun t => ((attr t (c! "name")).getD [], simpleType mode t)
  complex := ((types m).filter fun t => t.tag = c! "complextype").map fun t => ((attr t (c! "name")).getD [], ⟨content mode t, attributes t⟩)
  groups := ((types m).filter fun t => t.tag = c! "grouptype").map fun t => ((attr t (c! "name")).getD [], content mode t)
  elements := ((elementTypes m).filter fun e => (attr e (c! "name")).isSome ∧ (attr e (c! "type")).isSome ∧ ¬ noSubmit e).map fun e =>
    ((attr e (c! "name")).getD [], (attr e (c! "type")).getD [])

end Verif.Master
