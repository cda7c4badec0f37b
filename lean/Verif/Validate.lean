import Verif.Convert
import Verif.Master
/-
  Verif.Validate : /repo/Python/ades/valutility.py, valsubmit.py, valgeneral.py, valall.py, validate.py, and the two stylesheets for schemas in readable
  form, /repo/xslt/xsd/generalhumanxsd.xslt and submithumanxsd.xslt.

  lxml's parser and schema validator and the text of Python's tracebacks are parameters (`Lib`).  Not modelled: text encodings (a file is its decoded text),
  an installation without its master file or stylesheets, valades.py (its `main` uses the name `convertutility` without importing it and ends with a NameError
  whatever it is given).
-/
namespace Verif.Master
open Verif Verif.Xml Verif.Spec

/-! ### generalhumanxsd.xslt, submithumanxsd.xslt -/

/-- generalhumanxsd.xslt:112-123 `processUse`: the item is written with minOccurs=0, as it is, with maxOccurs=unbounded or with use=required; other values of
    `@use` write nothing.  submithumanxsd.xslt:114 writes minOccurs=0 only for `optional`, hence nothing for the two excluding values. -/
inductive Use | optional | plain | unbounded | required
  deriving DecidableEq

def humanUse (mode : Mode) (e : Elem) : Option Use :=
  match attr e (c! "use") with
  | none => some .plain
  | some u =>
    if u = c! "optional" ∨ (mode = .general ∧ (u = c! "NoSubmitDistribRequired" ∨ u = c! "NoSubmit")) then some .optional
    else if u = c! "unbounded" then some .unbounded
    else if u = c! "requiredAttribute" then some .required
    else none

mutual
/-- generalhumanxsd.xslt:126-158: a content model item.  When both templates match, the later one (`name`) applies; a missing `type` is written as an
    empty one.  Simplifications: `group` items with a `name` (not allowed by XML Schema at this place) give nothing; use=required on an element (not
    allowed either) is ignored.  The text written is taken as the element it reads as: the names and values contain none of the characters that the
    stylesheet would have to escape. -/
def humanParticles (mode : Mode) : Elem → List Particle
  | .mk tag text attrib kids =>
    let e : Elem := .mk tag text attrib []
    let get := fun k => (attr e k).getD []
    if tag = c! "element" ∧ (attr e (c! "name")).isSome then
      match humanUse mode e with
      | none => []
      | some u => [.elemDecl (get (c! "name")) (get (c! "type")) (u = .optional) (u = .unbounded)]
    else if tag = c! "element" ∧ (attr e (c! "ref")).isSome then
      match humanUse mode e with
      | none => []
      | some u => [.elemRef (get (c! "ref")) (u = .optional) (u = .unbounded)]
    else if tag = c! "group" ∧ (attr e (c! "ref")).isSome then
      match humanUse mode e with
      | none => []
      | some u => [.groupRef (get (c! "ref")) (u = .optional) (u = .unbounded)]
    else if tag = c! "sequence" then [.seq (isMany e) (humanParticlesL mode kids)]
    else if tag = c! "choice" then [.choice (isMany e) (humanParticlesL mode kids)]
    else if tag = c! "all" then [.all (isMany e) (humanParticlesL mode kids)]
    else if tag = c! "any" then [.any]
    else []
def humanParticlesL (mode : Mode) : List Elem → List Particle
  | [] => []
  | e :: es => humanParticles mode e ++ humanParticlesL mode es
end

/-- generalhumanxsd.xslt:39, 46 -/
def humanContent (mode : Mode) (e : Elem) : List Particle :=
  humanParticlesL mode (e.kids.filter fun k => k.tag = c! "all" ∨ k.tag = c! "sequence" ∨ k.tag = c! "choice")

/-- generalhumanxsd.xslt:40, 134-140 (an attribute with minOccurs, not allowed by XML Schema, is taken as one without) -/
def humanAttributes (mode : Mode) (e : Elem) : List Attribute :=
  ((kidsNamed e (c! "attribute")).filter fun a => (attr a (c! "name")).isSome ∧ (humanUse mode a).isSome).map fun a =>
    ⟨(attr a (c! "name")).getD [], (attr a (c! "type")).getD [], humanUse mode a = some .required⟩

/-- generalhumanxsd.xslt:26-66, submithumanxsd.xslt: the schema; the documentation is left out -/
def humanSchema (mode : Mode) (m : Elem) : Schema where
  simple := ((types m).filter fun t => t.tag = c! "simpletype").map fun t => ((attr t (c! "name")).getD [], simpleType mode t)
  complex := ((types m).filter fun t => t.tag = c! "complextype").map fun t => ((attr t (c! "name")).getD [], ⟨humanContent mode t, humanAttributes mode t⟩)
  groups := ((types m).filter fun t => t.tag = c! "grouptype").map fun t => ((attr t (c! "name")).getD [], humanContent mode t)
  elements := ((elementTypes m).filter fun e => (attr e (c! "name")).isSome ∧ (humanUse mode e).isSome).map fun e =>
    ((attr e (c! "name")).getD [], (attr e (c! "type")).getD [])

end Verif.Master

namespace Verif.Validate
open Verif Verif.Xml Verif.Spec Verif.Convert Verif.Master

/-- lxml: the parser, and `assertValid` with the traceback (`none`: valid) -/
structure Lib where
  parse : Str → Py Elem
  judge : Schema → Elem → Option Str

/-- `print(...)` -/
def printText (t : Str) : Convert.IO Unit := modify fun w => { w with stdout := w.stdout ++ t }

/-- writing to a file that is open -/
def appendFile (name text : Str) : Convert.IO Unit :=
  modify fun w => { w with files := fun n => if n = name then some ((w.files n).getD [] ++ text) else w.files n }

/-- a Python value or exception -/
def lift {α : Type} : Py α → Convert.IO α
  | .ok x => return x
  | .error e => throw e

/-- valutility.py:61-66: `re.search(r"^<\?xml.*\?>", s)`, for a text without line breaks -/
def declared (s : Str) : Bool := (c! "<?xml").isPrefixOf s && isSub (c! "?>") (s.drop 5)
where
  /-- `p` occurs in the text -/
  isSub (p : Str) : Str → Bool
    | [] => p.isEmpty
    | c :: s => p.isPrefixOf (c :: s) || isSub p s

/-- valutility.py:58-66: the first line that is not blank decides -/
def firstDeclared : List Str → Bool
  | [] => false
  | l :: ls => if strip l ≠ [] then declared (strip l) else firstDeclared ls

/-- the message of valutility.py:69-70 -/
def noDeclaration (xmlfile : Str) : Str := c! "candidate file " ++ xmlfile ++ c! " has no XML declaration\n"

/-- valutility.py:57-70 `validate_xml_declaration` -/
def validateDeclaration (xmlfile report : Str) : Convert.IO Unit := do
  let t ← readFile xmlfile
  if firstDeclared (Psv.fileLines (Psv.universalNewlines t)) then return
  else do
    printText (noDeclaration xmlfile)
    appendFile report (noDeclaration xmlfile)

/-- valutility.py:16-39 `validate_schema` -/
def validateSchema (lib : Lib) (name : Str) (S : Schema) (candidate : Elem) (report : Str) : Convert.IO Unit :=
  match lib.judge S candidate with
  | some result => do
    printText (name ++ c! " has failed:\n")
    appendFile report (name ++ c! " has failed: \n")
    printText (result ++ ['\n'])
  | none => do
    printText (name ++ c! " is OK\n")
    appendFile report (name ++ c! " is OK\n")

/-- valutility.py:52-56 `validate_xslts` -/
def validateSchemas (lib : Lib) (candidate : Elem) (report : Str) : List (Str × Schema) → Convert.IO Unit
  | [] => return
  | (name, S) :: l => do
    validateSchema lib name S candidate report
    validateSchemas lib candidate report l

/-- valsubmit.py:41-60, valgeneral.py:36-59, valall.py:37-59: the candidate is read, then the report is opened -/
def valReport (lib : Lib) (report : Str) (schemas : List (Str × Schema)) (xmlfile : Option Str) : Convert.IO Unit := do
  let t ← readNamed xmlfile
  let candidate ← lift (lib.parse t)
  writeFile report []
  validateDeclaration (xmlfile.getD []) report
  validateSchemas lib candidate report schemas

/-- valsubmit.py:57-59 -/
def valsubmit (lib : Lib) (m : Elem) : Option Str → Convert.IO Unit := valReport lib (c! "valsubmit.file") [(c! "submit", schema .submit m)]

/-- valgeneral.py:56-58 -/
def valgeneral (lib : Lib) (m : Elem) : Option Str → Convert.IO Unit := valReport lib (c! "valgeneral.file") [(c! "general", schema .general m)]

/-- valall.py:57-59 with adesutility.py:97-100 -/
def valall (lib : Lib) (m : Elem) : Option Str → Convert.IO Unit :=
  valReport lib (c! "valall.file") [(c! "submit", schema .submit m), (c! "submithuman", humanSchema .submit m), (c! "general", schema .general m),
    (c! "generalhuman", humanSchema .general m)]

/-- validate.py:45-60: the schema is read from a file, after the candidate; `schemaOf` stands for lxml's reader of schemas -/
def validate (lib : Lib) (schemaOf : Str → Py Schema) (schemafile : Str) (xmlfile : Option Str) : Convert.IO Unit := do
  let t ← readNamed xmlfile
  let candidate ← lift (lib.parse t)
  let s ← readFile schemafile
  let S ← lift (schemaOf s)
  writeFile (c! "validate.file") []
  validateDeclaration (xmlfile.getD []) (c! "validate.file")
  validateSchemas lib candidate (c! "validate.file") [(schemafile, S)]

/-- valsubmit.py:62-76 and the like: the parser has no output argument -/
def main (tmpI tmpO : Str) (call : Option Str → Convert.IO Unit) (input : Arg) : Convert.IO Unit :=
  callWithFiles tmpI tmpO (fun i _ => call i) input .none

end Verif.Validate
