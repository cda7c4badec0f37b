import Verif.Xml
/-!
  XML Schema, the fragment the ADES schemas use: content models, simple types as
  restrictions and unions, required attributes.  The meaning of the built-in types
  and of the facets (patterns, limits, ...) is left open (`Facets`): what is proved
  holds whatever they mean.
-/
namespace Verif.Spec
open Verif Verif.Xml

/-- a content model particle; `opt`: minOccurs=0, `many`: maxOccurs=unbounded -/
inductive Particle
  | elemRef (ref : Str) (opt many : Bool)
  | elemDecl (name type : Str) (opt many : Bool)
  | groupRef (ref : Str) (opt many : Bool)
  | seq (many : Bool) (kids : List Particle)
  | choice (many : Bool) (kids : List Particle)
  | all (many : Bool) (kids : List Particle)
  | any

def Particle.opt : Particle → Bool
  | .elemRef _ o _ | .elemDecl _ _ o _ | .groupRef _ o _ => o
  | .any => true
  | _ => false

def Particle.many : Particle → Bool
  | .elemRef _ _ m | .elemDecl _ _ _ m | .groupRef _ _ m | .seq m _ | .choice m _ | .all m _ => m
  | .any => true

structure SimpleType where
  union : Option (List Str)
  restriction : Option (Str × List (Str × Str))

structure Attribute where
  name : Str
  type : Str
  required : Bool

structure ComplexType where
  content : List Particle
  attributes : List Attribute

structure Schema where
  simple : List (Str × SimpleType)
  complex : List (Str × ComplexType)
  groups : List (Str × List Particle)
  elements : List (Str × Str)

/-- the entry of a name -/
def lookup {β : Type} (l : List (Str × β)) (k : Str) : Option β := (l.find? fun p => p.1 = k).map (·.2)

/-- one sub-element: its name and type (`none`: any element) -/
abbrev Letter' := Option (Str × Str)

/-- what a particle (once), a particle (with its occurrence bounds), a sequence, a set of particles matches -/
inductive What
  | one (p : Particle)
  | part (p : Particle)
  | seq (ps : List Particle)
  | all (ps : List Particle)

/-- the sequences of sub-elements a content model allows -/
inductive Matches (S : Schema) : What → List Letter' → Prop
  | ref {r : Str} {o m : Bool} {t : Str} : lookup S.elements r = some t → Matches S (.one (.elemRef r o m)) [some (r, t)]
  | decl {n t : Str} {o m : Bool} : Matches S (.one (.elemDecl n t o m)) [some (n, t)]
  | group {r : Str} {o m : Bool} {ps : List Particle} {w : List Letter'} : lookup S.groups r = some ps → Matches S (.seq ps) w → Matches S (.one (.groupRef r o m)) w
  | sequence {m : Bool} {ps : List Particle} {w : List Letter'} : Matches S (.seq ps) w → Matches S (.one (.seq m ps)) w
  | choice {m : Bool} {ps : List Particle} {p : Particle} {w : List Letter'} : p ∈ ps → Matches S (.part p) w → Matches S (.one (.choice m ps)) w
  | unordered {m : Bool} {ps : List Particle} {w : List Letter'} : Matches S (.all ps) w → Matches S (.one (.all m ps)) w
  | any : Matches S (.one .any) [none]
  | skip {p : Particle} : p.opt = true → Matches S (.part p) []
  | once {p : Particle} {w : List Letter'} : Matches S (.one p) w → Matches S (.part p) w
  | more {p : Particle} {w w' : List Letter'} : p.many = true → Matches S (.one p) w → Matches S (.part p) w' → Matches S (.part p) (w ++ w')
  | nil : Matches S (.seq []) []
  | cons {p : Particle} {ps : List Particle} {w w' : List Letter'} : Matches S (.part p) w → Matches S (.seq ps) w' → Matches S (.seq (p :: ps)) (w ++ w')
  | none : Matches S (.all []) []
  | pick {a b : List Particle} {p : Particle} {w w' : List Letter'} : Matches S (.part p) w → Matches S (.all (a ++ b)) w' → Matches S (.all (a ++ p :: b)) (w ++ w')

/-- the meaning of built-in types and of facets -/
structure Facets where
  builtin : Str → Str → Prop
  facet : Str → List (Str × Str) → Str → Prop

/-- a text is of a simple type -/
inductive HasType (F : Facets) (S : Schema) : Str → Str → Prop
  | builtin {t x : Str} : lookup S.simple t = none → F.builtin t x → HasType F S t x
  | union {t x m : Str} {s : SimpleType} {ms : List Str} : lookup S.simple t = some s → s.union = some ms → m ∈ ms → HasType F S m x → HasType F S t x
  | restriction {t x b : Str} {s : SimpleType} {fs : List (Str × Str)} : lookup S.simple t = some s → s.restriction = some (b, fs) → HasType F S b x → F.facet b fs x → HasType F S t x

/-- the attributes of an element are declared, of the right type, and the required ones are there -/
def AttributesOk (F : Facets) (S : Schema) (decl : List Attribute) (attrib : Attrib) : Prop :=
  (∀ a ∈ attrib, ∃ d ∈ decl, d.name = a.1 ∧ HasType F S d.type a.2) ∧ ∀ d ∈ decl, d.required = true → ∃ a ∈ attrib, a.1 = d.name

inductive Check
  | typed (t : Str) (e : Elem)
  | lax (e : Elem)
  | laxAll (es : List Elem)
  | kids (w : List Letter') (es : List Elem)

/-- an element is valid for a type; elements are valid where any element may stand; sub-elements fit a sequence -/
inductive Valid (F : Facets) (S : Schema) : Check → Prop
  | simple {t tag : Str} {text : Option Str} : lookup S.complex t = none → HasType F S t (text.getD []) → Valid F S (.typed t (.mk tag text [] []))
  | complex {t tag : Str} {text : Option Str} {attrib : Attrib} {kids : List Elem} {c : ComplexType} {w : List Letter'} : lookup S.complex t = some c →
      strip (text.getD []) = [] → AttributesOk F S c.attributes attrib → Matches S (.seq c.content) w → Valid F S (.kids w kids) → Valid F S (.typed t (.mk tag text attrib kids))
  | known {e : Elem} {t : Str} : lookup S.elements e.tag = some t → Valid F S (.typed t e) → Valid F S (.lax e)
  | unknown {e : Elem} : lookup S.elements e.tag = none → Valid F S (.laxAll e.kids) → Valid F S (.lax e)
  | laxNil : Valid F S (.laxAll [])
  | laxCons {e : Elem} {es : List Elem} : Valid F S (.lax e) → Valid F S (.laxAll es) → Valid F S (.laxAll (e :: es))
  | nil : Valid F S (.kids [] [])
  | cons {e : Elem} {es : List Elem} {n t : Str} {w : List Letter'} : e.tag = n → Valid F S (.typed t e) → Valid F S (.kids w es) → Valid F S (.kids (some (n, t) :: w) (e :: es))
  | consAny {e : Elem} {es : List Elem} {w : List Letter'} : Valid F S (.lax e) → Valid F S (.kids w es) → Valid F S (.kids (none :: w) (e :: es))

/-- a document is valid: its root is declared and valid -/
def ValidDocument (F : Facets) (S : Schema) (root : Elem) : Prop := ∃ t, lookup S.elements root.tag = some t ∧ Valid F S (.typed t root)

end Verif.Spec
