import Verif.Spec.SimpleTypes
import Verif.Spec.Writable
/-!
  Spec.Submission : what the submission schema leaves open about a document that is to be written as PSV.
-/
namespace Verif.Spec
open Verif Verif.Xml

/-- No attribute is given twice; there is text or there are sub-elements; no text is empty, has white space at its ends or a line break in it. -/
inductive Neat : Elem → Prop
  | mk {tag : Str} {text : Option Str} {attrib : Attrib} {kids : List Elem} : (attrib.map (·.1)).Nodup → (kids ≠ [] → text = none) →
      (∀ v, text = some v → v ≠ [] ∧ strip v = v ∧ '\n' ∉ v ∧ '\r' ∉ v) → (∀ k ∈ kids, Neat k) → Neat (.mk tag text attrib kids)

/-- The two free texts of an observation besides the remarks do not begin like a context line, those that have no column of their own have at most one point, and there is no bar in the time
    (the schema lets anything stand for the point in some leap seconds). -/
def PsvSafe (o : Elem) : Prop :=
  ∀ k ∈ o.kids, ∀ v, k.text = some v →
    (k.tag = c! "artSat" ∨ k.tag = c! "obsSubID" → NoMark v)
    ∧ (k.tag = c! "obsSubID" ∨ k.tag = c! "artSat" ∧ o.tag = c! "radar" → v.count '.' ≤ 1)
    ∧ (k.tag = c! "obsTime" → '|' ∉ v)

end Verif.Spec
