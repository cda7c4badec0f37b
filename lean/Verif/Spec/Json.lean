import Verif.Json
/-!
  Verif.Spec.Json : what the JSON form of a document keeps, for C46.

  The text of an element stands for all its character data, joined.
-/
namespace Verif.Spec
open Verif Verif.Xml Verif.Json

/-- An XML name contains neither of the two characters that mark JSON keys. -/
def XmlName (n : Str) : Prop := '#' ∉ n ∧ '@' ∉ n

/-- What every XML parser guarantees: names, and no attribute twice. -/
inductive WellFormed : Elem → Prop
  | mk {tag : Str} {text : Option Str} {attrib : Attrib} {kids : List Elem} : XmlName tag → (attrib.map Prod.fst).Nodup → (∀ k ∈ kids, WellFormed k) →
      WellFormed (.mk tag text attrib kids)

/-- A text without the white space around it; nothing, if nothing is left. -/
def trimText (text : Option Str) : Option Str :=
  let t := strip (text.getD [])
  if t = [] then none else some t

/-- the names in the order of their first appearance -/
def firstNames : List Str → List Str
  | [] => []
  | n :: ns => n :: (firstNames ns).filter (· ≠ n)

/-- elements of the same name moved together, to where the first of them stands; otherwise in their order -/
def groupByName (es : List Elem) : List Elem := (firstNames (es.map Elem.tag)).flatMap fun n => es.filter fun e => e.tag = n

mutual
/-- The document with its texts trimmed and, at each level, sub-elements of the same name moved together. -/
def tidy : Elem → Elem
  | .mk tag text attrib kids => .mk tag (trimText text) attrib (groupByName (tidyAll kids))
def tidyAll : List Elem → List Elem
  | [] => []
  | e :: es => tidy e :: tidyAll es
end

mutual
/-- The document with its texts trimmed, nothing moved. -/
def trimmed : Elem → Elem
  | .mk tag text attrib kids => .mk tag (trimText text) attrib (trimmedAll kids)
def trimmedAll : List Elem → List Elem
  | [] => []
  | e :: es => trimmed e :: trimmedAll es
end

/-- names that are equal stand next to each other -/
def Together (ns : List Str) : Prop := ∀ (a b c : List Str) (n : Str), ns = a ++ n :: b ++ n :: c → ∀ m ∈ b, m = n

/-- at each level, sub-elements of the same name stand next to each other -/
inductive TogetherAll : Elem → Prop
  | mk {tag : Str} {text : Option Str} {attrib : Attrib} {kids : List Elem} : Together (kids.map Elem.tag) → (∀ k ∈ kids, TogetherAll k) →
      TogetherAll (.mk tag text attrib kids)

/-- no element inside has this name -/
inductive Without (n : Str) : Elem → Prop
  | mk {tag : Str} {text : Option Str} {attrib : Attrib} {kids : List Elem} : (∀ k ∈ kids, k.tag ≠ n) → (∀ k ∈ kids, Without n k) → Without n (.mk tag text attrib kids)

/-- a text that is not empty and has no white space around it -/
def Bare (t : Str) : Prop := t ≠ [] ∧ strip t = t

/-- one value stands for itself, several make a list -/
def several : List Val → Val
  | [v] => v
  | l => .list l

/-- the entry for the text of an element that has something else -/
def textEntry : Option Str → Dict
  | none => []
  | some t => [(c! "#text", .text t)]

/-- The JSON values that come from elements: null, a bare text, or an object with the attributes (texts) first, then the sub-elements, a list where
    there are several of a name, then the text. -/
inductive Canonical : Val → Prop
  | null : Canonical .null
  | text {t : Str} : Bare t → Canonical (.text t)
  | dict {attrs : Attrib} {subs : List (Str × List Val)} {text : Option Str} : (attrs ≠ [] ∨ subs ≠ []) → (attrs.map Prod.fst).Nodup → (subs.map Prod.fst).Nodup →
      (∀ s ∈ subs, XmlName s.1 ∧ s.2 ≠ []) → (∀ s ∈ subs, ∀ v ∈ s.2, Canonical v) → (∀ t, text = some t → Bare t) →
      Canonical (.dict (attrs.map (fun a => ('@' :: a.1, .text a.2)) ++ subs.map (fun s => (s.1, several s.2)) ++ textEntry text))

end Verif.Spec
