import Verif.Spec.Widths
import Verif.XmlToMpc80
/-
  Spec.Written80 : what a document written in 80 columns consists of, in terms of the outcomes of smaller conversions.  Of the program only the type of
  outcomes (lines written, messages, exception) is used here.
-/
namespace Verif.Spec
open Verif.Xml Verif.ToMpc80

/-- the outcome of doing several things one after the other: the first exception ends it -/
def joined : List Outcome → Outcome
  | [] => ⟨[], [], none⟩
  | r :: rs => if r.raised = none then ⟨r.lines ++ (joined rs).lines, r.msgs ++ (joined rs).msgs, (joined rs).raised⟩ else r

/-- the kinds of observations in blocks, and the further kinds that may stand directly under the root -/
def blockKinds : List (List Char) := ["optical".toList, "offset".toList, "occultation".toList, "radar".toList]
def rootKinds : List (List Char) := blockKinds ++ ["opticalResidual".toList, "radarResidual".toList]

def contextsOf (b : Elem) : List Elem := b.kids.filter fun d => d.tag = "obsContext".toList
def observationsOf (b : Elem) : List Elem := (b.kids.filter fun d => d.tag = "obsData".toList).flatMap Elem.kids

/-- a block with observations, all of one kind -/
structure WellBlock (b : Elem) : Prop where
  tag : b.tag = "obsBlock".toList
  kids : ∀ d ∈ b.kids, d.tag = "obsContext".toList ∨ d.tag = "obsData".toList
  seen : observationsOf b ≠ []
  kind : ∃ t ∈ blockKinds, ∀ e ∈ observationsOf b, e.tag = t

/-- the texts of the children of the given names -/
def texts (e : Elem) (names : List (List Char)) : List (List Char) :=
  (e.kids.filter fun j => j.tag ∈ names).map fun j => strip (j.text.getD [])

/-- the parts of a context that give one header line for each child of a certain name -/
def headerEach : List (List Char × List Char × List Char) :=
  [("comment".toList, "line".toList, "COM ".toList), ("observatory".toList, "mpcCode".toList, "COD ".toList), ("telescope".toList, "name".toList, "TEL ".toList)]

/-- the parts of a context that give one header line, with the texts of certain children -/
def headerAll : List (List Char × List (List Char) × List Char) :=
  [("submitter".toList, ["name".toList, "institution".toList], "CON ".toList), ("observers".toList, ["name".toList], "OBS ".toList),
   ("measurers".toList, ["name".toList], "MEA ".toList)]

/-- the header lines of a context -/
def headerLines (ctx : Elem) : List (List Char) := ctx.kids.flatMap fun i =>
  ((headerEach.filter fun h => h.1 = i.tag).flatMap fun h => (texts i [h.2.1]).map fun t => h.2.2 ++ t) ++
  (headerAll.filter fun h => h.1 = i.tag).map fun h => h.2.2 ++ List.intercalate ", ".toList (texts i h.2.1)

/-- a document under `ades` -/
def adesOf (kids : List Elem) : Elem := .mk "ades".toList none [] kids

end Verif.Spec
