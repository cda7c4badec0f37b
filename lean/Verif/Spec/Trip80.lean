import Verif.Spec.Sent
import Verif.Spec.Written80
import Verif.Spec.Psv
import Verif.Spec.Submit80
/-!
  Spec.Trip80 : what is left of an ADES document after conversion to 80 columns and back (`Sent.Back` says it for the observations).
-/
namespace Verif.Spec.Mpc80
open Verif Verif.Xml Verif.Spec

/-- no control characters, in particular no line breaks; nothing from the surrogates on -/
def Printable (t : List Char) : Prop := ∀ c ∈ t, 32 ≤ c.toNat ∧ c.toNat < 0xD800

/-- lxml as it is: it accepts names of letters and digits that start with a letter, and printable texts -/
structure Usual (lx : Lxml) : Prop where
  names : ∀ c t, c.isAlpha = true → (∀ x ∈ t, x.isAlphanum = true) → lx.tagOk (c :: t) = true
  texts : ∀ t, Printable t → lx.textOk t = true

/-- the texts in a certain place in a context: those of the children `child` of the parts `part`, without white space around them -/
def textsAt (ctx : Elem) (part child : List Char) : List (List Char) := (ctx.kids.filter fun i => i.tag = part).flatMap fun i => texts i [child]

/-- the places in a context that header lines have room for -/
def sharedPlaces : List (List Char × List Char) :=
  [(c! "observatory", c! "mpcCode"), (c! "submitter", c! "name"), (c! "submitter", c! "institution"), (c! "observers", c! "name"), (c! "measurers", c! "name"),
   (c! "telescope", c! "name"), (c! "comment", c! "line")]

/-- What a context must satisfy, beyond validity, to be sent in header lines: they are printable and have no more than 80 columns; no names have commas in them; the submitter's name comes first (the schema leaves it open whether the name or the institution does). -/
structure Sendable (ctx : Elem) : Prop where
  lines : ∀ l ∈ headerLines ctx, l.length ≤ 80 ∧ Printable l
  commas : ∀ p ∈ [c! "submitter", c! "observers", c! "measurers"], ∀ t ∈ textsAt ctx p (c! "name"), ',' ∉ t
  order : ∀ i ∈ ctx.kids, i.tag = c! "submitter" → ∀ k ∈ i.kids.head?, k.tag = c! "name"

/-- What is left of a context: the texts in the places above (with nothing else in those parts, except for a telescope's design, aperture and detector, which are now unknown). -/
structure ContextBack (ctx ctx' : Elem) : Prop where
  tag : ctx'.tag = c! "obsContext"
  texts : ∀ p ∈ sharedPlaces, textsAt ctx' p.1 p.2 = textsAt ctx p.1 p.2
  places : ∀ i ∈ ctx'.kids, ∀ k ∈ i.kids, (i.tag, k.tag) ∈ sharedPlaces ∨
    i.tag = c! "telescope" ∧ (k.tag, k.text) ∈ [(c! "design", some (c! "Unknown")), (c! "aperture", some (c! "9999")), (c! "detector", some (c! "Unknown"))]

/-- seconds since midnight, from the text of a time (hours in columns 12 and 13, and so on) -/
def daySeconds (t : List Char) : Rat :=
  let ds := (t.drop 20).takeWhile (· ≠ 'Z')
  (3600 * digitsNat ((t.drop 11).take 2) + 60 * digitsNat ((t.drop 14).take 2) + digitsNat ((t.drop 17).take 2) : Nat) + (digitsNat ds : Rat) / ((10 ^ ds.length : Nat) : Rat)

/-- the units the program uses: of time (a power of ten of a day), of right ascension (seconds), of declination -/
def dayDigits (lowPrec : Bool) : Nat := if lowPrec then 5 else 6
def raStep (lowPrec : Bool) : Rat := if lowPrec then 1 / 100 else 1 / 1000
def decStep (lowPrec : Bool) : Rat := if lowPrec then 1 / 10 else 1 / 100
/-- half a unit, and a bit for the arithmetic of the computer -/
def half (unit : Rat) : Rat := unit / 2 + 1 / ((10 ^ 9 : Nat) : Rat)

/-- What an optical observation of a submission must satisfy, beyond validity and `Convertible`, to be read again from the 80 columns: the designation has no underscore or hyphen in its columns; the station
    has three characters; a note begins with a letter known to the program, and the station is not one of those with programme codes; a roving observer has station code 247 and an altitude of at most five characters; the time rounds neither to the end of the day nor to one of
    the 100 fractions of C32; the angles do not round to a full minute. -/
structure Returnable (lowPrec : Bool) (e : Elem) : Prop where
  desig : ∀ d : Designation, d.Valid → fieldOf e (c! "permID") = d.permText → fieldOf e (c! "provID") = d.provText → (∀ t, d.trkText = some t → fieldOf e (c! "trkSub") = some t) → '_' ∉ d.columns ∧ '-' ∉ d.columns
  stn : ∀ v, fieldOf e (c! "stn") = some v → v.length = 3
  notes : ∀ t, fieldOf e (c! "notes") = some t → (∀ v, fieldOf e (c! "stn") = some v → v ∉ PackUtil.programCodeSites) ∧ ∀ c ∈ t.head?, c ∈ noteLetters
  rover : fieldOf e (c! "sys") = some (c! "WGS84") → fieldOf e (c! "stn") = some (c! "247") ∧ ∀ v, fieldOf e (c! "pos3") = some v → v.length ≤ 5
  time : ∀ t, fieldOf e (c! "obsTime") = some t →
    let h : Rat := 86400 / ((10 ^ dayDigits lowPrec : Nat) : Rat) * half 1
    daySeconds t < 86400 - h ∧ ∀ j ∈ unlucky, h < daySeconds t - 54 * (j : Rat) ∨ h < 54 * (j : Rat) - daySeconds t
  ra : ∀ n : Numeral, n.Valid → fieldOf e (c! "ra") = some n.text → FarFrom 60 (240 * n.value) (half (raStep lowPrec))
  dec : ∀ n : Numeral, n.Valid → fieldOf e (c! "dec") = some n.text → FarFrom 60 (3600 * n.size) (half (decStep lowPrec))

/-- What is left of a block: the context and the observations, in order. -/
structure BlockBack (pt pr pd : List Char) (b b' : Elem) : Prop where
  tag : b'.tag = c! "obsBlock"
  context : Spec.Each ContextBack (contextsOf b) (contextsOf b')
  data : Spec.Each (fun e e' => ∃ a : Sent, a.In pt pr pd e ∧ a.Back e') (observationsOf b) (observationsOf b')

end Verif.Spec.Mpc80
