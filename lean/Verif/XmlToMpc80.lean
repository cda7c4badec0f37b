import Verif.PackUtil
import Verif.Tables
import Verif.Justify
import Verif.SexVals
import Verif.XmlToPsv
/-
  Verif.XmlToMpc80 : /repo/Python/ades/xmltompc80col.py.

  The dict made of an element is the association list of `ToPsv.subDict` (the same code as in xmltopsv.py).
  The output file is the list of its lines; lines printed before an exception stay in it.
  Not modelled: encodings, `main` (the argument parser; its options are the `Opts`), `readXML` (the tree is the input).
-/
namespace Verif.ToMpc80
open Verif Verif.Xml Verif.PackUtil Verif.Master

abbrev Dict := List (Str × Str)

/-- xmltompc80col.py:108-121 `hasKeyOrVal` -/
def hasKeyOrVal (d : Dict) (k v : Str) : Str := (dictGet d k).getD v

/-- the module globals that `main` sets from the command line: xmltompc80col.py:448-452, 466-477 -/
structure Opts where
  noHeader : Bool := false
  precTime : Str := c! "1"
  precRA : Str := c! "0.001"
  precDec : Str := c! "0.01"

/-- `--lowPrec`: xmltompc80col.py:471-477 -/
def Opts.low (o : Opts) : Opts := { o with precTime := c! "10", precRA := c! "0.01", precDec := c! "0.1" }

/-- xmltompc80col.py:130-139 `bandconv` -/
def bandconv : List (Str × Char) :=
  [(c! "Vj", 'V'), (c! "VR", 'V'), (c! "Rc", 'R'), (c! "Ic", 'I'), (c! "Bj", 'B'), (c! "Uj", 'U'), (c! "Gb", 'G'), (c! "Gr", 'G')]

/-- xmltompc80col.py:180-185: the band column -/
def bandColumn (band : Str) : Str :=
  match dictGet bandconv band with
  | some c => [c]
  | none => if band.length > 1 then (band.drop 1).take 1 else band

/-- xmltompc80col.py:190-194: the catalogue column -/
def catColumn (astCat : Str) : Py Char :=
  if (dictGet rCatCodes (strip astCat)).isNone then .ok ' ' else Psv.getItem rCatCodes astCat

/-- xmltompc80col.py:148-155: the packed designation -/
def idColumns (item : Dict) : Py Str :=
  match dictGet item (c! "artSat") with
  | some a => .ok (rjust 12 a)
  | none => packTupleID ⟨dictGet item (c! "permID"), dictGet item (c! "provID"), dictGet item (c! "trkSub")⟩

/-- xmltompc80col.py:163-171: the right ascension and declination columns -/
def angleColumns (item : Dict) (precRa precDec : Sex.Num) : Py (Str × Str) := do
  let stn ← Psv.getItem item (c! "stn")
  if stn = c! "275" then
    let ra ← Sex.decRaToSexRa (← Psv.getItem item (c! "raStar")) precRa
    let dec ← Sex.degDeclToSexDecl (← Psv.getItem item (c! "decStar")) precDec
    return (ra, dec)
  else if stn = c! "244" then
    let ra ← Sex.decRaToSexRa ((← Psv.getItem item (c! "raStar")) ++ (← Psv.getItem item (c! "deltaRA"))) precRa
    let dec ← Sex.degDeclToSexDecl ((← Psv.getItem item (c! "decStar")) ++ (← Psv.getItem item (c! "deltaDec"))) precDec
    return (ra, dec)
  else
    let ra ← Sex.decRaToSexRa (← Psv.getItem item (c! "ra")) precRa
    let dec ← Sex.degDeclToSexDecl (← Psv.getItem item (c! "dec")) precDec
    return (ra, dec)

/-- xmltompc80col.py:198-220: the code column -/
def codeColumn (item : Dict) : Py Str :=
  match dictGet item (c! "deprecated") with
  | some d => if d.isEmpty then positionCode item else .ok d
  | none => positionCode item
where
  positionCode (item : Dict) : Py Str :=
    if (dictGet item (c! "pos1")).isSome then do
      let sys ← Psv.getItem item (c! "sys")
      if sys = c! "WGS84" then return ['V']
      else if sys = c! "ICRF_AU" then return ['S']
      else if sys = c! "ICRF_KM" then return ['S']
      else raiseRT
    else if (dictGet item (c! "subFrm")).isSome then .ok ['A']
    else do
      let mode ← Psv.getItem item (c! "mode")
      return [← Psv.getItem reverseCodeDict mode]

/-- xmltompc80col.py:157-158, 202-204: the note column: the first character of `notes`, or the programme code -/
def notesColumn (item : Dict) (note : Char) : Py Str :=
  match dictGet item (c! "prog") with
  | some p => if p.isEmpty then .ok [note] else do return [← unpackProgID p]
  | none => .ok [note]

/-- what the two lines of an observation have in common -/
structure Shared where
  packedID : Str
  disc : Str
  notes : Str
  sexDate : Str
  astCat : Char
  packedref : Str
  stn : Str

/-- xmltompc80col.py:141-226: the first line of `printOpticalLine` -/
def opticalFirst (o : Opts) (item : Dict) : Py (Shared × Str) := do
  let packedID ← idColumns item
  let disc := hasKeyOrVal item (c! "disc") [' ']
  let note ← charAt (hasKeyOrVal item (c! "notes") [' ']) 0
  let precTime ← Flt.parse (hasKeyOrVal item (c! "precTime") o.precTime)
  let precRa ← Flt.parse (hasKeyOrVal item (c! "precRA") o.precRA)
  let precDec ← Flt.parse (hasKeyOrVal item (c! "precDec") o.precDec)
  let sexDate ← Sex.isoToSexDate (← Psv.getItem item (c! "obsTime")) (.flt precTime)
  let (sexRa, sexDecl) ← angleColumns item (.flt precRa) (.flt precDec)
  let (mag, _, _) ← applyPJ (hasKeyOrVal item (c! "mag") []) 5 .D 3
  let mag := mag.take 5
  let band := bandColumn (hasKeyOrVal item (c! "band") [' '])
  let astCat ← catColumn (← Psv.getItem item (c! "astCat"))
  let packedref ← packRef (hasKeyOrVal item (c! "ref") [' '])
  let notes ← notesColumn item note
  let code ← codeColumn item
  let stn ← Psv.getItem item (c! "stn")
  return (⟨packedID, disc, notes, sexDate, astCat, packedref, stn⟩,
    packedID ++ disc ++ notes ++ code ++ sexDate ++ sexRa ++ sexDecl ++ c! "         " ++ mag ++ band ++ [astCat] ++ packedref ++ stn)

/-- xmltompc80col.py:227-259: the second line of `printOpticalLine`, if there is one.  With `deprecated` and an unknown `sys` the first line is
    printed again; the result is then `some none`. -/
def opticalSecond (item : Dict) (p : Shared) : Py (Option (Option Str)) :=
  match dictGet item (c! "pos1") with
  | none => .ok none
  | some pos1 => do
    let sys ← Psv.getItem item (c! "sys")
    if sys = c! "WGS84" then
      let (x, _, _) ← applyPJ pos1 11 .D 4
      let (y, _, _) ← applyPJ (← Psv.getItem item (c! "pos2")) 11 .D 4
      let z := rjust 5 (← Psv.getItem item (c! "pos3")) ++ [' ']
      return some (some (p.packedID ++ p.disc ++ p.notes ++ ['v'] ++ p.sexDate ++ c! "1 " ++ x.take 11 ++ y.take 11 ++ z ++
        c! "         " ++ [p.astCat] ++ p.packedref ++ p.stn))
    else if sys = c! "ICRF_AU" ∨ sys = c! "ICRF_KM" then
      let nd : Int := if sys = c! "ICRF_AU" then 3 else 7
      let x ← unPackSigned pos1 11 nd
      let y ← unPackSigned (← Psv.getItem item (c! "pos2")) 11 nd
      let z ← unPackSigned (← Psv.getItem item (c! "pos3")) 11 nd
      return some (some (p.packedID ++ p.disc ++ p.notes ++ ['s'] ++ p.sexDate ++ (if sys = c! "ICRF_AU" then c! "2 " else c! "1 ") ++
        x.take 11 ++ [' '] ++ y.take 11 ++ [' '] ++ z.take 11 ++ [' '] ++ c! "  " ++ p.packedref ++ p.stn))
    else return some none

/-- without the character at position `i` (a decimal point) -/
def cutPoint (i : Nat) (s : Str) : Str := s.take i ++ s.drop (i + 1)

/-- xmltompc80col.py:261-334 `printRadarLine`: its two lines (the second is not bound if `com` is neither 0 nor 1).  The reference is written as it stands (`packedref` is computed, which may raise,
    and not used). -/
def radarLines (item : Dict) : Py (Str × Py Str) := do
  let packedID ← packTupleID ⟨dictGet item (c! "permID"), dictGet item (c! "provID"), dictGet item (c! "trkSub")⟩
  let disc := hasKeyOrVal item (c! "disc") [' ']
  let notes := hasKeyOrVal item (c! "notes") [' ']
  let sexDate ← Sex.isoToSexDate (← Psv.getItem item (c! "obsTime")) (.int 1)
  let _ ← packRef (hasKeyOrVal item (c! "ref") [' '])
  let doppler ← unPackSigned (hasKeyOrVal item (c! "doppler") (List.replicate 15 ' ')) 16 12
  let (rmsDoppler, _, _) ← applyPJ (hasKeyOrVal item (c! "rmsDoppler") (List.replicate 15 ' ')) 16 .D 12
  let (delay, _, _) ← applyPJ (hasKeyOrVal item (c! "delay") (List.replicate 15 ' ')) 16 .D 6
  let (rmsDelay, _, _) ← applyPJ (hasKeyOrVal item (c! "rmsDelay") (List.replicate 14 ' ')) 15 .D 11
  let (frq, _, _) ← applyPJ (hasKeyOrVal item (c! "frq") (List.replicate 7 ' ')) 7 .D 6
  let scval := hasKeyOrVal item (c! "com") ['0']
  let sc : Option Char := if scval = ['1'] then some 'C' else if scval = ['0'] then some 'S' else none
  let trx ← Psv.getItem item (c! "trx")
  let ref ← Psv.getItem item (c! "ref")
  let rcv ← Psv.getItem item (c! "rcv")
  let first := packedID ++ disc ++ notes ++ ['R'] ++ sexDate ++ cutPoint 5 delay ++ cutPoint 11 doppler ++ cutPoint 5 frq ++ trx ++ [' '] ++ ref ++ rcv
  let second : Py Str := do
    let sc ← bound sc
    return packedID ++ disc ++ notes ++ ['r'] ++ sexDate ++ [sc] ++ cutPoint 10 rmsDelay ++ cutPoint 11 rmsDoppler ++ c! "      " ++
      trx ++ [' '] ++ ref ++ rcv
  return (first, second)

/-! ### the output file -/

/-- the globals of the module -/
structure Out where
  /-- element names and dicts of the observations not yet printed (or, after printing, the ones printed last) -/
  dataDicts : List (Str × Dict)
  /-- the lines written -/
  out : List Str
  /-- the names of elements that cannot be written (a message on standard output each) -/
  msgs : List Str

abbrev W := EStateM PyErr Out

def lift {α : Type} (x : Py α) : W α := fun s =>
  match x with
  | .ok a => .ok a s
  | .error e => .error e s

/-- `print(l, file=encodedout)` -/
def print (l : Str) : W Unit := modify fun s => { s with out := s.out ++ [l] }

/-- `for x in l: f(x)` -/
def each {α : Type} (f : α → W Unit) : List α → W Unit
  | [] => pure ()
  | x :: l => do
    f x
    each f l

/-- xmltompc80col.py:141-259 `printOpticalLine` -/
def printOpticalLine (o : Opts) (item : Dict) : W Unit := do
  let (p, l) ← lift (opticalFirst o item)
  print l
  let second ← lift (opticalSecond item p)
  match second with
  | none => pure ()
  | some none => print l
  | some (some l2) => print l2

/-- xmltompc80col.py:261-334 `printRadarLine` -/
def printRadarLine (item : Dict) : W Unit := do
  let (l1, second) ← lift (radarLines item)
  print l1
  let l2 ← lift second
  print l2

/-- xmltompc80col.py:344-351 -/
def printData (o : Opts) (x : Str × Dict) : W Unit :=
  if x.1 = c! "optical" ∨ x.1 = c! "occultation" then printOpticalLine o x.2
  else if x.1 = c! "radar" then printRadarLine x.2
  else modify fun s => { s with msgs := s.msgs ++ [x.1] }

/-- xmltompc80col.py:336-351 `printDataDicts`: nothing is removed from `dataDicts` -/
def printDataDicts (o : Opts) : W Unit := do
  let s ← get
  each (printData o) s.dataDicts

/-- xmltompc80col.py:356-415 `processObsContext`: the lines printed for one child -/
def contextItem (i : Elem) : List Str :=
  let texts (name : Str) : List Str := (i.kids.filter fun j => j.tag = name).map fun j => regularizeWhiteSpace j.text
  if i.tag = c! "comment" then (texts (c! "line")).map fun t => c! "COM " ++ t
  else if i.tag = c! "observatory" then (texts (c! "mpcCode")).map fun t => c! "COD " ++ t
  else if i.tag = c! "telescope" then (texts (c! "name")).map fun t => c! "TEL " ++ t
  else if i.tag = c! "submitter" then
    [c! "CON " ++ joinComma ((i.kids.filter fun j => j.tag = c! "name" ∨ j.tag = c! "institution").map fun j => regularizeWhiteSpace j.text)]
  else if i.tag = c! "observers" then [c! "OBS " ++ joinComma (texts (c! "name"))]
  else if i.tag = c! "measurers" then [c! "MEA " ++ joinComma (texts (c! "name"))]
  else []
where
  /-- `', '.join(l)` -/
  joinComma : List Str → Str
    | [] => []
    | [x] => x
    | x :: l => x ++ c! ", " ++ joinComma l

/-- xmltompc80col.py:356-415 `processObsContext` -/
def processObsContext (e : Elem) : W Unit := each print (e.kids.flatMap contextItem)

/-- xmltompc80col.py:21-37 `processDataElement` -/
def processDataElement (first : Bool) (e : Elem) : W Unit :=
  modify fun s => { s with dataDicts := (if first then [] else s.dataDicts) ++ [(e.tag, ToPsv.subDict e)] }

/-- xmltompc80col.py:51-62: the observations in an `obsData`; `type` is `none` while `first` is true -/
def processObsData (tabs : Tables) : Option Str → List Elem → W (Option Str)
  | t, [] => pure t
  | none, x :: xs => do
    let allowed ← lift (Psv.getItem tabs.allowed (c! "obsData"))
    if x.tag ∉ allowed then lift raiseRT
    else do
      processDataElement true x
      processObsData tabs (some x.tag) xs
  | some t, x :: xs =>
    if x.tag ≠ t then lift raiseRT
    else do
      processDataElement false x
      processObsData tabs (some t) xs

/-- xmltompc80col.py:40-62 `processObsBlock` -/
def processObsBlock (o : Opts) (tabs : Tables) : Option Str → List Elem → W Unit
  | _, [] => pure ()
  | t, child :: l => do
    let allowed ← lift (Psv.getItem tabs.allowed (c! "obsBlock"))
    if child.tag ∉ allowed then lift raiseRT
    else if child.tag = c! "obsContext" ∧ o.noHeader = false then do
      processObsContext child
      processObsBlock o tabs t l
    else if child.tag = c! "obsData" then do
      let t ← processObsData tabs t child.kids
      processObsBlock o tabs t l
    else processObsBlock o tabs t l

/-- xmltompc80col.py:87-104: the children of the root; `last` is `lastDataTagType` -/
def processChildren (o : Opts) (tabs : Tables) : Option Str → List Elem → W Unit
  | _, [] => pure ()
  | last, child :: l => do
    let allowed ← lift (Psv.getItem tabs.allowed (c! "ades"))
    if child.tag ∉ allowed then lift raiseRT
    else if child.tag = c! "obsBlock" then do
      printDataDicts o
      processObsBlock o tabs none child.kids
      processChildren o tabs (some (c! "obsBlock")) l
    else if last ≠ some child.tag then do
      printDataDicts o
      processDataElement true child
      processChildren o tabs (some child.tag) l
    else do
      processDataElement false child
      processChildren o tabs (some child.tag) l

/-- xmltompc80col.py:67-106 `processAdesElement` and 431-446 `xmltompc80col` -/
def processAdesElement (o : Opts) (tabs : Tables) (root : Elem) : W Unit := do
  if root.tag ≠ c! "ades" then lift raiseRT
  else do
    modify fun s => { s with dataDicts := [] }
    processChildren o tabs none root.kids
    printDataDicts o

/-- what a run leaves: the lines of the file, the messages, the exception it ends with (if any) -/
structure Outcome where
  lines : List Str
  msgs : List Str
  raised : Option PyErr

/-- xmltompc80col.py:431-446 `xmltompc80col` -/
def xmltompc80col (o : Opts) (tabs : Tables) (root : Elem) : Outcome :=
  match processAdesElement o tabs root ⟨[], [], []⟩ with
  | .ok _ s => ⟨s.out, s.msgs, none⟩
  | .error e s => ⟨s.out, s.msgs, some e⟩

end Verif.ToMpc80
