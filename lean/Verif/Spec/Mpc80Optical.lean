import Verif.Spec.Designation
import Verif.Spec.Sexagesimal
import Verif.Spec.ObsDate
import Verif.Spec.Reference
import Verif.Spec.Mpc80Doc
import Verif.Tables
/-
  Verif.Spec.Mpc80Optical : what an optical line of the 80-column format says, and the `optical` element that says the same.
  The tables of catalogues and of observatories with programme codes are data (Verif.Tables); everything else is written out here.
-/
namespace Verif.Spec.Mpc80
open Verif Verif.Xml

/-- columns 73-77: a page, or some other text -/
inductive RefCols
  | page (r : Ref)
  | other (t : List Char)

def RefCols.columns : RefCols → List Char
  | .page r => r.columns
  | .other t => t

/-- the characters a text that is no page cannot start with -/
def pageStarts : List Char := c! "0123456789@#~abcdefghijklmnopqrstuvwxyz"

/-- white space other than the blank does not occur -/
def Plain (t : List Char) : Prop := ∀ c ∈ t, isSpace c = true → c = ' '

def RefCols.Valid : RefCols → Prop
  | .page r => r.Valid
  | .other t => t.length = 5 ∧ (∀ c ∈ t.head?, c ∉ pageStarts) ∧ Plain t

/-- what an optical line says, column by column -/
structure Optical where
  /-- 1-12 -/
  desig : Designation
  /-- 13: discovery asterisk -/
  disc : Char
  /-- 14: note or programme code -/
  note : Char
  /-- 15: how the observation was made -/
  code : Char
  /-- 16-32 -/
  date : ObsDate
  /-- 33-44 -/
  ra : Sexagesimal
  /-- 45: the sign -/
  south : Bool
  /-- 46-56 -/
  dec : Sexagesimal
  /-- 57-65 -/
  spare : List Char
  /-- 66-70 -/
  mag : List Char
  /-- 71 -/
  band : Char
  /-- 72: star catalogue -/
  cat : Char
  /-- 73-77 -/
  ref : RefCols
  /-- 78-80 -/
  stn : List Char

/-- the line -/
def Optical.line (o : Optical) : List Char :=
  o.desig.columns ++ [o.disc, o.note, o.code] ++ o.date.column ++ column 12 o.ra.text ++ column 12 ((if o.south then '-' else '+') :: o.dec.text) ++
    o.spare ++ o.mag ++ [o.band, o.cat] ++ o.ref.columns ++ o.stn

/-- the notes in use at observatories without programme codes -/
def noteLetters : List Char := c! " AaBbcDdEFfGgHhIiJKkMmNOoPpRrSsTtUuVWwYyCQXZ2345vzjeL16789"
/-- the programme codes, in order -/
def programLetters : List Char :=
  c! "0123456789!\"#$%&'()*+,-./[\\]^_`{|}~:;<=>?@ABCDEFGHIJKLMNOPQRSTUVWXYZabcdefghijklmnopqrstuvwxyz"

/-- the observatory uses programme codes -/
def Optical.usesPrograms (o : Optical) : Prop := o.stn ∈ PackUtil.programCodeSites
instance (o : Optical) : Decidable o.usesPrograms := by unfold Optical.usesPrograms; infer_instance

/-- lines the format allows, with a date whose conversion is exact (see `ObsDate.late`).  Designations with an underscore (extended provisional ones)
    or a hyphen (in tracklet names) are left out: the converter refuses them. -/
structure Optical.Valid (o : Optical) : Prop where
  desig : o.desig.Valid
  noExt : '_' ∉ o.desig.columns ∧ '-' ∉ o.desig.columns
  disc : o.disc ∈ [' ', '*', '+']
  note : if o.usesPrograms then o.note = ' ' ∨ o.note ∈ programLetters else o.note ∈ noteLetters
  code : o.code ∈ c! "A PeCBTMcEOHNnXSV"
  date : o.date.Valid
  notLate : ¬ o.date.late
  ra : o.ra.Valid 3
  dec : o.dec.Valid 2
  spare : o.spare.length = 9 ∧ '\n' ∉ o.spare ∧ '\r' ∉ o.spare
  mag : o.mag.length = 5 ∧ Plain o.mag
  band : o.band = ' ' ∨ isSpace o.band = false
  cat : o.cat = ' ' ∨ isSpace o.cat = false
  ref : o.ref.Valid
  stn : o.stn.length = 3 ∧ ∀ c ∈ o.stn, isSpace c = false

/-- without the blanks around it -/
def trim (t : List Char) : List Char := ((t.dropWhile (· = ' ')).reverse.dropWhile (· = ' ')).reverse

/-- the mode that a code stands for -/
def modeOf (c : Char) : List Char :=
  if c = ' ' then c! "PHO" else if c = 'P' ∨ c = 'A' then c! "PHo" else if c = 'e' then c! "ENC" else if c = 'B' then c! "CMO" else if c = 'T' then c! "MER"
  else if c = 'M' then c! "MIC" else if c = 'c' then c! "ccd" else if c = 'E' then c! "OCC" else if c = 'O' then c! "OFF" else if c = 'H' then c! "PMT"
  else if c = 'N' then c! "NOR" else if c = 'n' then c! "VID" else c! "CCD"

/-- the catalogue's name; UNK if the letter stands for none -/
def catName (c : Char) : List Char := (PackUtil.dictGet PackUtil.catCodes c).getD (c! "UNK")

/-- the band: none without a magnitude, UNK if it is not given -/
def bandText (mag : List Char) (band : Char) : List Char :=
  if trim mag = [] then [] else if band = ' ' then c! "UNK" else [band]

/-- the precision of a sexagesimal reading as a number of seconds -/
def precText : Sexagesimal → List Char
  | .seconds _ _ _ d _ => if d = 1 then c! "0.1" else if d = 2 then c! "0.01" else c! "0.001"
  | .wholeSeconds _ _ _ => c! "1"
  | .minutes _ _ d _ => if d = 1 then c! "6" else c! "0.6"
  | .wholeMinutes _ _ => c! "60"

/-- the two base-62 digits of a programme code -/
def progText (c : Char) : List Char := [b62 (programLetters.idxOf c / 62), b62 (programLetters.idxOf c % 62)]

def RefCols.text : RefCols → List Char
  | .page r => r.text
  | .other t => trim t

/-- a value, if there is one -/
def val (name text : List Char) : List (List Char × List Char) := if text = [] then [] else [(name, text)]

/-- the values of the element, given the observatory's position (if there is one) and the time and angles in ADES form -/
def Optical.values (o : Optical) (place : List (List Char × List Char)) (time ra dec : List Char) : List (List Char × List Char) :=
  val (c! "permID") (o.desig.permText.getD []) ++ val (c! "provID") (o.desig.provText.getD []) ++ val (c! "trkSub") (o.desig.trkText.getD []) ++
  [(c! "mode", modeOf o.code), (c! "stn", o.stn)] ++ place ++
  val (c! "prog") (if o.usesPrograms ∧ o.note ≠ ' ' then progText o.note else []) ++
  [(c! "obsTime", time), (c! "ra", ra), (c! "dec", dec), (c! "astCat", catName o.cat)] ++
  val (c! "mag") (trim o.mag) ++ val (c! "band") (bandText o.mag o.band) ++ val (c! "ref") o.ref.text ++ val (c! "disc") (trim [o.disc]) ++
  val (c! "subFrm") (if o.code = 'A' then c! "B1950.0" else []) ++
  [(c! "subFmt", c! "M92"), (c! "precTime", Spec.dec (10 ^ (6 - o.date.digits))), (c! "precRA", precText o.ra), (c! "precDec", precText o.dec)] ++
  val (c! "notes") (if o.usesPrograms then [] else trim [o.note]) ++ val (c! "deprecated") (if o.code = 'X' then c! "X" else [])

/-- the element -/
def Optical.elem (o : Optical) (place : List (List Char × List Char)) (time ra dec : List Char) : Elem :=
  nodeOf (c! "optical") ((o.values place time ra dec).map fun x => leafOf x.1 x.2)

/-- the ADES form of the time and the angles: right up to the roundings stated -/
structure Optical.Reading (o : Optical) (time ra dec : List Char) : Prop where
  time : ∃ w ms : Nat, w < 86400 ∧ ms < 1000 ∧ ((w : Rat) + (ms : Rat) / 1000 - o.date.seconds ≤ 1 / 2000 ∧ o.date.seconds - ((w : Rat) + (ms : Rat) / 1000) ≤ 1 / 2000) ∧
    time = isoTime o.date.year o.date.month o.date.day w ('.' :: fixed 3 ms ++ ['Z'])
  ra : ∃ k : Nat, ra = decimal o.ra.raDecimals k ∧
    let err : Rat := (k : Rat) / ((10 ^ o.ra.raDecimals : Nat) : Rat) - o.ra.amount * 15 / 3600
    let tol : Rat := (1 : Rat) / 2 / ((10 ^ o.ra.raDecimals : Nat) : Rat) + (1 : Rat) / ((10 ^ 11 : Nat) : Rat)
    err ≤ tol ∧ -err ≤ tol
  dec : ∃ k : Nat, dec = (if o.south then ['-'] else []) ++ decimal o.dec.decDecimals k ∧
    let err : Rat := (k : Rat) / ((10 ^ o.dec.decDecimals : Nat) : Rat) - o.dec.amount / 3600
    let tol : Rat := (1 : Rat) / 2 / ((10 ^ o.dec.decDecimals : Nat) : Rat) + (1 : Rat) / ((10 ^ 11 : Nat) : Rat)
    err ≤ tol ∧ -err ≤ tol

/-! ### second lines: where the observer was -/

/-- a coordinate -/
structure Coord where
  neg : Bool
  whole : Nat
  digits : Nat
  frac : Nat

def Coord.sign (c : Coord) : Char := if c.neg then '-' else '+'
/-- as ADES writes it -/
def Coord.text (c : Coord) : List Char := c.sign :: (dec c.whole ++ ['.'] ++ fixed c.digits c.frac)
/-- it fits into a column with `w` places before the point -/
def Coord.Valid (c : Coord) (w : Nat) : Prop := c.whole < 10 ^ w ∧ 1 ≤ c.digits ∧ c.digits ≤ 9 - w ∧ c.frac < 10 ^ c.digits
/-- the eleven columns, with `w` places before the point -/
def Coord.column (c : Coord) (w : Nat) : List Char := c.sign :: (List.leftpad w ' ' (dec c.whole) ++ ['.'] ++ List.rightpad (9 - w) ' ' (fixed c.digits c.frac))

/-- the second line of an observation from a spacecraft; designation, date and observatory are those of the first line -/
structure Spacecraft where
  disc : Char
  note : Char
  /-- column 33: kilometres or astronomical units -/
  au : Bool
  x : Coord
  y : Coord
  z : Coord
  /-- columns 73-77 -/
  ref : List Char

def Spacecraft.places (s : Spacecraft) : Nat := if s.au then 1 else 5

/-- the second line of an observation by a roving observer -/
structure Rover where
  disc : Char
  note : Char
  /-- columns 35-44, 46-55, 57-61: longitude, latitude, altitude -/
  lon : List Char
  lat : List Char
  alt : List Char
  /-- columns 72-77 -/
  ref : List Char

def noteFor (o : Optical) (c : Char) : Prop := if o.usesPrograms then c = ' ' ∨ c ∈ programLetters else c ∈ noteLetters
def noBreak (t : List Char) : Prop := '\n' ∉ t ∧ '\r' ∉ t

structure Spacecraft.Valid (o : Optical) (s : Spacecraft) : Prop where
  disc : s.disc ∈ [' ', '*', '+']
  note : noteFor o s.note
  x : s.x.Valid s.places
  y : s.y.Valid s.places
  z : s.z.Valid s.places
  ref : s.ref.length = 5 ∧ noBreak s.ref

/-- characters of numbers -/
def numberChars : List Char := c! "-+0123456789 ."

structure Rover.Valid (o : Optical) (r : Rover) : Prop where
  disc : r.disc ∈ [' ', '*', '+']
  note : noteFor o r.note
  lon : r.lon.length = 10 ∧ ∀ c ∈ r.lon, c ∈ numberChars
  lat : r.lat.length = 10 ∧ ∀ c ∈ r.lat, c ∈ numberChars
  alt : r.alt.length = 5 ∧ (∀ c ∈ r.alt, c ∈ numberChars) ∧ trim r.alt ≠ []
  ref : r.ref.length = 6 ∧ noBreak r.ref

def Spacecraft.line (o : Optical) (s : Spacecraft) : List Char :=
  o.desig.columns ++ [s.disc, s.note, 's'] ++ o.date.column ++ ([if s.au then '2' else '1', ' '] ++ s.x.column s.places ++ [' '] ++ s.y.column s.places ++ [' '] ++
    s.z.column s.places ++ c! "   " ++ s.ref ++ o.stn)

def Rover.line (o : Optical) (r : Rover) : List Char :=
  o.desig.columns ++ [r.disc, r.note, 'v'] ++ o.date.column ++ (c! "1 " ++ r.lon ++ [' '] ++ r.lat ++ [' '] ++ r.alt ++ List.replicate 10 ' ' ++ r.ref ++ o.stn)

def Spacecraft.values (s : Spacecraft) : List (List Char × List Char) :=
  [(c! "sys", if s.au then c! "ICRF_AU" else c! "ICRF_KM"), (c! "ctr", c! "399"), (c! "pos1", s.x.text), (c! "pos2", s.y.text), (c! "pos3", s.z.text)]

def Rover.values (r : Rover) : List (List Char × List Char) :=
  [(c! "sys", c! "WGS84"), (c! "ctr", c! "399")] ++ val (c! "pos1") (trim r.lon) ++ val (c! "pos2") (trim r.lat) ++ val (c! "pos3") (trim r.alt)

/-! ### observations and files -/

/-- an observation: one line, or two -/
inductive Obs
  | ground (o : Optical)
  | spacecraft (o : Optical) (s : Spacecraft)
  | rover (o : Optical) (r : Rover)

def Obs.first : Obs → Optical
  | .ground o => o
  | .spacecraft o _ => o
  | .rover o _ => o

/-- the second line is there if the code says so, and only then -/
def Obs.Valid : Obs → Prop
  | .ground o => o.Valid ∧ o.code ≠ 'S' ∧ o.code ≠ 'V'
  | .spacecraft o s => o.Valid ∧ o.code = 'S' ∧ s.Valid o
  | .rover o r => o.Valid ∧ o.code = 'V' ∧ o.stn = c! "247" ∧ r.Valid o

def Obs.lines : Obs → List (List Char)
  | .ground o => [o.line]
  | .spacecraft o s => [o.line, s.line o]
  | .rover o r => [o.line, r.line o]

def Obs.place : Obs → List (List Char × List Char)
  | .ground _ => []
  | .spacecraft _ s => s.values
  | .rover _ r => r.values

/-- `e` is an element for the observation: its time and angles are right up to the roundings stated -/
def Obs.Element (b : Obs) (e : Elem) : Prop := ∃ time ra dec, b.first.Reading time ra dec ∧ e = b.first.elem b.place time ra dec

/-- header lines and the observations they belong to -/
structure Group where
  headers : List (List Char × List Char)
  obs : List Obs

/-- header keywords -/
def headerWords : List (List Char) := [c! "ACK", c! "COD", c! "CON", c! "OBS", c! "MEA", c! "TEL", c! "NET", c! "BND", c! "COM", c! "NUM", c! "AC2"]

structure Group.Valid (g : Group) : Prop where
  headed : g.headers ≠ []
  headers : ∀ h ∈ g.headers, h.1 ∈ headerWords ∧ h.2.length ≤ 76 ∧ noBreak h.2
  seen : g.obs ≠ []
  obs : ∀ b ∈ g.obs, b.Valid

def Group.lines (g : Group) : List (List Char) := g.headers.map (fun h => h.1 ++ [' '] ++ h.2) ++ g.obs.flatMap Obs.lines

/-- the text of a file -/
def fileText (lines : List (List Char)) : List Char := lines.flatMap fun l => l ++ ['\n']

end Verif.Spec.Mpc80
