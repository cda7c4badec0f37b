import Verif.Spec.Mpc80Back
import Verif.Spec.Angles
/-
  Spec.Sent : optical observations in ADES and the lines of the 80-column format that say the same, written without reference to the program.
  The table of catalogues is data (Verif.Tables).
-/
namespace Verif.Spec.Mpc80
open Verif Verif.Xml

/-- the value of a field of an element: the text, without white space at its ends, of the last child of that name that has such a text -/
def fieldOf (e : Elem) (name : List Char) : Option (List Char) :=
  ((e.kids.filter fun k => k.tag = name ∧ strip (k.text.getD []) ≠ []).map fun k => strip (k.text.getD [])).getLast?

/-- a reference: a page, or some other text -/
inductive RefText
  | page (r : Ref)
  | other (t : List Char)

def RefText.text : RefText → List Char
  | .page r => r.text
  | .other t => t

/-- where the observer was, unless at an observatory -/
inductive Place
  | ground
  /-- in kilometres or astronomical units -/
  | spacecraft (au : Bool) (x y z : Coord)
  /-- longitude, latitude, altitude -/
  | rover (lon lat alt : List Char)

/-- an optical observation in ADES, with the fields that the 80-column format has a place for -/
structure Sent where
  desig : Designation
  disc : Option Char
  notes : Option (List Char)
  /-- the number of the programme -/
  prog : Option Nat
  deprecated : Bool
  subFrm : Option (List Char)
  mode : List Char
  stn : List Char
  year : Nat
  month : Nat
  day : Nat
  /-- whole seconds since midnight -/
  second : Nat
  /-- the digits after the point, if there is one -/
  decimals : Option (List Char)
  ra : Numeral
  dec : Numeral
  precTime : Numeral
  precRA : Numeral
  precDec : Numeral
  mag : Option Numeral
  band : Option (List Char)
  cat : List Char
  ref : Option RefText
  place : Place

/-- the text of the time -/
def Sent.timeText (a : Sent) : List Char :=
  isoTime a.year a.month a.day a.second ((match a.decimals with | some ds => '.' :: ds | none => []) ++ ['Z'])

/-- seconds since midnight, exactly -/
def Sent.seconds (a : Sent) : Rat := (a.second : Rat) + (digitsNat (a.decimals.getD []) : Rat) / ((10 ^ (a.decimals.getD []).length : Nat) : Rat)

/-- a coordinate, with or without the sign `+` -/
def CoordText (c : Coord) (t : List Char) : Prop := t = c.text ∨ (c.neg = false ∧ '+' :: t = c.text)

/-- the fields of a place -/
def PlaceFields (e : Elem) : Place → Prop
  | .ground => fieldOf e (c! "pos1") = none
  | .spacecraft au x y z => fieldOf e (c! "sys") = some (if au then c! "ICRF_AU" else c! "ICRF_KM") ∧
      (∃ t, CoordText x t ∧ fieldOf e (c! "pos1") = some t) ∧ (∃ t, CoordText y t ∧ fieldOf e (c! "pos2") = some t) ∧ (∃ t, CoordText z t ∧ fieldOf e (c! "pos3") = some t)
  | .rover lon lat alt => fieldOf e (c! "sys") = some (c! "WGS84") ∧ fieldOf e (c! "pos1") = some lon ∧ fieldOf e (c! "pos2") = some lat ∧ fieldOf e (c! "pos3") = some alt

/-- `e` is an element for the observation `a`: it has these fields (and perhaps others), in any order.  `pt`, `pr`, `pd` are the precisions to be used if `e` says nothing about them. -/
structure Sent.In (a : Sent) (pt pr pd : List Char) (e : Elem) : Prop where
  tag : e.tag = c! "optical"
  permID : fieldOf e (c! "permID") = a.desig.permText
  provID : fieldOf e (c! "provID") = a.desig.provText
  /-- a name of the observer's own may accompany a designation (and is not written) -/
  trkSub : ∀ t, a.desig.trkText = some t → fieldOf e (c! "trkSub") = some t
  artSat : fieldOf e (c! "artSat") = none
  disc : fieldOf e (c! "disc") = a.disc.map fun c => [c]
  notes : fieldOf e (c! "notes") = a.notes
  prog : fieldOf e (c! "prog") = a.prog.map fun i => [b62 (i / 62), b62 (i % 62)]
  deprecated : fieldOf e (c! "deprecated") = if a.deprecated then some (c! "X") else none
  subFrm : fieldOf e (c! "subFrm") = a.subFrm
  mode : fieldOf e (c! "mode") = some a.mode
  stn : fieldOf e (c! "stn") = some a.stn
  obsTime : fieldOf e (c! "obsTime") = some a.timeText
  ra : fieldOf e (c! "ra") = some a.ra.text
  dec : fieldOf e (c! "dec") = some a.dec.text
  precTime : (fieldOf e (c! "precTime")).getD pt = a.precTime.text
  precRA : (fieldOf e (c! "precRA")).getD pr = a.precRA.text
  precDec : (fieldOf e (c! "precDec")).getD pd = a.precDec.text
  mag : fieldOf e (c! "mag") = a.mag.map Numeral.text
  band : fieldOf e (c! "band") = a.band
  cat : fieldOf e (c! "astCat") = some a.cat
  ref : fieldOf e (c! "ref") = a.ref.map RefText.text
  place : PlaceFields e a.place

/-! ### the columns -/

/-- the letters for the ways of observing -/
def modeLetters : List (List Char × Char) :=
  [(c! "PHO", ' '), (c! "PHo", 'P'), (c! "ENC", 'e'), (c! "CCD", 'C'), (c! "CMO", 'B'), (c! "MER", 'T'), (c! "MIC", 'M'), (c! "ccd", 'c'), (c! "OCC", 'E'),
   (c! "OFF", 'O'), (c! "PMT", 'H'), (c! "NOR", 'N'), (c! "VID", 'n')]

/-- column 14: the programme's letter, or the first note -/
def Sent.noteLetter (a : Sent) : Char :=
  match a.prog with
  | some i => programLetters.getD i ' '
  | none => ((a.notes.getD []).head?).getD ' '

/-- column 15 -/
def Sent.codeLetter (a : Sent) : Char :=
  if a.deprecated then 'X'
  else match a.place with
    | .rover _ _ _ => 'V'
    | .spacecraft _ _ _ _ => 'S'
    | .ground => if a.subFrm.isSome then 'A' else ((modeLetters.find? fun x => x.1 = a.mode).map Prod.snd).getD ' '

/-- the bands of two letters that are not written as their second letter -/
def bandLetters : List (List Char × Char) :=
  [(c! "Vj", 'V'), (c! "VR", 'V'), (c! "Rc", 'R'), (c! "Ic", 'I'), (c! "Bj", 'B'), (c! "Uj", 'U'), (c! "Gb", 'G'), (c! "Gr", 'G')]

/-- column 71: the band is one letter, or one of the above, or the second letter counts -/
def bandLetter (b : List Char) : Char :=
  if b.length ≤ 1 then b.headD ' ' else ((bandLetters.find? fun x => x.1 = b).map Prod.snd).getD (b.getD 1 ' ')

/-- column 72: the catalogue's letter, or blank -/
def catLetter (name : List Char) : Char := ((PackUtil.catCodes.find? fun x => x.2 = name).map Prod.fst).getD ' '

/-- columns 73-77: a page, or the last five characters -/
def RefText.cols : RefText → RefCols
  | .page r => .page r
  | .other t => .other (List.rightpad 5 ' ' (t.drop (t.length - 5)))

/-- the precisions of times, in millionths of a day, and the number of digits they call for -/
def timeUnits : List (Nat × Nat) :=
  [(1, 6), (10, 5), (100, 4), (1000, 3), (10000, 2), (100000, 1), (69, 5), (694, 4), (4167, 3), (41667, 2)]

/-- The line says what the observation says: everything but the time and the angles is as given above; the time and the angles are rounded to the precision
    (the margin of 10⁻⁹ units, or seconds, is for the arithmetic of the computer).  The angles may have a field 60 (`Sexagesimal.Uncarried`); a time that rounds up to
    the end of the day is written as its beginning. -/
structure Sent.Line (a : Sent) (o : Optical) : Prop where
  desig : o.desig = a.desig
  disc : o.disc = a.disc.getD ' '
  note : o.note = a.noteLetter
  code : o.code = a.codeLetter
  day : o.date.year = a.year ∧ o.date.month = a.month ∧ o.date.day = a.day
  digits : ∃ u ∈ timeUnits, a.precTime.value = (u.1 : Rat) ∧ o.date.digits = u.2
  time : ∃ k : Nat, o.date.frac = k % 10 ^ o.date.digits ∧
    let err : Rat := a.seconds / 86400 * ((10 ^ o.date.digits : Nat) : Rat) - k
    let tol : Rat := (1 : Rat) / 2 + (1 : Rat) / ((10 ^ 9 : Nat) : Rat)
    err ≤ tol ∧ -err ≤ tol
  ra : o.ra.unit = a.precRA.value ∧ (o.ra.Valid 3 ∨ o.ra.Uncarried 3) ∧
    let err : Rat := o.ra.amount - 240 * a.ra.value
    let tol : Rat := a.precRA.value / 2 + (1 : Rat) / ((10 ^ 9 : Nat) : Rat)
    err ≤ tol ∧ -err ≤ tol
  south : o.south = decide (a.dec.sign = some '-')
  dec : o.dec.unit = a.precDec.value ∧ (o.dec.Valid 3 ∨ o.dec.Uncarried 3) ∧
    let err : Rat := o.dec.amount - 3600 * a.dec.size
    let tol : Rat := a.precDec.value / 2 + (1 : Rat) / ((10 ^ 9 : Nat) : Rat)
    err ≤ tol ∧ -err ≤ tol
  spare : o.spare = List.replicate 9 ' '
  mag : o.mag = pointColumn 2 3 ((a.mag.map Numeral.text).getD [])
  band : o.band = bandLetter (a.band.getD [])
  cat : o.cat = catLetter a.cat
  ref : o.ref = ((a.ref.map RefText.cols).getD (.other (c! "     ")))
  stn : o.stn = a.stn

/-- the observation as the 80-column format has it -/
def Sent.obs (a : Sent) (o : Optical) : Obs :=
  match a.place with
  | .ground => .ground o
  | .spacecraft au x y z => .spacecraft o ⟨o.disc, o.note, au, x, y, z, o.ref.columns⟩
  | .rover lon lat alt => .rover o ⟨o.disc, o.note, pointColumn 3 7 lon, pointColumn 3 7 lat, List.leftpad 5 ' ' alt, o.cat :: o.ref.columns⟩

/-- the second lines -/
def Sent.secondLines (a : Sent) (o : Optical) : List (List Char) := (a.obs o).lines.tail

/-! ### values that can be written -/

def RefText.Writable : RefText → Prop
  | .page (.mpc n) => n < 110000 ∨ 200000 ≤ n
  | .page (.mps n) => n ≠ 259999
  | .other t => t.take 3 ≠ c! "MPC" ∧ t.take 3 ≠ c! "MPS"

/-- a place whose coordinates fit their columns -/
def Place.Writable : Place → Prop
  | .ground => True
  | .spacecraft au x y z => let w := if au then 1 else 5; x.Valid w ∧ y.Valid w ∧ z.Valid w
  | .rover lon lat _ => Fits lon ∧ Fits lat

/-- The values that can be written: all the ADES schema allows, except the stations 275 and 244, years before 1600 or after 9999, more than six decimals of a second, some references and coordinates that do
    not fit, modes without a letter, and declinations too close to a tie (see C42). -/
structure Sent.Writable (a : Sent) : Prop where
  desig : a.desig.Valid
  prog : ∀ i ∈ a.prog, i < 62 * 62
  mode : a.deprecated = false → a.place = .ground → a.subFrm = none → a.mode ∈ modeLetters.map Prod.fst
  stn : a.stn ≠ c! "275" ∧ a.stn ≠ c! "244"
  year : 1600 ≤ a.year ∧ a.year ≤ 9999
  month : 1 ≤ a.month ∧ a.month ≤ 12
  day : 1 ≤ a.day ∧ a.day ≤ monthDays a.year a.month
  second : a.second < 86400
  decimals : ∀ ds ∈ a.decimals, 1 ≤ ds.length ∧ ds.length ≤ 6 ∧ ∀ c ∈ ds, c ∈ c! "0123456789"
  ra : a.ra.Valid ∧ a.ra.sign ≠ some '-' ∧ a.ra.value ≤ 360
  dec : a.dec.Valid ∧ a.dec.size ≤ 90
  precTime : a.precTime.Valid ∧ ∃ u ∈ timeUnits, a.precTime.value = (u.1 : Rat)
  precRA : a.precRA.Valid ∧ AngleUnit a.precRA.value
  precDec : a.precDec.Valid ∧ AngleUnit a.precDec.value
  tie : fullField a.precDec.value = 60 → FarFrom 60 (3600 * a.dec.size + a.precDec.value / 2) (1 / ((10 ^ 9 : Nat) : Rat))
  mag : ∀ m ∈ a.mag, m.Valid
  ref : ∀ r ∈ a.ref, r.Writable
  place : a.place.Writable

/-! ### values that can be read again -/

/-- a text that no page is taken for, and that fits -/
def RefText.Readable : RefText → Prop
  | .page r => r.Valid
  | .other t => t.length ≤ 5 ∧ (∀ c ∈ t.head?, c ∉ pageStarts) ∧ Plain t

def Place.Readable (stn : List Char) : Place → Prop
  | .ground => True
  | .spacecraft _ _ _ _ => True
  | .rover lon lat alt => stn = c! "247" ∧ (∀ c ∈ lon ++ lat ++ alt, c ∈ numberChars) ∧ alt.length ≤ 5

/-- The observations whose lines can be read again: the note goes with the station, deprecated observations have no second line, the time does not round to the end of the day or to one of the 100 fractions of C32, and
    the angles do not round to a full minute (or hour, or degree). -/
structure Sent.Readable (a : Sent) : Prop where
  noExt : '_' ∉ a.desig.columns ∧ '-' ∉ a.desig.columns
  disc : ∀ c ∈ a.disc, c = '*' ∨ c = '+'
  notes : ∀ t ∈ a.notes, a.stn ∉ PackUtil.programCodeSites ∧ ∀ c ∈ t.head?, c ∈ noteLetters ∧ c ≠ ' '
  prog : ∀ i ∈ a.prog, a.stn ∈ PackUtil.programCodeSites ∧ i < 94
  deprecated : a.deprecated = true → a.place = .ground
  stn : a.stn.length = 3 ∧ ∀ c ∈ a.stn, isSpace c = false
  band : ∀ b ∈ a.band, isSpace (bandLetter b) = false
  ref : ∀ r ∈ a.ref, r.Readable
  place : a.place.Readable a.stn
  midnight : ∀ u ∈ timeUnits, a.precTime.value = (u.1 : Rat) → a.seconds < 86400 - 86400 / ((10 ^ u.2 : Nat) : Rat) * ((1 : Rat) / 2 + (1 : Rat) / ((10 ^ 9 : Nat) : Rat))
  late : ∀ u ∈ timeUnits, a.precTime.value = (u.1 : Rat) → ∀ j ∈ unlucky,
    let half : Rat := 86400 / ((10 ^ u.2 : Nat) : Rat) * ((1 : Rat) / 2 + (1 : Rat) / ((10 ^ 9 : Nat) : Rat))
    half < a.seconds - 54 * (j : Rat) ∨ half < 54 * (j : Rat) - a.seconds
  precDec : a.precDec.value ≠ 1 / ((10 ^ 3 : Nat) : Rat)
  raFull : FarFrom (fullField a.precRA.value) (240 * a.ra.value) (a.precRA.value / 2 + (1 : Rat) / ((10 ^ 9 : Nat) : Rat))
  decFull : FarFrom (fullField a.precDec.value) (3600 * a.dec.size) (a.precDec.value / 2 + (1 : Rat) / ((10 ^ 9 : Nat) : Rat))

/-- what is left of a magnitude: it has two places before the point and two after it, and what does not fit on the right is lost -/
def magKept (m : Numeral) : List Char := m.text.take (3 + min 2 (m.sign.toList.length + m.whole.length))

/-- the observer was at an observatory -/
def Place.isGround : Place → Bool
  | .ground => true
  | _ => false

/-- `e` says what is left of the observation after conversion to 80 columns and back.  Designation, station, discovery asterisk and programme are unchanged;
    time and angles are off by no more than half a unit of their precision and half a unit in their last digit. -/
structure Sent.Back (a : Sent) (e : Elem) : Prop where
  tag : e.tag = c! "optical"
  permID : fieldOf e (c! "permID") = a.desig.permText
  provID : fieldOf e (c! "provID") = a.desig.provText
  trkSub : fieldOf e (c! "trkSub") = a.desig.trkText
  stn : fieldOf e (c! "stn") = some a.stn
  disc : fieldOf e (c! "disc") = a.disc.map fun c => [c]
  prog : fieldOf e (c! "prog") = a.prog.map fun i => [b62 (i / 62), b62 (i % 62)]
  notes : fieldOf e (c! "notes") = a.notes.map fun t => t.take 1
  deprecated : fieldOf e (c! "deprecated") = if a.deprecated then some (c! "X") else none
  /-- the mode is kept if the code column is not needed for something else; otherwise it becomes photographic for the old reference frame, and CCD in the other cases -/
  mode : fieldOf e (c! "mode") = some (if a.deprecated = false ∧ a.place.isGround then (if a.subFrm.isNone then a.mode else c! "PHo") else c! "CCD")
  subFrm : fieldOf e (c! "subFrm") = if a.deprecated = false ∧ a.place.isGround ∧ a.subFrm.isSome then some (c! "B1950.0") else none
  /-- a catalogue without a letter becomes unknown -/
  cat : fieldOf e (c! "astCat") = some (if a.cat ∈ PackUtil.catCodes.map Prod.snd then a.cat else c! "UNK")
  mag : fieldOf e (c! "mag") = a.mag.map magKept
  /-- the band is one letter, unknown if none was given, and lost without a magnitude -/
  band : fieldOf e (c! "band") = a.mag.map fun _ => (match a.band with | some b => [bandLetter b] | none => c! "UNK")
  ref : fieldOf e (c! "ref") = a.ref.map RefText.text
  time : ∃ w ms : Nat, fieldOf e (c! "obsTime") = some (isoTime a.year a.month a.day w ('.' :: fixed 3 ms ++ ['Z'])) ∧ w < 86400 ∧ ms < 1000 ∧
    ∃ u ∈ timeUnits, a.precTime.value = (u.1 : Rat) ∧ fieldOf e (c! "precTime") = some (Spec.dec (10 ^ (6 - u.2))) ∧
    let err : Rat := (w : Rat) + (ms : Rat) / 1000 - a.seconds
    let tol : Rat := 86400 / ((10 ^ u.2 : Nat) : Rat) * ((1 : Rat) / 2 + (1 : Rat) / ((10 ^ 9 : Nat) : Rat)) + 1 / 2000
    err ≤ tol ∧ -err ≤ tol
  ra : ∃ n k : Nat, fieldOf e (c! "ra") = some (decimal n k) ∧
    let err : Rat := 240 * ((k : Rat) / ((10 ^ n : Nat) : Rat)) - 240 * a.ra.value
    let tol : Rat := a.precRA.value / 2 + 120 / ((10 ^ n : Nat) : Rat) + (1 : Rat) / ((10 ^ 8 : Nat) : Rat)
    err ≤ tol ∧ -err ≤ tol ∧ 120 / ((10 ^ n : Nat) : Rat) ≤ a.precRA.value / 5
  dec : ∃ n k : Nat, fieldOf e (c! "dec") = some ((if a.dec.sign = some '-' then ['-'] else []) ++ decimal n k) ∧
    let err : Rat := 3600 * ((k : Rat) / ((10 ^ n : Nat) : Rat)) - 3600 * a.dec.size
    let tol : Rat := a.precDec.value / 2 + 1800 / ((10 ^ n : Nat) : Rat) + (1 : Rat) / ((10 ^ 7 : Nat) : Rat)
    err ≤ tol ∧ -err ≤ tol ∧ 1800 / ((10 ^ n : Nat) : Rat) ≤ a.precDec.value * 3 / 10
  precRA : ∃ t, fieldOf e (c! "precRA") = some t ∧ ∃ n : Numeral, n.Valid ∧ n.text = t ∧ n.value = a.precRA.value
  precDec : ∃ t, fieldOf e (c! "precDec") = some t ∧ ∃ n : Numeral, n.Valid ∧ n.text = t ∧ n.value = a.precDec.value
  place : match a.place with
    | .ground => fieldOf e (c! "pos1") = none ∧ fieldOf e (c! "sys") = none
    | .spacecraft au x y z => fieldOf e (c! "sys") = some (if au then c! "ICRF_AU" else c! "ICRF_KM") ∧
        fieldOf e (c! "pos1") = some x.text ∧ fieldOf e (c! "pos2") = some y.text ∧ fieldOf e (c! "pos3") = some z.text
    | .rover lon lat alt => fieldOf e (c! "sys") = some (c! "WGS84") ∧ fieldOf e (c! "pos1") = some lon ∧ fieldOf e (c! "pos2") = some lat ∧ fieldOf e (c! "pos3") = some alt

end Verif.Spec.Mpc80
