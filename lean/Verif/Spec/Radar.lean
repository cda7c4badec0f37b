import Verif.Spec.Mpc80Back
import Verif.Spec.Psv
/-
  Verif.Spec.Radar : radar observations: the two lines of the 80-column format, the `radar` element that says the same, and the lines that come back.
-/
namespace Verif.Spec.Mpc80
open Verif Verif.Xml

/-- what the two lines of a radar observation say, column by column -/
structure Radar where
  /-- 1-12 of both lines -/
  desig : Designation
  /-- 16-32 of both lines -/
  date : ObsDate
  /-- 69-71 of both lines: the transmitter -/
  trx : List Char
  /-- 78-80 of both lines: the receiver -/
  rcv : List Char
  /-- 13 and 14 of the first line -/
  disc : Char
  note : Char
  /-- 33-47: time delay; the decimal point belongs after column 37 -/
  delay : List Char
  /-- 48-62: Doppler shift, the sign first; the decimal point belongs after column 58 -/
  doppler : List Char
  /-- 63-68: frequency; the decimal point belongs after column 67 -/
  frq : List Char
  /-- 72-77 -/
  ref : List Char
  /-- 13 and 14 of the second line -/
  disc2 : Char
  note2 : Char
  /-- 33: measured to the centre of mass (C) or to the surface (S) -/
  com : Bool
  /-- 34-47: uncertainty of the delay; the decimal point belongs after column 43 -/
  rmsDelay : List Char
  /-- 48-62: uncertainty of the Doppler shift; the decimal point belongs after column 58 -/
  rmsDoppler : List Char
  /-- 63-68 -/
  frq2 : List Char
  /-- 72-77 -/
  ref2 : List Char

/-- the first line -/
def Radar.first (r : Radar) : List Char :=
  r.desig.columns ++ [r.disc, r.note, 'R'] ++ r.date.column ++ r.delay ++ r.doppler ++ r.frq ++ r.trx ++ r.ref ++ r.rcv
/-- the second line -/
def Radar.second (r : Radar) : List Char :=
  r.desig.columns ++ [r.disc2, r.note2, 'r'] ++ r.date.column ++ [if r.com then 'C' else 'S'] ++ r.rmsDelay ++ r.rmsDoppler ++ r.frq2 ++ r.trx ++ r.ref2 ++ r.rcv
def Radar.lines (r : Radar) : List (List Char) := [r.first, r.second]

/-- digits, blanks and points, `w` of them -/
def Digits (w : Nat) (t : List Char) : Prop := t.length = w ∧ ∀ c ∈ t, c ∈ c! "0123456789 ."
/-- a note the observatory may use -/
def noteAt (stn : List Char) (c : Char) : Prop := if stn ∈ PackUtil.programCodeSites then c = ' ' ∨ c ∈ programLetters else c ∈ noteLetters

/-- the whole second nearest to the date -/
def nearestSecond (d : ObsDate) : Nat := (2 * d.frac * 86400 + 10 ^ d.digits) / (2 * 10 ^ d.digits)

/-- lines the format allows, with a date that stands for a whole second of its day: none of the others with the same number of digits is nearer to that second.
    (Seconds half way between two dates are left out.) -/
structure Radar.Valid (r : Radar) : Prop where
  desig : r.desig.Valid
  noExt : '_' ∉ r.desig.columns ∧ '-' ∉ r.desig.columns
  date : r.date.Valid
  whole : nearestSecond r.date < 86400 ∧
    (((nearestSecond r.date : Nat) : Rat) - r.date.seconds) * ((10 ^ r.date.digits : Nat) : Rat) < 43200 - (1 : Rat) / 10000 ∧
    (r.date.seconds - ((nearestSecond r.date : Nat) : Rat)) * ((10 ^ r.date.digits : Nat) : Rat) < 43200 - (1 : Rat) / 10000
  trx : r.trx.length = 3 ∧ ∀ c ∈ r.trx, isSpace c = false
  rcv : r.rcv.length = 3 ∧ ∀ c ∈ r.rcv, isSpace c = false
  disc : r.disc ∈ [' ', '*', '+'] ∧ r.disc2 ∈ [' ', '*', '+']
  note : noteAt r.rcv r.note ∧ noteAt r.rcv r.note2
  delay : Digits 15 r.delay
  doppler : Digits 14 (r.doppler.drop 1) ∧ ∃ c ∈ [' ', '+', '-'], r.doppler.head? = some c
  frq : Digits 6 r.frq
  ref : r.ref.length = 6 ∧ Plain r.ref
  rmsDelay : Digits 14 r.rmsDelay
  rmsDoppler : Digits 15 r.rmsDoppler
  frq2 : Digits 6 r.frq2
  ref2 : r.ref2.length = 6 ∧ noBreak r.ref2

/-- with the decimal point put in after `k` columns -/
def withPoint (k : Nat) (t : List Char) : List Char := t.take k ++ ['.'] ++ t.drop k
/-- the number in columns without decimal point: none if they are blank -/
def number (k : Nat) (t : List Char) : List Char := if trim t = [] then [] else trim (withPoint k t)
/-- the same with the sign in the first column; blanks between sign and digits are left out -/
def signedNumber (k : Nat) (t : List Char) : List Char :=
  if trim t = [] then [] else trim (t.take 1) ++ trim ((withPoint k t).drop 1)

/-- the values of the element.  (The frequency gets its point even if its columns are blank.) -/
def Radar.values (r : Radar) (time : List Char) : List (List Char × List Char) :=
  val (c! "permID") (r.desig.permText.getD []) ++ val (c! "provID") (r.desig.provText.getD []) ++ val (c! "trkSub") (r.desig.trkText.getD []) ++
  [(c! "trx", r.trx), (c! "rcv", r.rcv), (c! "obsTime", time)] ++
  val (c! "doppler") (signedNumber 11 r.doppler) ++ val (c! "rmsDoppler") (number 11 r.rmsDoppler) ++
  val (c! "delay") (number 5 r.delay) ++ val (c! "rmsDelay") (number 10 r.rmsDelay) ++
  [(c! "com", if r.com then c! "1" else c! "0"), (c! "frq", trim (withPoint 5 r.frq))] ++ val (c! "ref") (trim r.ref)

/-- the time: the nearest whole second -/
def Radar.time (r : Radar) : List Char := isoTime r.date.year r.date.month r.date.day (nearestSecond r.date) ['Z']

/-- the element -/
def Radar.elem (r : Radar) : Elem := nodeOf (c! "radar") ((r.values r.time).map fun x => leafOf x.1 x.2)

/-! ### splitting -/

/-- columns 35-47 and 48-61 of the first line are both used -/
def Radar.both (r : Radar) : Prop := trim (r.delay.drop 2) ≠ [] ∧ trim (r.doppler.take 14) ≠ []
instance (r : Radar) : Decidable r.both := by unfold Radar.both; infer_instance

/-- without columns 48-61 of both lines -/
def Radar.delayPart (r : Radar) : Radar :=
  { r with doppler := List.replicate 14 ' ' ++ r.doppler.drop 14, rmsDoppler := List.replicate 14 ' ' ++ r.rmsDoppler.drop 14 }
/-- without columns 35-47 of both lines -/
def Radar.dopplerPart (r : Radar) : Radar :=
  { r with delay := r.delay.take 2 ++ List.replicate 13 ' ', rmsDelay := r.rmsDelay.take 1 ++ List.replicate 13 ' ' }

/-- an observation of both delay and Doppler shift is taken as two -/
def Radar.split (r : Radar) : List Radar := if r.both then [r.delayPart, r.dopplerPart] else [r]

/-! ### what is read from a file, line by line -/

/-- lines as they stand in the file: a line break at the end, if anywhere -/
def RawLine (l : List Char) : Prop := ∃ w t, l = w ++ t ∧ '\n' ∉ w ∧ (t = [] ∨ t = ['\n'])
/-- the line begins with the word of a header line and a blank -/
def headed (l : List Char) : Prop := l.take 3 ∈ headerWords ∧ l[3]? = some ' '
/-- no more than 80 characters and the line break are read -/
def cut (l : List Char) : List Char := l.take 81
/-- columns `i + 1` to `j` made blank -/
def blanked (i j : Nat) (l : List Char) : List Char := l.take i ++ List.replicate (j - i) ' ' ++ l.drop j
/-- something stands in the columns `i + 1` to `j` -/
def used (i j : Nat) (l : List Char) : Prop := ∃ c ∈ (l.take j).drop i, isSpace c = false

/-- a line on its own, or the two lines of a radar observation -/
inductive Piece
  | one (l : List Char)
  | two (a b : List Char)

def Piece.Ok : Piece → Prop
  | .one l => headed l ∨ ∃ c, l[14]? = some c ∧ c ≠ 'R'
  | .two a b => ¬ headed a ∧ a[14]? = some 'R' ∧ b[14]? = some 'r'
def Piece.lines : Piece → List (List Char)
  | .one l => [l]
  | .two a b => [a, b]

open Classical in
/-- what is read from lines that begin with line `n` of the file, with the line numbers -/
noncomputable def Piece.read (n : Nat) : Piece → List (Nat × List Char)
  | .one l => [(n, cut l)]
  | .two a b =>
    if used 34 47 a ∧ used 47 61 a then [(n, blanked 47 61 (cut a)), (n + 1, blanked 47 61 (cut b)), (n, blanked 34 47 (cut a)), (n + 1, blanked 34 47 (cut b))]
    else [(n, cut a), (n + 1, cut b)]
noncomputable def readFrom : Nat → List Piece → List (Nat × List Char)
  | _, [] => []
  | n, p :: ps => p.read n ++ readFrom (n + p.lines.length) ps

open Classical in
/-- the number of the line, if it is one of two lines that are read twice -/
noncomputable def Piece.twice (n : Nat) : Piece → List Nat
  | .one _ => []
  | .two a _ => if used 34 47 a ∧ used 47 61 a then [n] else []
noncomputable def twiceFrom : Nat → List Piece → List Nat
  | _, [] => []
  | n, p :: ps => p.twice n ++ twiceFrom (n + p.lines.length) ps

/-- lines at which reading stops: one that is too short to have a column 15, or the first line of a radar observation without a second -/
def Stop (ls : List (List Char)) : Prop :=
  ∃ l rest, ls = l :: rest ∧ ¬ headed l ∧ (l[14]? = none ∨ l[14]? = some 'R' ∧ ∀ b ∈ rest.head?, b[14]? ≠ some 'r')

/-! ### files -/

/-- an observation of any kind -/
inductive Rec
  | optical (b : Obs)
  | radar (r : Radar)

def Rec.Valid : Rec → Prop
  | .optical b => b.Valid
  | .radar r => r.Valid
def Rec.lines : Rec → List (List Char)
  | .optical b => b.lines
  | .radar r => r.lines
/-- `e` is an element for the observation -/
def Rec.Element : Rec → Elem → Prop
  | .optical b, e => b.Element e
  | .radar r, e => e = r.elem
/-- what is taken from the lines when radar observations are to be split -/
def Rec.split : Rec → List Rec
  | .optical b => [.optical b]
  | .radar r => r.split.map .radar

/-- header lines and the observations they belong to -/
structure RecGroup where
  headers : List (List Char × List Char)
  recs : List Rec

structure RecGroup.Valid (g : RecGroup) : Prop where
  headed : g.headers ≠ []
  headers : ∀ h ∈ g.headers, h.1 ∈ headerWords ∧ h.2.length ≤ 76 ∧ noBreak h.2
  seen : g.recs ≠ []
  recs : ∀ b ∈ g.recs, b.Valid

def RecGroup.lines (g : RecGroup) : List (List Char) := g.headers.map (fun h => h.1 ++ [' '] ++ h.2) ++ g.recs.flatMap Rec.lines

/-- the observations taken from the group -/
def RecGroup.taken (g : RecGroup) (nosplit : Bool) : List Rec := if nosplit then g.recs else g.recs.flatMap Rec.split

/-! ### the lines that come back -/

/-- columns that come back: one point at most was meant, and the reference has five characters and is not taken for a page -/
structure Radar.Restorable (r : Radar) : Prop where
  points : '.' ∉ r.delay ∧ '.' ∉ r.doppler ∧ '.' ∉ r.frq ∧ '.' ∉ r.rmsDelay ∧ '.' ∉ r.rmsDoppler
  ref : (trim r.ref).length = 5 ∧ (trim r.ref).take 3 ≠ c! "MPC" ∧ (trim r.ref).take 3 ≠ c! "MPS"

/-- a Doppler shift without sign comes back with a plus sign, if it has digits before the point -/
def plusSign (doppler : List Char) : List Char :=
  if doppler.head? = some ' ' ∧ trim (doppler.take 11) ≠ [] then '+' :: doppler.drop 1 else doppler

/-- what comes back, with the date `d`: asterisks, notes, columns 63-68 of the second line and columns 72-77 of the second line are lost, the reference is moved to columns 73-77 -/
def Radar.normal (r : Radar) (d : ObsDate) : Radar :=
  { r with date := d, disc := ' ', note := ' ', disc2 := ' ', note2 := ' ', doppler := plusSign r.doppler, frq2 := List.replicate 6 ' ', ref := ' ' :: trim r.ref, ref2 := ' ' :: trim r.ref }

/-- radar observations as they are written: six digits in the date, no asterisk, no note, a sign for Doppler shifts, the reference in columns 73-77 of both lines -/
structure Radar.Normal (r : Radar) : Prop where
  digits : r.date.digits = 6
  blank : r.disc = ' ' ∧ r.note = ' ' ∧ r.disc2 = ' ' ∧ r.note2 = ' ' ∧ r.frq2 = c! "      "
  sign : r.doppler.head? = some ' ' → trim (r.doppler.take 11) = []
  ref : r.ref.head? = some ' ' ∧ r.ref2 = r.ref

/-- the date with six digits nearest to the whole second that was sent on (either of the two if it is half way between them) -/
structure Radar.Redated (r : Radar) (d : ObsDate) : Prop where
  day : d.year = r.date.year ∧ d.month = r.date.month ∧ d.day = r.date.day
  digits : d.digits = 6 ∧ d.frac < 1000000
  near : ((nearestSecond r.date : Nat) : Rat) / 86400 * 1000000 - (d.frac : Rat) ≤ (1 : Rat) / 2 ∧
    (d.frac : Rat) - ((nearestSecond r.date : Nat) : Rat) / 86400 * 1000000 ≤ (1 : Rat) / 2

def Rec.Restorable : Rec → Prop
  | .optical b => b.Restorable
  | .radar r => r.Restorable
/-- the lines that come back for an observation -/
def Rec.Back : Rec → List (List Char) → Prop
  | .optical b, ls => ls = b.normal.lines
  | .radar r, ls => ∃ d, r.Redated d ∧ ls = (r.normal d).lines
def Rec.isRadar : Rec → Bool
  | .optical _ => false
  | .radar _ => true

/-- groups that come back: all observations of one kind -/
structure RecGroup.Restorable (g : RecGroup) : Prop where
  headers : ∀ h ∈ g.headers, Plain h.2
  recs : ∀ b ∈ g.recs, b.Restorable
  kind : (∀ b ∈ g.recs, b.isRadar = true) ∨ ∀ b ∈ g.recs, b.isRadar = false

/-- the header lines that come back, if they are wanted -/
def headersBack (noHeader : Bool) (hs : List (List Char × List Char)) : List (List Char) :=
  if noHeader then [] else (normalHeaders hs).map fun h => h.1 ++ [' '] ++ h.2

/-- the lines that come back for a group: header lines, then the lines of each observation taken from it, in order -/
def RecGroup.Back (noHeader nosplit : Bool) (g : RecGroup) (ls : List (List Char)) : Prop :=
  ∃ parts, Spec.Each Rec.Back (g.taken nosplit) parts ∧ ls = headersBack noHeader g.headers ++ parts.flatten

end Verif.Spec.Mpc80
