import Verif.Spec.Radar
import Verif.Spec.Fields
/-!
  Spec.Checked80 : 80-column files whose conversion is a valid ADES document.
  What is asked for here goes beyond what the 80-column format asks for (`Rec.Valid`, `RecGroup.Valid`).
-/
namespace Verif.Spec.Mpc80
open Verif Verif.Xml Verif.Spec

/-- The observatory code consists of letters and digits; the right ascension is less than 24 hours, the declination at most 90 degrees; a magnitude is a number from -5 to 35 (without superfluous zeros in front), its band
    (if any) a letter or digit; the catalogue is not '6' (whose name, Gaia_2016, has nine characters, one too many); there is no bar in the reference. -/
structure Optical.Sound (o : Optical) : Prop where
  stn : ∀ c ∈ o.stn, Alnum c
  ra : o.ra.amount < 24 * 3600
  dec : o.dec.amount ≤ 90 * 3600
  mag : trim o.mag = [] ∨ Magnitude (trim o.mag) ∧ (o.band = ' ' ∨ Alnum o.band)
  cat : o.cat ≠ '6'
  ref : '|' ∉ o.ref.text

/-- The coordinates of roving observers are numbers (without superfluous zeros in front). -/
def Obs.Sound : Obs → Prop
  | .ground o => o.Sound
  | .spacecraft o _ => o.Sound
  | .rover o r => o.Sound ∧ Signed 13 (trim r.lon) ∧ Signed 13 (trim r.lat) ∧ Signed 13 (trim r.alt)

/-- Either a Doppler shift and its uncertainty or a delay and its uncertainty, and the frequency, are given as numbers (the measurements and
    their uncertainties without superfluous zeros in front); the object has a designation; the codes consist of letters and
    digits; there is no bar in the reference. -/
structure Radar.Sound (r : Radar) : Prop where
  named : ∀ t, r.desig ≠ .tracklet t
  trx : ∀ c ∈ r.trx, Alnum c
  rcv : ∀ c ∈ r.rcv, Alnum c
  measured : (Signed 13 (signedNumber 11 r.doppler) ∧ PositiveNumber 6 (number 11 r.rmsDoppler) ∧ trim r.delay = [] ∧ trim r.rmsDelay = []) ∨
    (PositiveNumber 14 (number 5 r.delay) ∧ PositiveNumber 6 (number 10 r.rmsDelay) ∧ trim r.doppler = [] ∧ trim r.rmsDoppler = [])
  frq : Frequency (trim (withPoint 5 r.frq))
  ref : '|' ∉ trim r.ref

def Rec.Sound : Rec → Prop
  | .optical b => b.Sound
  | .radar r => r.Sound

/-- something is written, and no bar -/
def Written (t : List Char) : Prop := '|' ∉ t ∧ ∃ c ∈ t, Xsd.white c = false

/-- the first header line with a keyword -/
def firstOf (k : List Char) (hs : List (List Char × List Char)) : Option (List Char) := (hs.find? fun h => h.1 = k).map (·.2)

/-- The lines COD, CON, MEA and TEL are there; the first of them (and the first of OBS, if any) and all comments say something. -/
structure HeadersSound (hs : List (List Char × List Char)) : Prop where
  cod : ∃ v, firstOf (c! "COD") hs = some v ∧ Code 3 4 v
  con : ∃ v, firstOf (c! "CON") hs = some v ∧ (',' ∉ v → Written v) ∧ (',' ∈ v → Written (v.takeWhile (· ≠ ',')) ∧ Written (v.dropWhile (· ≠ ',')).tail)
  mea : ∃ v, firstOf (c! "MEA") hs = some v ∧ ∀ n ∈ commaNames v, Written n
  tel : ∃ v, firstOf (c! "TEL") hs = some v ∧ Written v
  obs : ∀ v, firstOf (c! "OBS") hs = some v → ∀ n ∈ commaNames v, Written n
  com : ∀ h ∈ hs, h.1 = c! "COM" → Written h.2

/-- Headers and observations are as described, and the observations are of one kind. -/
structure RecGroup.Sound (nosplit : Bool) (g : RecGroup) : Prop where
  headers : HeadersSound g.headers
  recs : ∀ b ∈ g.taken nosplit, b.Sound
  kind : (∀ b ∈ g.recs, b.isRadar = true) ∨ ∀ b ∈ g.recs, b.isRadar = false

end Verif.Spec.Mpc80
