import Verif.Spec.Mpc80Optical
/-
  Verif.Spec.Mpc80Back : what is left of a file in the 80-column format after conversion to ADES and back.
-/
namespace Verif.Spec.Mpc80
open Verif Verif.Xml

/-- a number with `w` places before the decimal point and `k` from there on; what does not fit on the right is lost -/
def pointColumn (w k : Nat) (t : List Char) : List Char :=
  (List.leftpad w ' ' (t.takeWhile (· ≠ '.')) ++ List.rightpad k ' ' (t.dropWhile (· ≠ '.'))).take (w + k)

/-- a reference that is no page is moved to the left -/
def RefCols.normal : RefCols → RefCols
  | .page r => .page r
  | .other t => .other (List.rightpad 5 ' ' (trim t))

/-- letters that stand for no catalogue are lost -/
def normalCat (c : Char) : Char := if c ∈ PackUtil.catCodes.map Prod.fst then c else ' '

/-- a band without magnitude is lost; a magnitude without band comes back with the letter N -/
def normalBand (mag : List Char) (band : Char) : Char := if trim mag = [] then ' ' else if band = ' ' then 'N' else band

/-- the first line as it comes back: designation, asterisk, note, code, date, position and observatory are restored exactly; columns 57-65 are lost -/
def Optical.normal (o : Optical) : Optical :=
  { o with spare := List.replicate 9 ' ', mag := pointColumn 2 3 (trim o.mag), band := normalBand o.mag o.band, cat := normalCat o.cat, ref := o.ref.normal }

/-- the second line takes asterisk, note and reference of the first one; coordinates are restored exactly -/
def Spacecraft.normal (o : Optical) (s : Spacecraft) : Spacecraft := { s with disc := o.disc, note := o.note, ref := o.ref.normal.columns }

/-- the second line takes asterisk, note, catalogue and reference of the first one; coordinates are aligned anew -/
def Rover.normal (o : Optical) (r : Rover) : Rover :=
  { disc := o.disc, note := o.note, lon := pointColumn 3 7 (trim r.lon), lat := pointColumn 3 7 (trim r.lat), alt := List.leftpad 5 ' ' (trim r.alt),
    ref := normalCat o.cat :: o.ref.normal.columns }

def Obs.normal : Obs → Obs
  | .ground o => .ground o.normal
  | .spacecraft o s => .spacecraft o.normal (s.normal o)
  | .rover o r => .rover o.normal (r.normal o)

/-- the references that can be packed (see C13) and other texts that are not taken for pages -/
def RefCols.Restorable : RefCols → Prop
  | .page (.mpc n) => n < 110000 ∨ 200000 ≤ n
  | .page (.mps n) => n ≠ 259999
  | .other t => (trim t).take 3 ≠ c! "MPC" ∧ (trim t).take 3 ≠ c! "MPS" ∧ ∀ c ∈ (trim t).head?, c ∉ pageStarts

/-- lines that can be written again -/
structure Optical.Restorable (o : Optical) : Prop where
  stn : o.stn ≠ c! "275" ∧ o.stn ≠ c! "244"
  mag : o.mag.count '.' ≤ 1
  ref : o.ref.Restorable

/-- a coordinate with at most one decimal point, three places before it and six after it (or no more than ten in all) -/
def Fits (t : List Char) : Prop :=
  trim t ≠ [] ∧ t.count '.' ≤ 1 ∧ max 3 ((trim t).takeWhile (· ≠ '.')).length + ((trim t).dropWhile (· ≠ '.')).length ≤ 10

def Obs.Restorable : Obs → Prop
  | .ground o => o.Restorable
  | .spacecraft o _ => o.Restorable
  | .rover o r => o.Restorable ∧ Fits r.lon ∧ Fits r.lat

/-! ### header lines -/

/-- the names with a comma and a blank between them -/
def joinNames : List (List Char) → List Char
  | [] => []
  | [x] => x
  | x :: l => x ++ c! ", " ++ joinNames l

/-- the value of a header line, with one blank after the commas that separate names and none before them -/
def normalValue (k v : List Char) : List Char :=
  if k = c! "OBS" ∨ k = c! "MEA" then joinNames ((commaNames v).map trim)
  else if k = c! "CON" ∧ ',' ∈ v then joinNames [trim (v.takeWhile (· ≠ ',')), trim (v.dropWhile (· ≠ ',')).tail]
  else trim v

/-- the keywords with an equivalent in ADES, apart from COM -/
def contextWords : List (List Char) := [c! "COD", c! "CON", c! "OBS", c! "MEA", c! "TEL"]

/-- the first line for each keyword -/
def firstHeaders : List (List Char) → List (List Char × List Char) → List (List Char × List Char)
  | _, [] => []
  | seen, (k, v) :: hs => if k ∈ contextWords ∧ k ∉ seen then (k, normalValue k v) :: firstHeaders (k :: seen) hs else firstHeaders seen hs

/-- the header lines that come back -/
def normalHeaders (hs : List (List Char × List Char)) : List (List Char × List Char) :=
  firstHeaders [] hs ++ (commentLines hs).map fun t => (c! "COM", trim t)

def Group.normal (g : Group) : Group := ⟨normalHeaders g.headers, g.obs.map Obs.normal⟩

structure Group.Restorable (g : Group) : Prop where
  headers : ∀ h ∈ g.headers, Plain h.2
  obs : ∀ b ∈ g.obs, b.Restorable

end Verif.Spec.Mpc80
