import Verif.Py
/-
  Verif.Spec.Mpc80 : the 80-column format, as documented by the MPC (and at the head of mpc80coltoxml.py): which columns hold what.
  Columns are counted from 1 and ranges include both ends.
-/
namespace Verif.Spec.Mpc80
open Verif

/-- columns `a` to `b` of a line -/
def cols (line : Str) (a b : Nat) : Str := (line.drop (a - 1)).take (b + 1 - a)

/-- the kinds of data line -/
inductive LineKind | optical | radarFirst | radarSecond | satelliteSecond | roverSecond
deriving DecidableEq

/-- column 15 says what kind of line it is.  (S and V lines, which a second line follows, have the columns of optical lines.) -/
def kindOf (c : Char) : Option LineKind :=
  if c = 'R' then some .radarFirst else if c = 'r' then some .radarSecond else if c = 's' then some .satelliteSecond
  else if c = 'v' then some .roverSecond else if c ∈ c! "A PeCBTMcEOHNnSVXx" then some .optical else none

/-- a field: its name, first and last column -/
structure FieldAt where
  name : Str
  first : Nat
  last : Nat

/-- the fields of all data lines -/
def commonFields : List FieldAt :=
  [⟨c! "totalid", 1, 12⟩, ⟨c! "disc", 13, 13⟩, ⟨c! "notes", 14, 14⟩, ⟨c! "code", 15, 15⟩, ⟨c! "date", 16, 32⟩, ⟨c! "astCat", 72, 72⟩,
   ⟨c! "packedref", 72, 77⟩, ⟨c! "stn", 78, 80⟩]

/-- the other fields that are kept as they stand -/
def ownFields : LineKind → List FieldAt
  | .optical => [⟨c! "raSexagesimal", 33, 44⟩, ⟨c! "decSexagesimal", 45, 56⟩, ⟨c! "mag", 66, 70⟩, ⟨c! "band", 71, 71⟩]
  | .radarFirst => [⟨c! "trx", 69, 71⟩]
  | .radarSecond => [⟨c! "sc", 33, 33⟩, ⟨c! "frq continuation", 63, 68⟩, ⟨c! "trx", 69, 71⟩]
  | .satelliteSecond => [⟨c! "parallax_type", 33, 33⟩]
  | .roverSecond => [⟨c! "pos1", 35, 44⟩, ⟨c! "pos2", 46, 55⟩, ⟨c! "pos3", 57, 61⟩]

/-- digits with an implied decimal point after column `p` -/
def pointed (line : Str) (a p b : Nat) : Str := cols line a p ++ ['.'] ++ cols line (p + 1) b

end Verif.Spec.Mpc80
