import Verif.Convert
/-
  Verif.Spec.Convert : what it means to read, write and leave alone files, for C35.
-/
namespace Verif
open Verif.Convert

/-- The world with one file written, nothing else changed. -/
def Convert.World.write (w : World) (name text : Str) : World :=
  { w with files := fun n => if n = name then some text else w.files n }

/-- The two names that `tempfile.NamedTemporaryFile` chose: not in use, and different. -/
structure Fresh (w : World) (a b : Str) : Prop where
  noA : w.files a = none
  noB : w.files b = none
  ne : a ≠ b

/-- What a call gave: an exception or nothing, and the world after it. -/
def Convert.result (m : Convert.IO Unit) (w : World) : Option PyErr × World :=
  match m w with
  | .ok _ w' => (none, w')
  | .error e w' => (some e, w')

/-- what the converter leaves in a file that it read `t` for; an output that is opened first is empty until it is written -/
def Convert.Conv.written (c : Conv) (t : Str) : Option Str :=
  match (c.run t).1 with
  | some x => some x
  | none => if c.openFirst then some [] else none

/-- the world after the converter wrote its output to the file `o` -/
def Convert.World.after (w : World) (c : Conv) (o t : Str) : World :=
  match c.written t with
  | some x => w.write o x
  | none => w

end Verif
