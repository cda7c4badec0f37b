import Verif.Validate
import Verif.Spec.Convert
/-!
  Verif.Spec.Validate : what the reports of the validators say, for C47.
-/
namespace Verif.Spec
open Verif Verif.Xml Verif.Convert Verif.Validate

/-- The first line of a text that is not blank begins, but for white space, with `<?xml`, and has `?>` later on. -/
def HasDeclaration (t : Str) : Prop := ∃ before line after x y, Psv.fileLines (Psv.universalNewlines t) = before ++ line :: after ∧ (∀ l ∈ before, strip l = []) ∧
    strip line = c! "<?xml" ++ x ++ c! "?>" ++ y

/-- the validator of the library is right -/
def Right (lib : Lib) (F : Facets) : Prop := ∀ S e, lib.judge S e = none ↔ ValidDocument F S e

open Classical in
/-- The report on a candidate: a warning if it has no declaration, then a verdict for each schema. -/
noncomputable def reportText (F : Facets) (file text : Str) (candidate : Elem) (schemas : List (Str × Schema)) : Str :=
  (if HasDeclaration text then [] else c! "candidate file " ++ file ++ c! " has no XML declaration\n") ++
  schemas.flatMap fun s => if ValidDocument F s.2 candidate then s.1 ++ c! " is OK\n" else s.1 ++ c! " has failed: \n"

open Classical in
/-- What is printed: the same, and after each failure the reason. -/
noncomputable def printedText (F : Facets) (lib : Lib) (file text : Str) (candidate : Elem) (schemas : List (Str × Schema)) : Str :=
  (if HasDeclaration text then [] else c! "candidate file " ++ file ++ c! " has no XML declaration\n") ++
  schemas.flatMap fun s => if ValidDocument F s.2 candidate then s.1 ++ c! " is OK\n" else s.1 ++ c! " has failed:\n" ++ (lib.judge s.2 candidate).getD [] ++ ['\n']

/-- the world with a text printed -/
def printing (w : World) (t : Str) : World := { w with stdout := w.stdout ++ t }

end Verif.Spec
