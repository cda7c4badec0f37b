import Verif.Mpc80
/-!
  Spec.Report80 : what is printed while an 80-column file is converted.  The kinds of messages (`Msg`) are shared with the model.
-/
namespace Verif.Spec.Report80
open Verif Verif.Mpc80

/-- what is printed when one line is read, and then when what it completes is converted -/
structure Told where
  line : Nat
  reading : List Msg
  converting : List Msg

/-- the message is about this line -/
def About (n : Nat) : Msg → Prop
  | .badID m => m = n
  | .mismatch m _ _ => m = n
  | .refused m => m = n
  | _ => False

/-- converting what a line completes says nothing, or that the altitude is missing, or that it is refused -/
def Told.Converted (t : Told) : Prop := t.converting = [] ∨ t.converting = [.noAltitude t.line] ∨ t.converting = [.refused t.line]

/-- everything that is printed, line by line -/
def all (told : List Told) : List Msg := told.flatMap fun t => t.reading ++ t.converting
/-- what is printed by reading only -/
def readings (told : List Told) : List Msg := told.flatMap (·.reading)

/-- what calling `cb` for an item of line `n` prints -/
def callMsgs {σ : Type} (cb : Callback σ) (u : σ) (item : Item) (n : Nat) : List Msg :=
  (cb u item n).2.1 ++ if (cb u item n).2.2 = some .runtimeError then [.refused n] else []

/-- the messages of the calls of a callback one after the other, up to the exception that is not caught -/
def callsOut {σ : Type} (cb : Callback σ) : σ → List (Item × Nat) → List Msg
  | _, [] => []
  | u, (item, n) :: l =>
    callMsgs cb u item n ++ match (cb u item n).2.2 with
      | none => callsOut cb (cb u item n).1 l
      | some e => if e = .runtimeError then callsOut cb (cb u item n).1 l else []

end Verif.Spec.Report80
