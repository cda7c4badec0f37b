import Verif.Xml
/-!
  Specification of `ElementStack`: an operation sequence is a stream of start and end tags, and a tree is the stream one reads off it in
  document order.  No reference to the heap model (only to the type of finished trees).
-/
namespace Verif.Spec
open Verif Verif.Xml

/-- a start tag or an end tag -/
inductive Ev
  | start (tag : Str) (text : Option Str) (attrib : Attrib)
  | stop

mutual
/-- the tags of a tree in document order -/
def events : Elem → List Ev
  | .mk t x a ks => .start t x a :: (eventsL ks ++ [.stop])
def eventsL : List Elem → List Ev
  | [] => []
  | e :: es => events e ++ eventsL es
end

/-- what a caller does with the stack -/
inductive Op
  | add (tag : Str) (text : Option Str) (attrib : Attrib)
  | addPush (tag : Str) (text : Option Str) (attrib : Attrib)
  | addPopPush (tag : Str) (text : Option Str) (attrib : Attrib)
  | addList (items : List (Str × Str))
  | pop

/-- an empty text is no text -/
def text? : Option Str → Option Str
  | some [] => none
  | x => x

/-- the tags an operation stands for -/
def Op.tags : Op → List Ev
  | .add t x a => [.start t (text? x) a, .stop]
  | .addPush t x a => [.start t (text? x) a]
  | .addPopPush t x a => [.stop, .start t (text? x) a]
  | .addList l => l.flatMap fun i => [.start i.1 (text? (some i.2)) [], .stop]
  | .pop => [.stop]

/-- the start tags not yet closed after the stream `evs`, most recent first; `none` if the stream closes the first one or more than was opened -/
def unclosed : List Ev → List (Str × Option Str × Attrib) → Option (List (Str × Option Str × Attrib))
  | [], l => some l
  | .start t x a :: es, l => unclosed es ((t, x, a) :: l)
  | .stop :: es, l => match l with
    | _ :: m :: l => unclosed es (m :: l)
    | _ => none

end Verif.Spec
