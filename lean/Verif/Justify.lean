import Verif.Py
/-
  Verif.Justify : field justification.
  /repo/Python/ades/adesutility.py:347-444 `applyPaddingAndJustification`,
  /repo/Python/ades/packUtil.py:354-408 `packSigned`, `unPackSigned`.
-/
namespace Verif
open Verif

/-- `n * ' '` (empty for negative `n`) -/
def blanks (n : Int) : Str := List.replicate n.toNat ' '

/-- `s.split(c)` for a one-character separator: always at least one piece. -/
def splitChar (c : Char) : Str → List Str
  | [] => [[]]
  | d :: s =>
    if d = c then [] :: splitChar c s
    else match splitChar c s with
      | [] => [[d]]
      | p :: ps => (d :: p) :: ps

/-- justification types: adesutility.py:371, 374, 377, 383, 443 -/
inductive JType | L | R | C | D | other
  deriving DecidableEq, Repr

/-- adesutility.py:347-444 `applyPaddingAndJustification`: (padded string, achieved width, achieved
    decimal position). -/
def applyPJ (s : Str) (l : Int) (jtype : JType) (dpos : Int) : Py (Str × Nat × Int) :=
  let ll : Int := s.length
  match jtype with
  | .L =>
    let outs := s ++ blanks (l - ll)
    .ok (outs, outs.length, dpos)
  | .R =>
    let outs := blanks (l - ll) ++ s
    .ok (outs, outs.length, dpos)
  | .C =>
    let i := (l - ll) / 2
    let j := if i * 2 ≠ l - ll then i + 1 else i
    let outs := blanks i ++ s ++ blanks j
    .ok (outs, outs.length, dpos)
  | .D =>
    if dpos < 0 then raiseRT
    else
      let parts : Option (Str × Str) :=
        match splitChar '.' s with
        | [_] => some (s, [])
        | [a, b] => some (a, b)
        | _ => none
      match parts with
      | none => raiseRT
      | some (sleft, sright) =>
        let leftpad := dpos - 1 - sleft.length
        let dpos := if leftpad < 0 then dpos - leftpad else dpos
        let rightpad := l - dpos - sright.length
        -- lines 428-430: trailing decimal point
        let trailing := s.getLast? = some '.'
        let sleft := if trailing then s else sleft
        let rightpad := if trailing then rightpad - 1 else rightpad
        let retval :=
          if !sright.isEmpty then blanks leftpad ++ sleft ++ ['.'] ++ sright ++ blanks rightpad
          else blanks leftpad ++ sleft ++ blanks (rightpad + 1)
        .ok (retval, retval.length, dpos)
  | .other => raiseRT

namespace PackUtil

/-- packUtil.py:354-372 `packSigned` -/
def packSigned (value : Str) : Py Str := do
  let s ← charAt value 0
  let ret := strip (value.drop 1)
  return if s ≠ ' ' then s :: ret else ret

/-- packUtil.py:374-408 `unPackSigned` -/
def unPackSigned (value : Str) (outLen nDecimal : Int) : Py Str := do
  let s ← charAt value 0
  let (value, s) := if (c! "0123456789").contains s then ('+' :: value, '+') else (value, s)
  if ¬ (c! "+-").contains s then
    let r ← applyPJ value outLen .D nDecimal
    return r.1
  else
    let r ← applyPJ (value.drop 1) (outLen - 1) .D (nDecimal - 1)
    return s :: r.1

end PackUtil
end Verif
