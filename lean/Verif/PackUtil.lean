import Verif.Regex
/-
  Verif.PackUtil : model of /repo/Python/ades/packUtil.py
  (designations, references and program codes of the MPC 80-column format).
  `print` calls to the console (lines 286, 1064) are not modelled.
-/

namespace Verif.PackUtil
open Verif

/-! ### Letter tables and base 62 -/

/-- packUtil.py:576 `packLetters` -/
def packLetters : Str := c! "0123456789ABCDEFGHIJKLMNOPQRSTUVWXYZabcdefghijklmnopqrstuvwxyz"

/-- `packLetters[i]` for a non-negative index (IndexError from 62 on). -/
def packLetter (i : Nat) : Py Char := charAt packLetters i

/-- packUtil.py:577-584 `unpackLetters[c]`: position of `c` in `packLetters`
    (KeyError if absent). -/
def unpackLetter (c : Char) : Py Nat :=
  match packLetters.findIdx? (· == c) with
  | some i => .ok i
  | none => .error .keyError

/-- One digit of the loop body of packUtil.py:588-591 (`mp % 62` is never out of range). -/
def digit62 (mp : Int) : Char := packLetters.getD (mp % 62).toNat '0'

/-- packUtil.py:586-592 `radix62_4`. `mp` may be negative; `%` and `//` are
    Python's floor operations. The four loop iterations are unrolled. -/
def radix62_4 (mp : Int) : Str :=
  let p0 : Str := []
  let d1 := mp; let mp1 := mp / 62; let p1 := digit62 d1 :: p0
  let d2 := mp1; let mp2 := mp1 / 62; let p2 := digit62 d2 :: p1
  let d3 := mp2; let mp3 := mp2 / 62; let p3 := digit62 d3 :: p2
  let d4 := mp3; let p4 := digit62 d4 :: p3
  '~' :: p4

/-- packUtil.py:594-599 `unRadix62_4` (reads characters 1 to 4). -/
def unRadix62_4 (s : Str) : Py Nat := do
  let a ← unpackLetter (← charAt s 1)
  let b ← unpackLetter (← charAt s 2)
  let c ← unpackLetter (← charAt s 3)
  let d ← unpackLetter (← charAt s 4)
  return ((a * 62 + b) * 62 + c) * 62 + d

/-! ### References -/

/-- the 26 lower-case letters, packUtil.py:272, 290, 291 -/
def lower26 : Str := c! "abcdefghijklmnopqrstuvwxyz"

/-- packUtil.py:256-278 `packRef`.
    `int(s/10000)` goes through float division in Python; modelled as integer
    division truncated towards zero, which agrees for every `s` for which the
    index is in range. `newref[-5:]` is the last five characters. -/
def packRef (ref : Str) : Py Str := do
  let mut newref := ref
  if slice ref 0 3 = c! "MPC" then
    let s ← pyInt (← listAt (splitWs ref) 1)
    if s < 100000 then
      newref := (intStr (s + 100000)).drop 1
    else if s < 200000 then
      newref := '@' :: (intStr (s - 100000 + 10000)).drop 1
    else
      newref := '#' :: (radix62_4 (s - 110000)).drop 1
  else if slice ref 0 3 = c! "MPS" then
    let s ← pyInt (← listAt (splitWs ref) 1)
    if s < 259999 then
      let c ← charAtInt lower26 (s.tdiv 10000)
      newref := c :: (intStr (s % 10000 + 10000)).drop 1
    else
      newref := radix62_4 (s - 260000)
  return ljust 5 (newref.drop (newref.length - 5))

/-- packUtil.py:280-297 `unpackRef`. -/
def unpackRef (packedref : Str) : Py Str := do
  let c0 ← charAt packedref 0
  if (c! "0123456789").contains c0 then
    return c! "MPC  " ++ intStr (← pyInt packedref)
  else if c0 = '@' then
    return c! "MPC  " ++ intStr (100000 + (← pyInt (packedref.drop 1)))
  else if c0 = '#' then
    return c! "MPC  " ++ natStr (110000 + (← unRadix62_4 packedref))
  else if lower26.contains c0 then
    let n ← pyInt (packedref.drop 1)
    return c! "MPS  " ++ intStr (n + 10000 * (lower26.idxOf c0 : Nat))
  else if c0 = '~' then
    return c! "MPS  " ++ natStr (260000 + (← unRadix62_4 packedref))
  else
    return packedref

/-! ### Program codes -/

/-- packUtil.py:60 `programCodesArray` -/
def programCodesArray : Str :=
  ['0','1','2','3','4','5','6','7','8','9','!','"','#','$','%','&','\'','(',')','*','+',',','-','.','/',
   '[','\\',']','^','_','`','{','|','}','~',':',';','<','=','>','?','@'] ++
  c! "ABCDEFGHIJKLMNOPQRSTUVWXYZabcdefghijklmnopqrstuvwxyz"

/-- `hay.index(needle)` / `hay.find(needle)` for strings: first position at
    which `needle` is a substring. -/
def strFind : Str → Str → Option Nat
  | hay, needle =>
    if needle.isPrefixOf hay then some 0
    else match hay with
      | [] => none
      | _ :: t => (strFind t needle).map (· + 1)

/-- packUtil.py:300-313 `packProgID`. The parameter is a string: `index` is a
    substring search; every failure is turned into RuntimeError. -/
def packProgID (c : Str) : Py Str :=
  match strFind programCodesArray c with
  | none => raiseRT
  | some codeIndex => do
    let first := if codeIndex > 61 then '1' else '0'
    let second ← packLetter (codeIndex % 62)
    return [first, second]

/-- packUtil.py:315-327 `unpackProgID`; any exception becomes RuntimeError. -/
def unpackProgID (s : Str) : Py Char :=
  let r : Py Char := do
    let i1 ← unpackLetter (← charAt s 1)
    let i0 ← unpackLetter (← charAt s 0)
    let codeIndex := i1 + 62 * i0
    if codeIndex ≤ 93 then charAt programCodesArray codeIndex else .ok ' '
  match r with
  | .ok c => .ok c
  | .error _ => raiseRT

/-! ### Regular expressions of packUtil.py:450-561 -/

/-- `[A-HJ-Y]` half-month letter -/
def halfCls (c : Char) : Bool := rng 'A' 'H' c || rng 'J' 'Y' c
/-- `[A-HJ-Z]` order letter -/
def orderCls (c : Char) : Bool := rng 'A' 'H' c || rng 'J' 'Z' c
/-- `[-A-Za-z0-9]` -/
def trkCls (c : Char) : Bool := ch '-' c || alnum c

/-- packUtil.py:450 `^(\d{2})(\d{2}) ([A-HJ-Y])([A-HJ-Z])(\d+)?$` -/
def minorplanetProvIDRegex : Re :=
  cat [.grp 1 (times 2 isDec), .grp 2 (times 2 isDec), .cls (ch ' '), .grp 3 (.cls halfCls),
       .grp 4 (.cls orderCls), opt (.grp 5 (plus isDec)), .eos]

/-- packUtil.py:451 `^(\d{4}) (P-L|T-1|T-2|T-3)$` -/
def minorplanetSurveyProvIDRegex : Re :=
  cat [.grp 1 (times 4 isDec), .cls (ch ' '),
       .grp 2 (alts [lit (c! "P-L"), lit (c! "T-1"), lit (c! "T-2"), lit (c! "T-3")]), .eos]

/-- packUtil.py:452 `^([ACDPX])/(\d{4}) ([A-Z])([A-Z])?(\d*)$` -/
def cometProvIDRegex : Re :=
  cat [.grp 1 (.cls (oneOf (c! "ACDPX"))), .cls (ch '/'), .grp 2 (times 4 isDec), .cls (ch ' '),
       .grp 3 (.cls (rng 'A' 'Z')), opt (.grp 4 (.cls (rng 'A' 'Z'))), .grp 5 (star isDec), .eos]

/-- packUtil.py:453 `^([CDPX])/(\d{4}) ([A-Z])(\d*)-([A-Z])$` -/
def cometfragmentProvIDRegex : Re :=
  cat [.grp 1 (.cls (oneOf (c! "CDPX"))), .cls (ch '/'), .grp 2 (times 4 isDec), .cls (ch ' '),
       .grp 3 (.cls (rng 'A' 'Z')), .grp 4 (star isDec), .cls (ch '-'), .grp 5 (.cls (rng 'A' 'Z')), .eos]

/-- packUtil.py:454 `^S/(\d{4}) ([JSUN]) (\d+)$` -/
def satelliteProvIDRegex : Re :=
  cat [.cls (ch 'S'), .cls (ch '/'), .grp 1 (times 4 isDec), .cls (ch ' '),
       .grp 2 (.cls (oneOf (c! "JSUN"))), .cls (ch ' '), .grp 3 (plus isDec), .eos]

/-- packUtil.py:456 `^(\d+)$` -/
def minorplanetPermIDRegex : Re := cat [.grp 1 (plus isDec), .eos]

/-- packUtil.py:457 `^(\d+)([PDI])$` -/
def cometPermIDRegex : Re := cat [.grp 1 (plus isDec), .grp 2 (.cls (oneOf (c! "PDI"))), .eos]

/-- packUtil.py:458 `^(\d+)([PDI])-([A-Z]{1,2})$` -/
def cometfragmentPermIDRegex : Re :=
  cat [.grp 1 (plus isDec), .grp 2 (.cls (oneOf (c! "PDI"))), .cls (ch '-'),
       .grp 3 (.rep 1 (some 2) (rng 'A' 'Z')), .eos]

/-- packUtil.py:459 `^(Jupiter|Saturn|Uranus|Neptune) (\d+)$` -/
def satellitePermIDRegex : Re :=
  cat [.grp 1 (alts [lit (c! "Jupiter"), lit (c! "Saturn"), lit (c! "Uranus"), lit (c! "Neptune")]),
       .cls (ch ' '), .grp 2 (plus isDec), .eos]

/-- packUtil.py:460 `^\((\d+|\d{4} [A-Z]{2}\d+)\) (\d+)$` -/
def asteroidsatellitePermIDRegex : Re :=
  cat [.cls (ch '('),
       .grp 1 (.alt (plus isDec)
                 (cat [times 4 isDec, .cls (ch ' '), times 2 (rng 'A' 'Z'), plus isDec])),
       .cls (ch ')'), .cls (ch ' '), .grp 2 (plus isDec), .eos]

/-- packUtil.py:489-490 `^([-A-Za-z0-9]{0,8})$` -/
def trksubRegex : Re := cat [.grp 1 (.rep 0 (some 8) trkCls), .eos]

/-- packUtil.py:511-517 `minorplanetPackedIDRegex` -/
def minorplanetPackedIDRegex : Re :=
  cat [alts [times 5 (ch ' '),
             cat [.grp 1 (.cls alnum), .grp 2 (times 4 isDec)],
             .grp 3 (cat [.cls (ch '~'), times 4 alnum])],
       alts [cat [.grp 4 (.cls (rng 'I' 'K')), .grp 5 (times 2 isDec), .grp 6 (.cls halfCls),
                  .grp 7 (.cls alnum), .grp 8 (.cls isDec),
                  .alt (.grp 9 (.cls orderCls)) (.cls (ch '0'))],
             cat [.grp 10 (alts [lit (c! "PL"), lit (c! "T1"), lit (c! "T2"), lit (c! "T3")]),
                  .cls (ch 'S'), .grp 11 (times 4 isDec)],
             cat [.grp 12 (.rep 0 (some 8) trkCls), star (ch ' ')],
             cat [.grp 13 (.cls (ch '_')), .grp 14 (.cls (rng 'P' 'Z')), .grp 15 (.cls halfCls),
                  .grp 16 (times 4 alnum)],
             star (ch ' ')],
       .eos]

/-- packUtil.py:539-543 `cometPackedIDRegex` -/
def cometPackedIDRegex : Re :=
  cat [.alt (times 4 (ch ' ')) (.grp 1 (times 4 isDec)),
       .grp 2 (.cls (oneOf (c! "APCDXI"))),
       alts [cat [.grp 3 (.cls alnum), .grp 4 (times 2 isDec), .grp 5 (.cls halfCls),
                  .grp 6 (.cls alnum), .grp 7 (.cls isDec),
                  alts [.cls (ch '0'), .grp 8 (.cls (rng 'A' 'Z')), .grp 9 (.cls (rng 'a' 'z'))]],
             cat [times 5 (ch ' '), .grp 10 (.cls fun c => rng 'a' 'z' c || ch ' ' c),
                  .grp 11 (.cls (rng 'a' 'z'))],
             cat [star (ch ' '), .eos]],
       .eos]

/-- packUtil.py:558-561 `satellitePackedIDRegex` -/
def satellitePackedIDRegex : Re :=
  cat [.alt (times 4 (ch ' ')) (cat [.grp 1 (.cls (oneOf (c! "JSUN"))), .grp 2 (times 3 isDec)]),
       .cls (ch 'S'),
       .alt (cat [.grp 3 (.cls alnum), .grp 4 (times 2 isDec), .grp 5 (.cls (oneOf (c! "JSUN"))),
                  .grp 6 (.cls alnum), .grp 7 (.cls isDec), .cls (ch '0'), .eos])
            (cat [star (ch ' '), .eos]),
       .eos]

/-- A match object: captured groups of a successful match. -/
abbrev Match := Caps

/-- `m.group(n)` used as a string (TypeError if the group did not take part:
    every use in the code follows a truth test or is structurally guaranteed). -/
def grp! (m : Match) (n : Nat) : Py Str :=
  match group m n with
  | some s => .ok s
  | none => .error .typeError

/-- `unpackLetters[m.group(n)]` for a one-character group. -/
def unpackLetters (s : Str) : Py Nat :=
  match s with
  | [c] => unpackLetter c
  | _ => .error .keyError

/-- The result of unpacking / the input of packing: (permID, provID, trkSub). -/
structure IDs where
  permID : Option Str
  provID : Option Str
  trkSub : Option Str
  deriving DecidableEq, Repr

/-- `''` for 0, else `str(n)`; packUtil.py:699-702, 774-777, 813-816. -/
def numOrBlank (n : Nat) : Str := if n = 0 then [] else natStr n

/-- packUtil.py:624-729: the minor-planet part of `unpackPackedID`. -/
def unpackMinor (packedID : Str) : Py IDs :=
  match reMatch minorplanetPackedIDRegex packedID with
  | none => .ok ⟨none, none, none⟩
  | some m => do
    let permID_leading := group m 1
    let permID_base62 := group m 3
    let trkSub := group m 12
    let permID : Option Str ←
      (if truthy permID_leading || truthy permID_base62 then do
        let n : Nat ←
          (if truthy permID_leading then do
            let d ← pyNat (← grp! m 2)
            let l ← unpackLetters (← grp! m 1)
            return d + 10000 * l
          else do
            let n ← unRadix62_4 (← grp! m 3)
            return 620000 + n)
        if n = 0 then raiseRT else return some (natStr n)
      else return none)
    let provID : Option Str ←
      (if truthy (group m 4) then do
        let c ← unpackLetters (← grp! m 4)
        let yy ← pyNat (← grp! m 5)
        let year := natStr (c * 100 + yy)
        let l ← unpackLetters (← grp! m 7)
        let d ← pyNat (← grp! m 8)
        let ns := numOrBlank (l * 10 + d)
        let hm ← grp! m 6
        if truthy (group m 9) then
          return some (year ++ [' '] ++ hm ++ (← grp! m 9) ++ ns)
        else
          return some (c! "A/" ++ year ++ [' '] ++ hm ++ ns)
      else if truthy (group m 13) then do
        let y ← unpackLetters (← grp! m 14)
        let year := natStr (20 * 100 + y)
        let o ← grp! m 16
        -- provID_extended_order[0..3]: same arithmetic as unRadix62_4 on '~' + order
        let n := 15500 + (← unRadix62_4 ('~' :: o))
        let order := n % 25
        let cycle := natStr ((n - order) / 25)
        let order_letter ← charAt (c! "ABCDEFGHJKLMNOPQRSTUVWXYZ") order
        return some (year ++ [' '] ++ (← grp! m 15) ++ [order_letter] ++ cycle)
      else return none)
    let provID : Option Str ←
      (if truthy (group m 10) then do
        let s ← grp! m 10
        return some ((← grp! m 11) ++ [' '] ++ [← charAt s 0] ++ ['-'] ++ [← charAt s 1])
      else return provID)
    let trkSub := if !truthy permID && truthy trkSub then trkSub.map strip else trkSub
    return ⟨permID, provID, trkSub⟩

/-- packUtil.py:749-786: the comet part of `unpackPackedID`. -/
def unpackComet (packedID : Str) (ids : IDs) : Py IDs :=
  match reMatch cometPackedIDRegex packedID with
  | none => .ok ids
  | some m => do
    let cometType ← grp! m 2
    let permID : Option Str ←
      (if truthy (group m 1) then do
        let n ← pyNat (← grp! m 1)
        if n = 0 then raiseRT
        else if cometType ≠ c! "P" ∧ cometType ≠ c! "D" then raiseRT
        else
          let p := natStr n ++ cometType
          let p ← (if truthy (group m 9) then do return p ++ ['-'] ++ (← grp! m 9).map asciiUpper
                   else return p : Py Str)
          let p ← (if truthy (group m 11) then do
                     return p ++ ['-'] ++ (strip ((← grp! m 10) ++ (← grp! m 11))).map asciiUpper
                   else return p : Py Str)
          return some p
      else return ids.permID)
    let provID : Option Str ←
      (if truthy (group m 3) then do
        let c ← unpackLetters (← grp! m 3)
        let yy ← pyNat (← grp! m 4)
        let y := natStr (c * 100 + yy)
        let l ← unpackLetters (← grp! m 6)
        let d ← pyNat (← grp! m 7)
        let ns := numOrBlank (l * 10 + d)
        let extra := if truthy (group m 8) then (group m 8).getD [] else []
        let frag := if truthy (group m 9) then '-' :: ((group m 9).getD []).map asciiUpper else []
        return some (cometType ++ ['/'] ++ y ++ [' '] ++ (← grp! m 5) ++ extra ++ ns ++ frag)
      else return ids.provID)
    return ⟨permID, provID, ids.trkSub⟩

/-- packUtil.py:566-571 `planetNameDict` -/
def planetName (s : Str) : Py Str :=
  if s = c! "J" then .ok (c! "Jupiter")
  else if s = c! "S" then .ok (c! "Saturn")
  else if s = c! "U" then .ok (c! "Uranus")
  else if s = c! "N" then .ok (c! "Neptune")
  else .error .keyError

/-- packUtil.py:801-817: the satellite part of `unpackPackedID`. -/
def unpackSat (packedID : Str) (ids : IDs) : Py IDs :=
  match reMatch satellitePackedIDRegex packedID with
  | none => .ok ids
  | some m => do
    let permID : Option Str ←
      (if truthy (group m 1) then do
        let n ← pyNat (← grp! m 2)
        if n = 0 then raiseRT
        else return some ((← planetName (← grp! m 1)) ++ [' '] ++ natStr n)
      else return ids.permID)
    let provID : Option Str ←
      (if truthy (group m 3) then do
        let c ← unpackLetters (← grp! m 3)
        let yy ← pyNat (← grp! m 4)
        let y := natStr (c * 100 + yy)
        let l ← unpackLetters (← grp! m 6)
        let d ← pyNat (← grp! m 7)
        let ns := numOrBlank (l * 10 + d)
        return some (c! "S/" ++ y ++ [' '] ++ (← grp! m 5) ++ [' '] ++ ns)
      else return ids.provID)
    return ⟨permID, provID, ids.trkSub⟩

/-- packUtil.py:603-822 `unpackPackedID`. -/
def unpackPackedID (packedID : Str) : Py IDs := do
  let ids ← unpackMinor packedID
  let ids ← unpackComet packedID ids
  let ids ← unpackSat packedID ids
  if !truthy ids.permID && !truthy ids.provID && !truthy ids.trkSub then raiseRT
  else return ids

/-- object type letters used by `packTupleID` (`permIDType`, `provIDType`) -/
inductive IdType | A | C | F | S
  deriving DecidableEq, Repr

/-- A packed permID or provID half: text, type, fragment (only for `F`). -/
structure Half where
  text : Str
  ty : IdType
  frag : Str
  deriving DecidableEq, Repr

/-- `"{0:0d}".format(n + 10^k)[1:]`: zero-padded rendering. -/
def padded (base n : Nat) : Str := (natStr (n + base)).drop 1

/-- packUtil.py:850-870 -/
def packPermMinor (permID : Str) (acc : Option Half) : Py (Option Half) :=
  match reMatch minorplanetPermIDRegex permID with
  | none => .ok acc
  | some m => do
    let mp ← pyNat (← grp! m 1)
    if 0 < mp ∧ mp < 15396336 then
      if mp < 620000 then
        let firstDigit := mp / 10000
        let lastDigits := mp - firstDigit * 10000
        let l ← packLetter firstDigit
        return some ⟨l :: padded 10000 lastDigits, .A, []⟩
      else
        return some ⟨radix62_4 ((mp : Int) - 620000), .A, []⟩
    else raiseRT

/-- packUtil.py:875-885 -/
def packPermComet (permID : Str) (acc : Option Half) : Py (Option Half) :=
  match reMatch cometPermIDRegex permID with
  | none => .ok acc
  | some m => do
    let n ← pyNat (← grp! m 1)
    if n > 9999 then raiseRT
    else if n = 0 then raiseRT
    else return some ⟨padded 10000 n ++ (← grp! m 2), .C, []⟩

/-- packUtil.py:890-901 -/
def packPermFragment (permID : Str) (acc : Option Half) : Py (Option Half) :=
  match reMatch cometfragmentPermIDRegex permID with
  | none => .ok acc
  | some m => do
    let n ← pyNat (← grp! m 1)
    if n > 9999 then raiseRT
    else if n = 0 then raiseRT
    else return some ⟨padded 10000 n ++ (← grp! m 2), .F, ← grp! m 3⟩

/-- packUtil.py:907-917 -/
def packPermSat (permID : Str) (acc : Option Half) : Py (Option Half) :=
  match reMatch satellitePermIDRegex permID with
  | none => .ok acc
  | some m => do
    let n ← pyNat (← grp! m 2)
    if n > 999 then raiseRT
    else if n = 0 then raiseRT
    else
      let p ← charAt (← grp! m 1) 0
      return some ⟨[p] ++ padded 1000 n ++ ['S'], .S, []⟩

/-- packUtil.py:845-927: packing of the permID. -/
def packPerm : Option Str → Py (Option Half)
  | none => .ok none
  | some permID => do
    let a ← packPermMinor permID none
    let a ← packPermComet permID a
    let a ← packPermFragment permID a
    let a ← packPermSat permID a
    match reMatch asteroidsatellitePermIDRegex permID with
    | some _ => raiseRT
    | none =>
      match a with
      | some h => if h.text.isEmpty then raiseRT else return some h
      | none => raiseRT

/-- order letters, packUtil.py:959 -/
def orderLetters : Str := c! "ABCDEFGHJKLMNOPQRSTUVWXYZ"

/-- packUtil.py:937-969. `int(n/10)` (float division) is exact integer division
    for `n ≤ 619`. -/
def packProvMinor (provID : Str) (acc : Option Half) : Py (Option Half) :=
  match reMatch minorplanetProvIDRegex provID with
  | none => .ok acc
  | some m => do
    let y ← pyNat (← grp! m 1)
    if y < 18 ∨ y > 61 then raiseRT
    else
      let n ← (if truthy (group m 5) then do pyNat (← grp! m 5) else return 0 : Py Nat)
      if n ≤ 619 then
        let n1 := n / 10
        let nn ← packLetter n1
        let n2 := padded 10 (n - 10 * n1)
        return some ⟨[' ', ← packLetter y] ++ (← grp! m 2) ++ (← grp! m 3) ++ [nn] ++ n2 ++ (← grp! m 4),
                     .A, []⟩
      else
        let order ← (match strFind orderLetters (← grp! m 4) with
                     | some i => .ok i
                     | none => .error .typeError)  -- cannot happen: group 4 is an order letter
        let cycle ← pyNat (← grp! m 5)
        let n := 25 * cycle + order
        if cycle > 591673 ∨ (cycle = 591673 ∧ order > 10) then raiseRT  -- 10 = order_letters.find("L")
        else
          let yl ← packLetter (← pyNat (← grp! m 2))
          return some ⟨[' ', '_', yl] ++ (← grp! m 3) ++ (radix62_4 ((n : Int) - 15500)).drop 1, .A, []⟩

/-- packUtil.py:974-980 -/
def packProvSurvey (provID : Str) (acc : Option Half) : Py (Option Half) :=
  match reMatch minorplanetSurveyProvIDRegex provID with
  | none => .ok acc
  | some m => do
    let n ← pyNat (← grp! m 1)
    let s ← grp! m 2
    let s1 ← charAt s 0
    let s2 ← charAt s 2
    return some ⟨[' ', s1, s2, 'S'] ++ padded 10000 n, .A, []⟩

/-- packUtil.py:985-1003 -/
def packProvComet (provID : Str) (acc : Option Half) : Py (Option Half) :=
  match reMatch cometProvIDRegex provID with
  | none => .ok acc
  | some m => do
    let extra := if truthy (group m 4) then (group m 4).getD [] else ['0']
    let n ← pyNat ('0' :: (← grp! m 5))
    let n1 := n / 10
    let n2 := n - n1 * 10
    if n1 > 61 then raiseRT
    else
      let yr ← grp! m 2
      let y1 ← packLetter (← pyNat (slice yr 0 2))
      let y2 := slice yr 2 4
      let t := (← grp! m 1) ++ [y1] ++ y2 ++ (← grp! m 3) ++ [← packLetter n1] ++ [← packLetter n2] ++ extra
      return some ⟨t, if (← grp! m 1) = c! "A" then .A else .C, []⟩

/-- packUtil.py:1008-1021 -/
def packProvFragment (provID : Str) (acc : Option Half) : Py (Option Half) :=
  match reMatch cometfragmentProvIDRegex provID with
  | none => .ok acc
  | some m => do
    let n ← pyNat (← grp! m 4)
    let n1 := n / 10
    let n2 := n - n1 * 10
    if n1 > 61 then raiseRT
    else
      let yr ← grp! m 2
      let y1 ← packLetter (← pyNat (slice yr 0 2))
      let y2 := slice yr 2 4
      let t := (← grp! m 1) ++ [y1] ++ y2 ++ (← grp! m 3) ++ [← packLetter n1] ++ [← packLetter n2] ++
        (← grp! m 5).map asciiLower
      return some ⟨t, .F, ← grp! m 5⟩

/-- packUtil.py:1026-1042 -/
def packProvSat (provID : Str) (acc : Option Half) : Py (Option Half) :=
  match reMatch satelliteProvIDRegex provID with
  | none => .ok acc
  | some m => do
    let n ← pyNat (← grp! m 3)
    let n1 := n / 10
    let n2 := n - n1 * 10
    if n1 > 61 then raiseRT
    else if n = 0 then raiseRT
    else
      let yr ← grp! m 1
      let y1 ← packLetter (← pyNat (slice yr 0 2))
      let y2 := slice yr 2 4
      let t := ['S', y1] ++ y2 ++ (← grp! m 2) ++ [← packLetter n1] ++ [← packLetter n2] ++ ['0']
      return some ⟨t, .S, []⟩

/-- packUtil.py:932-1045: packing of the provID. -/
def packProv : Option Str → Py (Option Half)
  | none => .ok none
  | some provID => do
    let a ← packProvMinor provID none
    let a ← packProvSurvey provID a
    let a ← packProvComet provID a
    let a ← packProvFragment provID a
    let a ← packProvSat provID a
    match a with
    | some h => if h.text.isEmpty then raiseRT else return some h
    | none => raiseRT

/-- packUtil.py:1048-1073: packing of the trkSub. -/
def packTrk (trkSub : Option Str) (perm prov : Option Half) : Py (Option Str) :=
  match trkSub, perm with
  | some t, none =>
    let packed : Option Str :=
      match reMatch trksubRegex t with
      | some m =>
        let tmp := (group m 1).getD []
        if tmp.length > 7 then some (tmp.drop 1) else some tmp
      | none => none
    if truthy packed then .ok packed
    else if prov.isSome then .ok packed
    else raiseRT
  | _, _ => .ok none

/-- packUtil.py:825-1113 `packTupleID` on a proper triple. (Lines 833-840 reject
    non-triples; `IDs` is a triple by construction.) -/
def packTupleID (t : IDs) : Py Str := do
  let perm ← packPerm t.permID
  let prov ← packProv t.provID
  let trk ← packTrk t.trkSub perm prov
  match perm with
  | some p =>
    match prov with
    | some q =>
      if p.ty ≠ q.ty then raiseRT
      else if p.ty = .F ∧ p.frag ≠ q.frag then raiseRT
      else return p.text ++ q.text.drop 1
    | none =>
      if truthy trk then raiseRT
      else
        let packed := p.text ++ c! "       "
        if p.ty = .F then
          let f := if p.frag.length = 1 then ' ' :: p.frag else p.frag
          return packed.take 10 ++ f.map asciiLower
        else return packed
  | none =>
    match prov with
    | some q => return c! "    " ++ q.text
    | none =>
      if truthy trk then return ljust 12 (c! "     " ++ trk.getD [])
      else raiseRT

end Verif.PackUtil
