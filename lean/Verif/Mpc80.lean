import Verif.Regex
import Verif.PackUtil
import Verif.Tables
import Verif.Justify
import Verif.SexVals
import Verif.Xml
import Verif.Master
import Verif.PsvToXml
/-
  Verif.Mpc80 : /repo/Python/ades/mpc80coltoxml.py.

  A line decoded by `decode80ColumnDataLine` is a Python dict; here an association list in which the first binding
  of a key counts, so that an assignment puts a binding in front (the order of keys is never observed).
  Messages are `Msg` values; their text is dropped.  Not modelled: the progress message every million lines, `printit`
  and `prettyPrintDict` (not used by the converter), text encodings, `main` and its argument parser.
-/
namespace Verif.Mpc80
open Verif Verif.Xml Verif.PackUtil

/-! ### dicts -/

/-- the values found in such a dict -/
inductive Val
  | str (s : Str)
  | num (n : Sex.Num)
  | none
deriving DecidableEq

abbrev Item := List (Str × Val)

/-- `item.get(k)` -/
def Item.get? (i : Item) (k : Str) : Option Val := (i.find? fun x => x.1 == k).map (·.2)
/-- `item[k]` -/
def Item.get (i : Item) (k : Str) : Py Val :=
  match i.get? k with
  | some v => .ok v
  | none => .error .keyError
/-- `item[k]` where the code uses it as a string -/
def Item.str (i : Item) (k : Str) : Py Str :=
  match i.get? k with
  | some (.str s) => .ok s
  | some _ => .error .attributeError
  | none => .error .keyError
/-- `item[k] = v` -/
def Item.set (i : Item) (k : Str) (v : Val) : Item := (k, v) :: i
/-- `item[k] = s` for a string -/
def Item.put (i : Item) (k s : Str) : Item := i.set k (.str s)

/-- Python's `a in b` for strings -/
def inStr (a b : Str) : Bool := (strFind b a).isSome

/-- `repr(x)` of a float: the fewest decimals that read back as the same float.  Simplification: exponent notation (below
    10^-4 and from 10^16 on) is not modelled; the floats met here are 0.6 and 10^-d with d at most 3. -/
def floatStr (x : Flt.F64) : Str :=
  let n := ((List.range 17).find? fun n => Flt.rnd (mkRat (Flt.roundEven (x.mag * (10 ^ (n + 1) : Nat))) (10 ^ (n + 1))) = x.mag).getD 16
  Flt.fmtF (n + 1) x

/-- `str(x)` -/
def Val.text : Val → Str
  | .str s => s
  | .num (.int n) => intStr n
  | .num (.flt x) => floatStr x
  | .none => c! "None"

/-- truth value -/
def Val.truthy : Val → Bool
  | .str s => !s.isEmpty
  | .num (.int n) => n ≠ 0
  | .num (.flt x) => x.mag ≠ 0
  | .none => false

/-! ### line formats -/

/-- `.` -/
def anyCh (c : Char) : Bool := !(ch '\n' c)
/-- `[0-9 .]` -/
def numCh (c : Char) : Bool := rng '0' '9' c || ch ' ' c || ch '.' c
/-- `[-+0-9 .]` -/
def signedCh (c : Char) : Bool := ch '-' c || ch '+' c || numCh c

/-- mpc80coltoxml.py:27 `blankRegex` -/
def blankRegex : Re := cat [star (ch ' '), .eos]

/-- mpc80coltoxml.py:39 `headerRegex` -/
def headerRegex : Re :=
  cat [.grp 1 (alts [lit ['A','C','K'], lit ['C','O','D'], lit ['C','O','N'], lit ['O','B','S'], lit ['M','E','A'], lit ['T','E','L'],
      lit ['N','E','T'], lit ['B','N','D'], lit ['C','O','M'], lit ['N','U','M'], lit ['A','C','2']]),
    .cls (ch ' '), .grp 2 (star anyCh), .eos]

/-- mpc80coltoxml.py:53-57 `commonRegexHelp1` -/
def common1 : List Re :=
  [.grp 1 (cat [.cls (fun c => ch ' ' c || alnum c || ch '~' c), times 11 (fun c => alnum c || ch ' ' c)]),
   .grp 2 (.cls (oneOf [' ', '*', '+'])), .grp 3 (.cls anyCh)]

/-- mpc80coltoxml.py:58-61 `commonRegexHelp2` -/
def common2 : List Re :=
  [.grp 5 (times 4 isDec), .grp 6 (.cls (fun c => ch ' ' c || rng 'a' 'e' c)), .grp 7 (times 12 numCh)]

/-- mpc80coltoxml.py:73-84 `normalLineRegex` -/
def normalLineRegex : Re :=
  cat (common1 ++ [.grp 4 (.cls (oneOf (c! "A PeCBTMcEOHNnSVXx")))] ++ common2 ++
    [.grp 8 (times 12 numCh), .grp 9 (cat [.cls (oneOf ['-', '+', ' ']), times 11 numCh]), .grp 10 (times 9 anyCh), .grp 11 (times 5 anyCh),
     .grp 12 (times 1 anyCh), .grp 13 (times 6 anyCh), .grp 14 (times 3 anyCh), .eos])

/-- mpc80coltoxml.py:96-106 `radarFirstLineRegex` -/
def radarFirstLineRegex : Re :=
  cat (common1 ++ [.grp 4 (.cls (ch 'R'))] ++ common2 ++
    [.grp 8 (times 15 numCh), .grp 9 (cat [.cls (oneOf [' ', '+', '-']), times 14 numCh]), .grp 10 (times 6 numCh), .grp 11 (times 3 anyCh),
     .grp 12 (times 6 anyCh), .grp 13 (times 3 anyCh), .eos])

/-- mpc80coltoxml.py:118-129 `radarSecondLineRegex` -/
def radarSecondLineRegex : Re :=
  cat (common1 ++ [.grp 4 (.cls (ch 'r'))] ++ common2 ++
    [.grp 8 (.cls (oneOf ['S', 'C'])), .grp 9 (times 14 numCh), .grp 10 (times 15 numCh), .grp 11 (times 6 numCh), .grp 12 (times 3 anyCh),
     .grp 13 (times 6 anyCh), .grp 14 (times 3 anyCh), .eos])

/-- `[+-][0-9 .]{10}` -/
def coord : Re := cat [.cls (oneOf ['+', '-']), times 10 numCh]

/-- mpc80coltoxml.py:141-155 `satelliteSecondLineRegex` -/
def satelliteSecondLineRegex : Re :=
  cat (common1 ++ [.grp 4 (.cls (ch 's'))] ++ common2 ++
    [.grp 8 (.cls (oneOf ['1', '2'])), .cls anyCh, .grp 9 coord, .cls anyCh, .grp 10 coord, .cls anyCh, .grp 11 coord,
     times 2 (ch ' '), .grp 12 (cat [.cls (ch ' '), times 5 anyCh]), .grp 13 (times 3 anyCh), star anyCh, .eos])

/-- mpc80coltoxml.py:165-178 `roverSecondLineRegex` -/
def roverSecondLineRegex : Re :=
  cat (common1 ++ [.grp 4 (.cls (ch 'v'))] ++ common2 ++
    [.cls (ch '1'), .cls (ch ' '), .grp 8 (times 10 signedCh), .cls (ch ' '), .grp 9 (times 10 signedCh), .cls (ch ' '), .grp 10 (times 5 signedCh),
     times 10 (ch ' '), .grp 11 (times 6 anyCh), .grp 12 (cat [.cls (ch '2'), .cls (ch '4'), .cls (ch '7')]), star anyCh, .eos])

/-- `m.group(n)` of a group that took part -/
def g (m : Caps) (n : Nat) : Str := (group m n).getD []

/-- mpc80coltoxml.py:310-314, 330-334, 359-363, 383-387, 413-417: the columns common to all data lines -/
def putCommon (m : Caps) : Item :=
  (((((Item.put [] (c! "subFmt") (c! "M92")).put (c! "totalid") (g m 1)).put (c! "disc") (g m 2)).put (c! "notes") (g m 3)).put
    (c! "code") (g m 4)).put (c! "date") (g m 5 ++ g m 6 ++ g m 7)

/-- sexVals.py:364-380 `checkDate` on a dict -/
def putDate (ret : Item) (radar : Bool) : Py Item := do
  let (obsTime, prec) ← Sex.checkDate (← ret.str (c! "date")) radar
  pure ((ret.put (c! "obsTime") obsTime).set (c! "precTime") (.num prec))

/-- mpc80coltoxml.py:306-326: an optical line (or X, x, S, V) -/
def decodeNormal (m : Caps) : Py Item := do
  let ret := (((((((putCommon m).put (c! "raSexagesimal") (g m 8)).put (c! "decSexagesimal") (g m 9)).put (c! "bl1") (g m 10)).put
    (c! "mag") (g m 11)).put (c! "band") (g m 12)).put (c! "packedref") (g m 13)).put (c! "stn") (g m 14)
  let ret ← putDate ret false
  let (ra, precRA) ← Sex.checkRa (g m 8)
  let ret := (ret.put (c! "ra") ra).set (c! "precRA") (.num precRA)
  let (dec, precDec) ← Sex.checkDec (g m 9)
  pure ((ret.put (c! "dec") dec).set (c! "precDec") (.num precDec))

/-- mpc80coltoxml.py:328-352: a radar first line.  `m.group(10).strip != ''` compares a method with a string: always true. -/
def decodeRadar1 (m : Caps) : Py Item := do
  let ret := putCommon m
  let ret := ret.put (c! "delay") (if strip (g m 8) ≠ [] then slice (g m 8) 0 5 ++ ['.'] ++ (g m 8).drop 5 else [])
  let shift ← if strip (g m 9) ≠ [] then packSigned (slice (g m 9) 0 11 ++ ['.'] ++ (g m 9).drop 11) else pure []
  let ret := ret.put (c! "shift") shift
  let ret := ret.put (c! "frq") (slice (g m 10) 0 5 ++ ['.'] ++ (g m 10).drop 5)
  pure (((ret.put (c! "trx") (g m 11)).put (c! "packedref") (g m 12)).put (c! "stn") (g m 13))

/-- mpc80coltoxml.py:354-379: a radar second line -/
def decodeRadar2 (m : Caps) : Item :=
  let ret := (putCommon m).put (c! "sc") (g m 8)
  let ret := ret.put (c! "delay uncertainty") (if strip (g m 9) ≠ [] then slice (g m 9) 0 10 ++ ['.'] ++ (g m 9).drop 10 else [])
  let ret := ret.put (c! "shift uncertainty") (if strip (g m 10) ≠ [] then slice (g m 10) 0 11 ++ ['.'] ++ (g m 10).drop 11 else [])
  let ret := ret.put (c! "frq continuation") (g m 11)
  ((ret.put (c! "trx") (g m 12)).put (c! "packedref") (g m 13)).put (c! "stn") (g m 14)

/-- mpc80coltoxml.py:380-408: a satellite second line.  (The three comparisons are made one after the other with `or`; they
    have no other effect, so they are made together here.) -/
def decodeSat (m : Caps) : Py Item := do
  let ret := ((putCommon m).put (c! "parallax_type") (g m 8)).put (c! "ctr") (c! "399")
  let p1 ← packSigned (g m 9)
  let p2 ← packSigned (g m 10)
  let p3 ← packSigned (g m 11)
  let ret := ((ret.put (c! "pos1") p1).put (c! "pos2") p2).put (c! "pos3") p3
  let (sys, nd) : Str × Int := if g m 8 = c! "1" then (c! "ICRF_KM", 7) else (c! "ICRF_AU", 3)
  let ret := ret.put (c! "sys") sys
  let q1 ← unPackSigned p1 11 nd
  if g m 9 ≠ q1 then raiseRT
  else do
    let q2 ← unPackSigned p2 11 nd
    if g m 10 ≠ q2 then raiseRT
    else do
      let q3 ← unPackSigned p3 11 nd
      if g m 11 ≠ q3 then raiseRT
      else pure ((ret.put (c! "packedref") (g m 12)).put (c! "stn") (g m 13))

/-- mpc80coltoxml.py:409-427: a rover second line -/
def decodeRover (m : Caps) : Item :=
  let ret := ((putCommon m).put (c! "sys") (c! "WGS84")).put (c! "ctr") (c! "399")
  ((((ret.put (c! "pos1") (g m 8)).put (c! "pos2") (g m 9)).put (c! "pos3") (g m 10)).put (c! "packedref") (g m 11)).put (c! "stn") (g m 12)

/-- mpc80coltoxml.py:300-430: the columns, by line type -/
def decodeColumns (line : Str) : Py Item :=
  match reMatch normalLineRegex line with
  | some m => decodeNormal m
  | none =>
    match reMatch radarFirstLineRegex line with
    | some m => decodeRadar1 m
    | none =>
      match reMatch radarSecondLineRegex line with
      | some m => .ok (decodeRadar2 m)
      | none =>
        match reMatch satelliteSecondLineRegex line with
        | some m => decodeSat m
        | none =>
          match reMatch roverSecondLineRegex line with
          | some m => .ok (decodeRover m)
          | none => raiseRT

/-- packUtil.py:61 `validProgramCodes` -/
def validProgramCodes : Str := ' ' :: programCodesArray

/-- a component of the ID tuple as a value -/
def ofOpt : Option Str → Val
  | some s => .str s
  | none => .none

/-- mpc80coltoxml.py:432-480: the checks common to all data lines, and the designation -/
def decodeChecks (ret : Item) : Py Item := do
  let ret ← putDate ret (ret.get? (c! "trx")).isSome
  let code ← ret.str (c! "code")
  let stn ← ret.str (c! "stn")
  let notes ← ret.str (c! "notes")
  if !inStr code validCodes then raiseRT
  else if programCodeSites.contains stn && !inStr notes validProgramCodes then raiseRT
  else if !programCodeSites.contains stn && !inStr notes validNotes then raiseRT
  else if !inStr notes validProgramCodes then raiseRT
  else do
    let c ← charAt (← ret.str (c! "packedref")) 0
    let ret := ret.put (c! "astCat") [c]
    let ids ← unpackPackedID (← ret.str (c! "totalid"))
    pure (((ret.set (c! "permID") (ofOpt ids.permID)).set (c! "provID") (ofOpt ids.provID)).set (c! "trkSub") (ofOpt ids.trkSub))

/-- mpc80coltoxml.py:482-487: is a message printed because the designation cannot be packed again or gives other columns? -/
def idMessage (line : Str) : Bool :=
  match unpackPackedID (slice line 0 12) with
  | .ok ids => !(packTupleID ids == .ok (slice line 0 12))
  | .error _ => false

/-- mpc80coltoxml.py:222-489 `decode80ColumnDataLine` (without its messages) -/
def decode80ColumnDataLine (line : Str) : Py Item :=
  if line = [] then .ok []
  else if line.length > 80 then raiseRT
  else
    match reMatch headerRegex line with
    | some m => .ok (((Item.put [] (c! "headerKeyword") (g m 1)).put (c! "headerValue") (g m 2)).put (c! "code") (c! "0"))
    | none =>
      if line.length ≠ 80 then raiseRT
      else do
        let ret ← decodeColumns line
        decodeChecks ret

/-! ### pairing lines -/

/-- messages on standard output, each with its line number -/
inductive Msg
  /-- mpc80coltoxml.py:484-487 -/
  | badID (line : Nat)
  /-- mpc80coltoxml.py:517-529 -/
  | mismatch (line : Nat) (old new : Str)
  /-- mpc80coltoxml.py:592-594: the exception of the line is printed -/
  | refused (line : Nat)
  /-- mpc80coltoxml.py:750-752 -/
  | noAltitude (line : Nat)
  /-- mpc80coltoxml.py:1008-1009: the exception that stopped the conversion is printed -/
  | stopped (e : PyErr)
deriving DecidableEq

/-- mpc80coltoxml.py:539-577: a continuation line is combined with the first line.  After a mismatch of columns the code prints
    the undefined name `i`, which raises NameError. -/
def combine (oldCode : Str) (oldLine line : Item) : Py Item := do
  let same := fun k => do pure ((← line.get k) = (← oldLine.get k) : Bool)
  if !(← same (c! "totalid")) then .error .nameError
  else if !(← same (c! "date")) then .error .nameError
  else if !(← same (c! "stn")) then .error .nameError
  else if oldCode = c! "R" then do
    if !(← same (c! "trx")) then .error .nameError
    else do
      let sc ← line.get (c! "sc")
      let o := oldLine.set (c! "sc") sc
      let o := if sc = .str (c! "S") then o.put (c! "com") (c! "0") else o
      let o := if sc = .str (c! "C") then o.put (c! "com") (c! "1") else o
      let o := o.set (c! "rmsDelay") (← line.get (c! "delay uncertainty"))
      let o := o.set (c! "rmsDoppler") (← line.get (c! "shift uncertainty"))
      let o := o.set (c! "frq continuation") (← line.get (c! "frq continuation"))
      let o := o.set (c! "rcv") (← line.get (c! "stn"))
      let o := o.set (c! "doppler") (← o.get (c! "shift"))
      let o := o.set (c! "ref") (← o.get (c! "packedref"))
      pure o
  else if oldCode = c! "S" ∨ oldCode = c! "V" then do
    let o := oldLine.set (c! "sys") (← line.get (c! "sys"))
    let o := o.set (c! "ctr") (← line.get (c! "ctr"))
    let o := o.set (c! "pos1") (← line.get (c! "pos1"))
    let o := o.set (c! "pos2") (← line.get (c! "pos2"))
    let o := o.set (c! "pos3") (← line.get (c! "pos3"))
    pure o
  else pure oldLine

/-- the local variables of `parseFile` that survive a line, the state of the callback and the messages so far -/
structure PState (σ : Type) where
  oldCode : Str
  oldLine : Item
  user : σ
  out : List Msg

/-- a callback: it may change the state and then raise an exception -/
abbrev Callback (σ : Type) := σ → Item → Nat → σ × List Msg × Option PyErr

/-- `s.lower()` of a code -/
def lowerStr (s : Str) : Str := s.map asciiLower
/-- `s.upper()` of a code -/
def upperStr (s : Str) : Str := s.map asciiUpper

/-- mpc80coltoxml.py:532-583: the item to hand to the callback, if any, for a line that does not break a pair -/
def nextThing (oldCode newCode : Str) (oldLine line : Item) : Py (Option Item) := do
  let o ← if inStr oldCode (c! "RSV") then combine oldCode oldLine line else pure oldLine
  if inStr newCode (c! "rsv") then pure (some o)
  else if !inStr newCode (c! "RrSsVv") then pure (some line)
  else pure none

/-- mpc80coltoxml.py:506-590: the body of the `try`, for the line without its last character, once decoded -/
def body {σ : Type} (cb : Callback σ) (st : PState σ) (n : Nat) (dataLine : Str) (line : Item) : PState σ × Option PyErr :=
  match line.str (c! "code") with
  | .error e => (st, some e)
  | .ok newCode =>
    let m0 := if newCode ≠ c! "0" ∧ idMessage dataLine then [Msg.badID n] else []
    let bad1 := inStr st.oldCode (c! "RSV") && newCode ≠ lowerStr st.oldCode
    let bad2 := inStr newCode (c! "rsv") && upperStr newCode ≠ st.oldCode
    let m1 := if bad1 then [Msg.mismatch n st.oldCode newCode] else []
    let m2 := if bad2 then [Msg.mismatch n st.oldCode newCode] else []
    let st := { st with out := st.out ++ m0 ++ m1 ++ m2 }
    match (if bad1 || bad2 then Except.ok Option.none else nextThing st.oldCode newCode st.oldLine line) with
    | .error e => (st, some e)
    | .ok next =>
      let st := if inStr newCode (c! "RSV") then { st with oldLine := line, oldCode := newCode }
        else { st with oldLine := [], oldCode := c! "None" }
      match next with
      | some item =>
        let (u, ms, e) := cb st.user item n
        ({ st with user := u, out := st.out ++ ms }, e)
      | none => (st, none)

/-- mpc80coltoxml.py:499-594: one turn of the loop of `parseFile` -/
def parseLine {σ : Type} (cb : Callback σ) (st : PState σ) (n : Nat) (l : Str) : PState σ × Option PyErr :=
  if (reMatch blankRegex l.dropLast).isSome then (st, none)
  else
    let (st, e) := match decode80ColumnDataLine l.dropLast with
      | .error e => (st, some e)
      | .ok line => body cb st n l.dropLast line
    if e = some .runtimeError then ({ st with out := st.out ++ [.refused n] }, none) else (st, e)

/-- mpc80coltoxml.py:495-594: the loop of `parseFile` over the lines (with their numbers) of a generator that ends with
    the exception `ge` -/
def parseLoop {σ : Type} (cb : Callback σ) (ge : Option PyErr) : PState σ → List (Nat × Str) → PState σ × Option PyErr
  | st, [] => (st, ge)
  | st, (n, l) :: ls =>
    match parseLine cb st n l with
    | (st, none) => parseLoop cb ge st ls
    | (st, some e) => (st, some e)

/-- mpc80coltoxml.py:495-594 `parseFile` -/
def parseFile {σ : Type} (cb : Callback σ) (u : σ) (gen : List (Nat × Str) × Option PyErr) : PState σ × Option PyErr :=
  parseLoop cb gen.2 ⟨c! "None", [], u, []⟩ gen.1

/-- `parseFile(f, None)`: a syntax check only -/
def noCallback : Callback Unit := fun u _ _ => (u, [], none)

/-! ### generators -/

/-- mpc80coltoxml.py:917-927 `doNotSplitRadar`, on the lines of the file -/
def doNotSplitRadar : Nat → List Str → List (Nat × Str)
  | _, [] => []
  | n, l :: ls => (n + 1, l.take 81) :: doNotSplitRadar (n + 1) ls

/-- what `parseRadarLine` returns -/
structure RadarParts where
  l1 : Str
  flag : Char
  l2 : Str
  doppler : Str
  delay : Str
  l3 : Str

/-- mpc80coltoxml.py:933-948 `parseRadarLine` -/
def parseRadarLine (l : Str) : Py RadarParts :=
  match l[14]? with
  | some c => .ok ⟨slice l 0 14, c, slice l 15 34, slice l 34 47, slice l 47 61, l.drop 61⟩
  | none => raiseRT

/-- `n*' '` -/
def sp (n : Nat) : Str := List.replicate n ' '

/-- mpc80coltoxml.py:951-1001 `splitRadar`, on the lines of the file, `n` being `lineNumber`: the lines it yields with the line number at
    that time, the exception it ends with, and `splitLines`.  Every exception is turned into RuntimeError. -/
def splitRadar (n : Nat) : List Str → List (Nat × Str) × Option PyErr × List Nat
  | [] => ([], none, [])
  | l :: ls =>
    let l1 := l.take 81
    if (reMatch headerRegex l1).isSome then
      let (ys, e, k) := splitRadar (n + 1) ls
      ((n, l1) :: ys, e, k)
    else
      match parseRadarLine l1 with
      | .error _ => ([], some .runtimeError, [])
      | .ok a =>
        if a.flag ≠ 'R' then
          let (ys, e, k) := splitRadar (n + 1) ls
          ((n, l1) :: ys, e, k)
        else
          match ls with
          | [] => ([], some .runtimeError, [])
          | l' :: ls' =>
            let l2 := l'.take 81
            match parseRadarLine l2 with
            | .error _ => ([], some .runtimeError, [])
            | .ok b =>
              if b.flag ≠ 'r' then ([], some .runtimeError, [])
              else if strip a.doppler ≠ [] ∧ strip a.delay ≠ [] then
                let (ys, e, k) := splitRadar (n + 2) ls'
                ((n, a.l1 ++ [a.flag] ++ a.l2 ++ a.doppler ++ sp 14 ++ a.l3) :: (n + 1, b.l1 ++ [b.flag] ++ b.l2 ++ b.doppler ++ sp 14 ++ b.l3) ::
                  (n, a.l1 ++ [a.flag] ++ a.l2 ++ sp 13 ++ a.delay ++ a.l3) :: (n + 1, b.l1 ++ [b.flag] ++ b.l2 ++ sp 13 ++ b.delay ++ b.l3) :: ys,
                  e, n :: k)
              else
                let (ys, e, k) := splitRadar (n + 2) ls'
                ((n, l1) :: (n + 1, l2) :: ys, e, k)

/-! ### the XML tree -/

/-- mpc80coltoxml.py:604-611: the types of code -/
inductive CodeType | optical | offset | occultation | rover | radar | satellite | header
deriving DecidableEq

/-- mpc80coltoxml.py:604-633 `codeTable` -/
def codeType (code : Str) : Option CodeType :=
  match code with
  | [c] =>
    if c = '0' then some .header else if c = 'S' then some .satellite else if c = 'R' then some .radar else if c = 'V' then some .rover
    else if c = 'O' then some .occultation else if c = 'E' then some .offset
    else if (c! "A PeCBTMcHNnXs").contains c then some .optical else none
  | _ => none

/-- the globals used by `convertit` (mpc80coltoxml.py:690-714) -/
structure CState where
  stack : Stk
  firstElement : Bool
  firstObsBlock : Bool
  inObsBlock : Bool
  commentList : List Str
  /-- name, and sub-elements with their text -/
  obsContextList : List (Str × List (Str × Str))
  obsContextSeen : List Str

/-- Python code that changes the state and may raise an exception, keeping the changes made before -/
abbrev C := EStateM PyErr CState

/-- a value or an exception -/
def lift {α : Type} (x : Py α) : C α := fun s =>
  match x with
  | .ok a => .ok a s
  | .error e => .error e s

/-- a method call on the stack -/
def onStack (f : Stk → Py Stk) : C Unit := fun s =>
  match f s.stack with
  | .ok t => .ok () { s with stack := t }
  | .error e => .error e s

/-- one after the other -/
def each {α : Type} (f : α → C Unit) : List α → C Unit
  | [] => pure ()
  | x :: l => do
    f x
    each f l

/-- mpc80coltoxml.py:732-747: the first data line after headers writes the header elements and opens obsData -/
def flushContext (lx : Lxml) : C Unit := do
  let s ← get
  if s.inObsBlock then do
    each (fun x => do
      onStack fun t => t.addPush lx x.1
      each (fun sub => onStack fun t => t.add lx sub.1 (some sub.2)) x.2
      onStack Stk.pop) s.obsContextList
    if s.commentList ≠ [] then do
      onStack fun t => t.addPush lx (c! "comment")
      each (fun l => onStack fun t => t.add lx (c! "line") (some l)) s.commentList
      onStack Stk.pop
    else pure ()
    onStack fun t => t.addPopPush lx (c! "obsData")
    modify fun s => { s with inObsBlock := false }
  else pure ()

/-- mpc80coltoxml.py:767-772, 836-841: a new element of a data block -/
def openElement (lx : Lxml) (tag : Str) : C Unit := do
  let s ← get
  if s.firstElement then do
    onStack fun t => t.addPush lx tag
    modify fun s => { s with firstElement := false }
  else onStack fun t => t.addPopPush lx tag

/-- mpc80coltoxml.py:826-828, 845-847: the values of the item, in the order of the allowed elements -/
def itemElements (allowed : List Str) (item : Item) : List (Str × Str) :=
  allowed.filterMap fun x =>
    match item.get? x with
    | some v => if v.truthy && strip v.text ≠ [] then some (x, strip v.text) else none
    | none => none

/-- mpc80coltoxml.py:785-794: `mode` (with `deprecated`, `subFrm`) from the code -/
def putMode (item : Item) (code : Str) : Py Item := do
  let (code, item) :=
    if inStr code (c! "Xx") then (c! "C", item.put (c! "deprecated") (c! "X"))
    else if code = c! "A" then (c! "P", item.put (c! "subFrm") (c! "B1950.0"))
    else if code = c! "V" then (c! "C", item)
    else if code = c! "S" then (c! "C", item)
    else (code, item)
  match code with
  | [c] =>
    match dictGet codeDict c with
    | some mode => pure (item.put (c! "mode") mode)
    | none => .error .keyError
  | _ => .error .keyError

/-- mpc80coltoxml.py:798-802: the star catalogue -/
def putCat (item : Item) : Py Item := do
  match ← item.str (c! "astCat") with
  | [c] =>
    match dictGet catCodes c with
    | some v => pure (item.put (c! "astCat") v)
    | none => pure (item.put (c! "astCat") (c! "UNK"))
  | _ => pure (item.put (c! "astCat") (c! "UNK"))

/-- mpc80coltoxml.py:803-808: the band -/
def putBand (item : Item) : Py Item := do
  let mag ← item.str (c! "mag")
  let band ← item.str (c! "band")
  let band := if mag ≠ [] ∧ strip band = [] then c! "UNK" else band
  pure (if band ≠ [] ∧ strip mag = [] then item.set (c! "band") .none else item.put (c! "band") band)

/-- mpc80coltoxml.py:823-827: programme code or note -/
def putProg (item : Item) : Py Item := do
  let notes ← item.str (c! "notes")
  let stn ← item.str (c! "stn")
  if notes ≠ c! " " ∧ programCodeSites.contains stn then do
    let p ← packProgID notes
    pure ((item.put (c! "prog") p).put (c! "notes") (c! " "))
  else pure item

/-- mpc80coltoxml.py:785-831: the values of an optical element -/
def opticalItem (item : Item) (code : Str) : Py Item := do
  let item ← putMode item code
  let item ← putCat item
  let item ← putBand item
  let item ← putProg item
  let ref ← unpackRef ((← item.str (c! "packedref")).drop 1)
  pure (item.put (c! "ref") ref)

/-- mpc80coltoxml.py:766-838 -/
def convertOptical (lx : Lxml) (allowed : List Str) (item : Item) (code : Str) : C Unit := do
  openElement lx (c! "optical")
  let item ← lift (opticalItem item code)
  let cells ← lift (makeElementList lx (itemElements allowed item))
  onStack fun t => t.addElementList cells

/-- mpc80coltoxml.py:839-851 -/
def convertRadar (lx : Lxml) (allowed : List Str) (item : Item) : C Unit := do
  openElement lx (c! "radar")
  let cells ← lift (makeElementList lx (itemElements allowed item))
  onStack fun t => t.addElementList cells

/-- `s.split(',', 1)` -/
def splitComma1 (s : Str) : List Str :=
  let w := s.takeWhile (fun c => c ≠ ',')
  if w.length = s.length then [s] else [w, s.drop (w.length + 1)]

/-- mpc80coltoxml.py:878-910: the element a header line stands for -/
def headerElement (hkey hval : Str) : Option (Str × List (Str × Str)) :=
  if hkey = c! "COD" then some (c! "observatory", [(c! "mpcCode", hval)])
  else if hkey = c! "CON" then
    some (c! "submitter", match splitComma1 hval with
      | [a] => [(c! "name", a)]
      | a :: b :: _ => [(c! "name", a), (c! "institution", b)]
      | [] => [])
  else if hkey = c! "OBS" then some (c! "observers", (splitChar ',' hval).map fun i => (c! "name", i))
  else if hkey = c! "MEA" then some (c! "measurers", (splitChar ',' hval).map fun i => (c! "name", i))
  else if hkey = c! "TEL" then
    some (c! "telescope", [(c! "name", hval), (c! "design", c! "Unknown"), (c! "aperture", c! "9999"), (c! "detector", c! "Unknown")])
  else none

/-- mpc80coltoxml.py:852-912 -/
def convertHeader (lx : Lxml) (item : Item) : C Unit := do
  let s ← get
  if !s.inObsBlock then do
    if s.firstObsBlock then do
      modify fun s => { s with firstObsBlock := false }
      onStack fun t => t.addPush lx (c! "obsBlock")
    else do
      onStack Stk.pop
      onStack Stk.pop
      onStack fun t => t.addPopPush lx (c! "obsBlock")
    onStack fun t => t.addPush lx (c! "obsContext")
    modify fun s => { s with commentList := [], obsContextList := [], obsContextSeen := [] }
  else pure ()
  modify fun s => { s with inObsBlock := true, firstElement := true }
  let hkey ← lift (item.str (c! "headerKeyword"))
  let hval ← lift (item.str (c! "headerValue"))
  modify fun s =>
    if hkey = c! "COM" then { s with commentList := s.commentList ++ [hval] }
    else if s.obsContextSeen.contains hkey then s
    else { s with obsContextSeen := s.obsContextSeen ++ [hkey],
                  obsContextList := s.obsContextList ++ (headerElement hkey hval).toList }

/-- what the tables allow in optical and radar elements, in order (`allowedElementDict['optical']`, `['radar']`) -/
structure Allowed where
  optical : List Str
  radar : List Str

/-- mpc80coltoxml.py:717-914 `convertit`; the result says whether a rover line was skipped with a message -/
def convertit (lx : Lxml) (al : Allowed) (item : Item) : C Bool := do
  let code ← lift (item.str (c! "code"))
  match codeType code with
  | some .header => do
    convertHeader lx item
    pure false
  | some .rover => do
    flushContext lx
    let pos3 ← lift (item.str (c! "pos3"))
    if strip pos3 = [] then pure true
    else do
      convertOptical lx al.optical item code
      pure false
  | some .radar => do
    flushContext lx
    convertRadar lx al.radar item
    pure false
  | some _ => do
    flushContext lx
    convertOptical lx al.optical item code
    pure false
  | none => do
    flushContext lx
    pure false

/-- `convertit` as the callback of `parseFile` -/
def convertCallback (lx : Lxml) (al : Allowed) : Callback CState := fun s item n =>
  match convertit lx al item s with
  | .ok skipped s => (s, if skipped then [.noAltitude n] else [], none)
  | .error e s => (s, [], some e)

/-- mpc80coltoxml.py:674-695 `convertitPreamble` -/
def convertitPreamble (lx : Lxml) : Py CState := do
  let stack ← Stk.init lx (c! "ades") none [(c! "version", c! "2022")]
  pure ⟨stack, true, true, false, [], [], []⟩

/-! ### the conversion -/

/-- what a run of the converter does: the document written (if any), the messages, the exception it ends with (if any) -/
structure Outcome where
  doc : Option Elem
  out : List Msg
  raised : Option PyErr

/-- mpc80coltoxml.py:1004-1010: the first attempt: the document (or the exception) and the messages -/
def attempt (lx : Lxml) (al : Allowed) (gen : List (Nat × Str) × Option PyErr) : Py Elem × List Msg :=
  match convertitPreamble lx with
  | .error e => (.error e, [])
  | .ok s =>
    match parseFile (convertCallback lx al) s gen with
    | (st, some e) => (.error e, st.out)
    | (st, none) =>
      match st.user.stack.takeTreeAndClear with
      | .ok (t, _) => (.ok t, st.out)
      | .error e => (.error e, st.out)

/-- the lines given to `parseFile` -/
def generator (nosplit : Bool) (lines : List Str) : List (Nat × Str) × Option PyErr :=
  if nosplit then (doNotSplitRadar 0 lines, none)
  else
    let (ys, e, _) := splitRadar 1 lines
    (ys, e)

/-- mpc80coltoxml.py:1003-1016 `mpc80coltoxml`.  `content` is the decoded text of the input file.  If anything is raised during the first
    attempt, the exception is printed and the file is read again for a syntax check only.  The final report of split lines is
    `splitReport`. -/
def mpc80coltoxml (lx : Lxml) (al : Allowed) (nosplit : Bool) (content : Str) : Outcome :=
  let gen := generator nosplit (Psv.fileLines (Psv.universalNewlines content))
  match attempt lx al gen with
  | (.ok t, out) => ⟨some t, out, none⟩
  | (.error e, out) =>
    let (st, e') := parseFile noCallback () gen
    ⟨none, out ++ [.stopped e] ++ st.out, e'⟩

/-- mpc80coltoxml.py:1018-1026: the report printed at the end of `mpc80coltoxml` if it gets there and lines were split: `nSplit`, the last `lineNumber` (which is the number
    of lines, :966, :998, :1001) and `splitLines` -/
def splitReport (lx : Lxml) (al : Allowed) (nosplit : Bool) (content : Str) : Option (Nat × Nat × List Nat) :=
  let lines := Psv.fileLines (Psv.universalNewlines content)
  if (mpc80coltoxml lx al nosplit content).raised.isSome || nosplit then none
  else
    let (_, _, k) := splitRadar 1 lines
    if k = [] then none else some (k.length, lines.length, k)

end Verif.Mpc80
