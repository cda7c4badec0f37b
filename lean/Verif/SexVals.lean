import Verif.Regex
import Verif.Float
/-
  Verif.SexVals : sexVals.py.  The counters (`_countNormal`, …) are not modelled.
-/
namespace Verif.Sex
open Verif Flt

/-- a Python number: `int` or `float` -/
inductive Num
  | int (n : Int)
  | flt (x : F64)
deriving DecidableEq

/-- the float it is converted to in arithmetic with a float (exact for the small integers used here) -/
def Num.f : Num → F64
  | .int n => ofInt n
  | .flt x => x

/-- `\d{1,2}` -/
def d12 : Re := .rep 1 (some 2) isDec

/-- sexVals.py:62 `_checkNormal` -/
def checkNormal : Re :=
  cat [star isSpace, .grp 1 d12, plus isSpace, .grp 2 d12, plus isSpace, .grp 3 (cat [d12, .cls (ch '.'), .grp 4 (star isDec)]), star isSpace, .eos]
/-- sexVals.py:63 `_checkIntegerSeconds` -/
def checkIntegerSeconds : Re :=
  cat [star isSpace, .grp 1 d12, plus isSpace, .grp 2 d12, plus isSpace, .grp 3 d12, star isSpace, .eos]
/-- sexVals.py:64 `_checkMinutesHundredths` -/
def checkMinutesHundredths : Re :=
  cat [star isSpace, .grp 1 d12, plus isSpace, .grp 2 (cat [d12, .cls (ch '.'), times 2 isDec]), star isSpace, .eos]
/-- sexVals.py:65 `_checkMinutesTenths` -/
def checkMinutesTenths : Re :=
  cat [star isSpace, .grp 1 d12, plus isSpace, .grp 2 (cat [d12, .cls (ch '.'), .cls isDec]), star isSpace, .eos]
/-- sexVals.py:66 `_checkIntegerMinutes` -/
def checkIntegerMinutes : Re :=
  cat [star isSpace, .grp 1 d12, plus isSpace, .grp 2 d12, star isSpace, .eos]

/-- what `checkSexagesimal` returns: hours or degrees, minutes, seconds, precision.  Hours, minutes and seconds are used only
    in arithmetic with floats, so they are given as floats already. -/
structure Sexa where
  hh : F64
  mm : F64
  ss : F64
  prec : Num
deriving DecidableEq

/-- a captured group as a number (`int(…)`) -/
def grpInt (m : Caps) (n : Nat) : Py F64 := do pure (ofInt (← pyNat ((group m n).getD [])))
/-- a captured group as a number (`float(…)`) -/
def grpFlt (m : Caps) (n : Nat) : Py F64 := parse ((group m n).getD [])

/-- sexVals.py:73-81 `_actionNormal`.  `10.0 ** (-d)` is taken to be the float nearest to 10^-d. -/
def actionNormal (m : Caps) : Py Sexa := do
  let hh ← grpInt m 1
  let mm ← grpInt m 2
  let ss ← grpFlt m 3
  pure ⟨hh, mm, ss, .flt (ofRat (ten (-(((group m 4).getD []).length : Int))))⟩
/-- sexVals.py:83-91 `_actionIntegerSeconds` -/
def actionIntegerSeconds (m : Caps) : Py Sexa := do
  let hh ← grpInt m 1
  let mm ← grpInt m 2
  let ss ← grpInt m 3
  pure ⟨hh, mm, ss, .int 1⟩
/-- sexVals.py:93-101 `_actionMinutesHundredths` -/
def actionMinutesHundredths (m : Caps) : Py Sexa := do
  let hh ← grpInt m 1
  let mm ← grpFlt m 2
  pure ⟨hh, mm, ofInt 0, .flt (ofRat (mkRat 6 10))⟩
/-- sexVals.py:103-111 `_actionMinutesTenths` -/
def actionMinutesTenths (m : Caps) : Py Sexa := do
  let hh ← grpInt m 1
  let mm ← grpFlt m 2
  pure ⟨hh, mm, ofInt 0, .int 6⟩
/-- sexVals.py:113-121 `_actionIntegerMinutes` -/
def actionIntegerMinutes (m : Caps) : Py Sexa := do
  let hh ← grpInt m 1
  let mm ← grpInt m 2
  pure ⟨hh, mm, ofInt 0, .int 60⟩

/-- sexVals.py:131-156 `checkSexagesimal` -/
def checkSexagesimal (line : Str) : Py Sexa :=
  match reMatch checkNormal line with
  | some m => actionNormal m
  | none =>
    match reMatch checkIntegerSeconds line with
    | some m => actionIntegerSeconds m
    | none =>
      match reMatch checkMinutesHundredths line with
      | some m => actionMinutesHundredths m
      | none =>
        match reMatch checkMinutesTenths line with
        | some m => actionMinutesTenths m
        | none =>
          match reMatch checkIntegerMinutes line with
          | some m => actionIntegerMinutes m
          | none => raiseRT

/-! ### right ascension and declination -/

/-- sexVals.py:383 `secToDegrees` -/
def secToDegrees : F64 := div (ofInt 360) (ofInt 86400)
/-- sexVals.py:384 `arcsecToDegrees` -/
def arcsecToDegrees : F64 := div (ofInt 1) (ofInt 3600)

/-- the number of decimals, sexVals.py:396-398 and 465-467: `-int(math.floor(math.log10(x)))`, at least 1
    (ValueError if x is 0, when a precision given by the caller is 0) -/
def digitsFor (x : F64) : Nat := (max 1 (-(floorLog10 x.val))).toNat

/-- sexVals.py:386-404 `sexRaToDecRa` -/
def sexRaToDecRa (sexRa : Str) : Py (Str × Num) := do
  let s ← checkSexagesimal sexRa
  let value := mul (add (add (mul s.hh (ofInt 3600)) (mul s.mm (ofInt 60))) s.ss) secToDegrees
  pure (fmtF (digitsFor (mul s.prec.f secToDegrees)) value, s.prec)

/-- `'{0:.0f}'.format(100+n)[1:]` -/
def hundred (n : Int) : Str := (fmtF 0 (ofInt (100 + n))).drop 1
/-- `'{0:.nf}'.format(100.0 + x)[1:]` -/
def hundredF (n : Nat) (x : F64) : Str := (fmtF n (add (ofInt 100) x)).drop 1

/-- `-int(math.log10(prec))` as a number of decimals: ValueError if prec is not positive (math domain error) or the number of
    decimals would be negative (not a format) -/
def precDigits (prec : Num) : Py Nat :=
  if prec.f.val ≤ 0 then .error .valueError
  else
    let p := -(truncLog10 prec.f.val)
    if p < 0 then .error .valueError else .ok p.toNat

/-- sexVals.py:406-432 `decRaToSexRa` -/
def decRaToSexRa (decRa : Str) (prec : Num) : Py Str := do
  let rev := div (← parse decRa) secToDegrees
  let revDeg := trunc (div rev (ofInt 3600))
  let rev := sub rev (mul (ofInt revDeg) (ofInt 3600))
  if prec.f = ofRat (mkRat 6 10) then pure (ljust 12 (hundred revDeg ++ [' '] ++ hundredF 2 (div rev (ofInt 60))))
  else if prec.f = ofInt 6 then pure (ljust 12 (hundred revDeg ++ [' '] ++ hundredF 1 (div rev (ofInt 60))))
  else if prec.f = ofInt 60 then pure (ljust 12 (hundred revDeg ++ [' '] ++ hundredF 0 (div rev (ofInt 60))))
  else do
    let revMin := trunc (div rev (ofInt 60))
    let rev := sub rev (mul (ofInt revMin) (ofInt 60))
    let pdig ← precDigits prec
    pure (ljust 12 (hundred revDeg ++ [' '] ++ hundred revMin ++ [' '] ++ hundredF pdig rev))

/-- sexVals.py:434-446 `checkRa`: the text for `ra` and the value for `precRA` -/
def checkRa (ra : Str) : Py (Str × Num) := do
  let (decRa, prec) ← sexRaToDecRa ra
  let revstr ← decRaToSexRa decRa prec
  if revstr ≠ ra then raiseRT else pure (decRa, prec)

/-- sexVals.py:448-472 `sexDeclToDecDecl` (IndexError on the empty string) -/
def sexDeclToDecDecl (sexDec : Str) : Py (Str × Num) := do
  match sexDec with
  | [] => .error .indexError
  | sign :: rest =>
    if sign ≠ '+' ∧ sign ≠ '-' then raiseRT
    else do
      let s ← checkSexagesimal rest
      let value := mul (if sign = '-' then neg (ofInt 1) else ofInt 1)
        (add (add s.hh (div s.mm (ofInt 60))) (div s.ss (ofInt 3600)))
      pure (fmtF (digitsFor (mul s.prec.f arcsecToDegrees)) value, s.prec)

/-- sexVals.py:474-504 `degDeclToSexDecl` -/
def degDeclToSexDecl (sexDecl : Str) (prec : Num) : Py Str := do
  let rev := div (← parse sexDecl) arcsecToDegrees
  let minus := rev.val < 0 ∨ sexDecl.head? = some '-'
  let revSign : Str := if minus then ['-'] else ['+']
  let rev := if rev.val < 0 then neg rev else rev
  let revDeg := trunc (div rev (ofInt 3600))
  let rev := sub rev (mul (ofInt revDeg) (ofInt 3600))
  if prec.f = ofRat (mkRat 6 10) then pure (ljust 12 (revSign ++ hundred revDeg ++ [' '] ++ hundredF 2 (div rev (ofInt 60))))
  else if prec.f = ofInt 6 then pure (ljust 12 (revSign ++ hundred revDeg ++ [' '] ++ hundredF 1 (div rev (ofInt 60))))
  else if prec.f = ofInt 60 then pure (ljust 12 (revSign ++ hundred revDeg ++ [' '] ++ hundredF 0 (div rev (ofInt 60))))
  else do
    let revMin := trunc (div (add rev (mul (ofRat (mkRat 1 2)) prec.f)) (ofInt 60))
    let rev := sub rev (mul (ofInt revMin) (ofInt 60))
    let pdig ← precDigits prec
    pure (ljust 12 (revSign ++ hundred revDeg ++ [' '] ++ hundred revMin ++ [' '] ++ hundredF pdig rev))

/-- sexVals.py:506-523 `checkDec`: the text for `dec` and the value for `precDec` -/
def checkDec (dec : Str) : Py (Str × Num) := do
  let (decDeg, prec) ← sexDeclToDecDecl dec
  let revstr ← degDeclToSexDecl decDeg prec
  if revstr ≠ dec then raiseRT else pure (decDeg, prec)

/-! ### dates -/

/-- sexVals.py:174 `_checkDate` (groups: 1 year, 2 month, 3 day, 4 fractional_day; `century` and `days` are not used) -/
def checkDateRe : Re :=
  cat [.grp 1 (cat [alts [lit ['1', '6'], lit ['1', '7'], lit ['1', '8'], lit ['1', '9'], cat [.cls (rng '2' '9'), .cls isDec]],
      .cls isDec, .cls isDec]),
    .cls (ch ' '),
    .grp 2 (alts [cat [.cls (ch '0'), .cls (rng '1' '9')], lit ['1', '0'], lit ['1', '1'], lit ['1', '2']]),
    .cls (ch ' '),
    .grp 3 (alts [cat [.cls (ch '0'), .cls (rng '1' '9')], cat [.cls (oneOf ['1', '2']), .cls isDec], lit ['3', '0'], lit ['3', '1']]),
    .cls (ch '.'), .grp 4 (plus isDec), star (ch ' '), .eos]

/-- the proleptic Gregorian leap year rule of `datetime` -/
def isLeap (y : Nat) : Bool := y % 4 == 0 && (y % 100 != 0 || y % 400 == 0)

/-- the number of days in a month -/
def daysIn (y m : Nat) : Nat :=
  if m = 2 then (if isLeap y then 29 else 28) else if m = 4 ∨ m = 6 ∨ m = 9 ∨ m = 11 then 30 else 31

/-- a `datetime` -/
structure DateTime where
  year : Nat
  month : Nat
  day : Nat
  /-- microseconds since midnight -/
  us : Nat
deriving DecidableEq

/-- `datetime(year, month, day)`: ValueError for dates that do not exist -/
def mkDate (y m d : Nat) : Py DateTime :=
  if 1 ≤ y ∧ y ≤ 9999 ∧ 1 ≤ m ∧ m ≤ 12 ∧ 1 ≤ d ∧ d ≤ daysIn y m then .ok ⟨y, m, d, 0⟩ else .error .valueError

/-- `dt + timedelta(days=1)`: OverflowError past the year 9999 -/
def nextDay (t : DateTime) : Py DateTime :=
  if t.day < daysIn t.year t.month then .ok { t with day := t.day + 1 }
  else if t.month < 12 then .ok { t with month := t.month + 1, day := 1 }
  else if t.year < 9999 then .ok { t with year := t.year + 1, month := 1, day := 1 }
  else .error .overflowError

/-- microseconds in a day -/
def dayUs : Nat := 86400000000

/-- `datetime(y, m, d) + timedelta(...)` for a `timedelta` of `us` microseconds, 0 ≤ us < 2 days.
    Simplification: longer time differences do not occur (the fraction of a day is at most 1 after rounding). -/
def addUs (t : DateTime) (us : Nat) : Py DateTime :=
  if t.us + us < dayUs then .ok { t with us := t.us + us }
  else do
    let t' ← nextDay t
    .ok { t' with us := t.us + us - dayUs }

/-- `timedelta(seconds=x)` in microseconds, x ≥ 0: whole seconds exactly, the fraction times 1e6 (a float operation) rounded
    half to even (CPython `accum` and `microseconds_to_delta`) -/
def timedeltaUs (x : F64) : Nat :=
  let w := x.mag.floor.toNat
  w * 1000000 + roundEven (rnd (1000000 * (x.mag - w)))

/-- two digits (`%m`, `%d`, `%H`, `%M`, `%S`) -/
def two2 (n : Nat) : Str := zfill 2 n

/-- `dt.strftime("%Y-%m-%dT%H:%M:%S")` (`%Y` as glibc writes it, without padding) -/
def isoSeconds (t : DateTime) : Str :=
  natStr t.year ++ ['-'] ++ two2 t.month ++ ['-'] ++ two2 t.day ++ ['T'] ++ two2 (t.us / 3600000000) ++ [':'] ++
    two2 (t.us / 60000000 % 60) ++ [':'] ++ two2 (t.us / 1000000 % 60)

/-- the number of decimals of the seconds, sexVals.py:277-306.  `n` is the number of digits of the fraction of a day;
    2 − log10(10^(6−n)) is n − 4. -/
def secondsDigits (intsec microsec mpcRounding : Bool) (n : Nat) : Nat :=
  if intsec then 0 else if microsec then 6 else if mpcRounding then 3 else min (n - 4) 6

/-- sexVals.py:223-324 `sexDateToISO`.  The second component is `prec`, 10.0**(6−n), an `int` if at least 1. -/
def sexDateToISO (sexDate : Str) (intsec microsec : Bool := false) (mpcRounding : Bool := true) : Py (Str × Num × Str) := do
  match reMatch checkDateRe sexDate with
  | none => raiseRT
  | some m =>
    let year ← pyNat ((group m 1).getD [])
    let month ← pyNat ((group m 2).getD [])
    let day ← pyNat ((group m 3).getD [])
    let frac := (group m 4).getD []
    let oldfracdd := '.' :: frac
    let seconds := mul (← parse oldfracdd) (ofInt 86400)
    let n := frac.length
    let prec : Num := if n ≤ 6 then .int (10 ^ (6 - n)) else .flt (ofRat (ten (6 - (n : Int))))
    let digits := secondsDigits intsec microsec mpcRounding n
    let d0 ← mkDate year month day
    if digits = 0 then do
      let dt ← addUs d0 ((Flt.round seconds).toNat * 1000000)
      pure (isoSeconds dt ++ ['Z'], prec, oldfracdd)
    else do
      let dt ← addUs d0 (timedeltaUs seconds)
      let fr := Flt.round (mul (sub seconds (ofInt (trunc seconds))) (ofInt (10 ^ digits)))
      let t := intStr fr
      pure (isoSeconds dt ++ ['.'] ++ (List.replicate (digits - t.length) '0' ++ t) ++ ['Z'], prec, oldfracdd)

/-- one character, ignoring case (ASCII letters) -/
def chI (a c : Char) : Bool := asciiLower c == asciiLower a

/-- the pattern `strptime` makes of "%Y-%m-%dT%H:%M:%S" (CPython `_strptime.TimeRE`) -/
def strptimeSecs : List Re :=
  [.grp 1 (times 4 isDec), .cls (ch '-'),
   .grp 2 (alts [cat [.cls (ch '1'), .cls (rng '0' '2')], cat [.cls (ch '0'), .cls (rng '1' '9')], .cls (rng '1' '9')]), .cls (ch '-'),
   .grp 3 (alts [cat [.cls (ch '3'), .cls (rng '0' '1')], cat [.cls (rng '1' '2'), .cls isDec], cat [.cls (ch '0'), .cls (rng '1' '9')],
     .cls (rng '1' '9'), cat [.cls (ch ' '), .cls (rng '1' '9')]]), .cls (chI 'T'),
   .grp 4 (alts [cat [.cls (ch '2'), .cls (rng '0' '3')], cat [.cls (rng '0' '1'), .cls isDec], .cls isDec]), .cls (ch ':'),
   .grp 5 (alts [cat [.cls (rng '0' '5'), .cls isDec], .cls isDec]), .cls (ch ':'),
   .grp 6 (alts [cat [.cls (ch '6'), .cls (rng '0' '1')], cat [.cls (rng '0' '5'), .cls isDec], .cls isDec])]

/-- "%Y-%m-%dT%H:%M:%S.%fZ" -/
def strptimeFrac : Re := cat (strptimeSecs ++ [.cls (ch '.'), .grp 7 (.rep 1 (some 6) (rng '0' '9')), .cls (chI 'Z')])
/-- "%Y-%m-%dT%H:%M:%SZ" -/
def strptimeWhole : Re := cat (strptimeSecs ++ [.cls (chI 'Z')])

/-- `datetime.strptime(s, fmt)`: ValueError if the pattern does not match, text remains, or there is no such date or time -/
def strptime (re : Re) (s : Str) : Py DateTime :=
  match (run re s).head? with
  | none => .error .valueError
  | some (_, rest, m) =>
    if rest ≠ [] then .error .valueError
    else do
      let g := fun n => pyInt ((group m n).getD [])
      let y ← g 1
      let mo ← g 2
      let d ← g 3
      let h ← g 4
      let mi ← g 5
      let sec ← g 6
      let f := (group m 7).getD []
      let us ← pyNat (f ++ List.replicate (6 - f.length) '0')
      let t ← mkDate y.toNat mo.toNat d.toNat
      if sec ≤ 59 then .ok { t with us := (h.toNat * 3600 + mi.toNat * 60 + sec.toNat) * 1000000 + us } else .error .valueError

/-- sexVals.py:326-361 `isoToSexDate` -/
def isoToSexDate (isodate : Str) (prec : Num) : Py Str := do
  let dt ← match strptime strptimeFrac isodate with
    | .ok t => Except.ok t
    | .error .valueError => strptime strptimeWhole isodate
    | .error e => .error e
  let secs := dt.us / 1000000
  let us := dt.us % 1000000
  let fracdd := add (div (ofInt secs) (ofInt 86400)) (div (div (ofInt us) (ofInt 86400)) (ofInt 1000000))
  if prec.f.val ≤ 0 then .error .valueError
  else
    let k := 6 - truncLog10 prec.f.val
    let digits : Nat := if k ≤ 0 then 1 else k.toNat
    let frac := ((fmtF digits fracdd).dropWhile (· ≠ '.')).drop 1
    pure (natStr dt.year ++ [' '] ++ two2 dt.month ++ [' '] ++ two2 dt.day ++ ['.'] ++ ljust 6 frac)

/-- sexVals.py:364-380 `checkDate`: the text for `obsTime` and the value for `precTime` -/
def checkDate (date : Str) (radar : Bool := false) : Py (Str × Num) := do
  let (dateiso, prec, _) ← sexDateToISO date radar
  if prec.f.val < 1 then raiseRT
  else do
    let sexdate ← isoToSexDate dateiso prec
    if sexdate ≠ date then raiseRT else pure (dateiso, prec)

end Verif.Sex
