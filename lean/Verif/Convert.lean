import Verif.PsvToXml
import Verif.XmlToPsv
import Verif.Mpc80
import Verif.XmlToMpc80
/-
  Verif.Convert : /repo/Python/ades/convertutility.py and the way the `main` functions of the converters use it.

  The world is the files (by name, as decoded text), standard input and standard output.
  Not modelled: text encodings, files that exist but cannot be opened (permissions, directories), messages printed
  by the converters, the help texts and the other options of the argument parsers.
-/
namespace Verif.Convert
open Verif

/-- What stands in `args.input` or `args.output`: one of the two standard streams, `None`, a file name (`str` or `bytes`), or any other
    object, for example a `pathlib.Path`, whose type is not in the list of convertutility.py:38. -/
inductive Arg
  | stdin
  | stdout
  | none
  | name (s : Str)
  | other
  deriving DecidableEq

/-- Files by name; the rest of standard input, or `none` when it is closed; what was written to standard output; whether that is
    still open. -/
structure World where
  files : Str → Option Str
  stdin : Option Str
  stdout : Str
  stdoutOpen : Bool

/-- A call with effects on the world: what was done before an exception stays done. -/
abbrev IO := EStateM PyErr World

/-- `open(name, "w")`, write the text, close -/
def writeFile (name text : Str) : IO Unit :=
  modify fun w => { w with files := fun n => if n = name then some text else w.files n }

/-- `os.unlink(name)` -/
def unlink (name : Str) : IO Unit :=
  modify fun w => { w with files := fun n => if n = name then none else w.files n }

/-- the text of a file: OSError (FileNotFoundError) if it does not exist -/
def readFile (name : Str) : IO Str := do
  match (← get).files name with
  | some t => return t
  | none => throw .osError

/-- convertutility.py:29-39 `verify_filename` -/
def verifyFilename : Arg → IO (Option Str)
  | .none => return none
  | .name s => return some s
  | _ => throw .valueError

/-- convertutility.py:45-53 and 68-71: reading standard input through a text wrapper (universal newlines).  The wrapper is dropped
    when the variable is assigned again, which closes the underlying stream (CPython closes a file object that is
    no longer referenced); wrapping a closed stream is a ValueError. -/
def readStdin : IO Str := do
  match (← get).stdin with
  | none => throw .valueError
  | some t =>
    modify fun w => { w with stdin := none }
    return Psv.universalNewlines t

/-- convertutility.py:75-80: the temporary file, read in text mode, is written to standard output through a text wrapper, which
    is closed with the stream when the function returns -/
def writeStdout (text : Str) : IO Unit := do
  if (← get).stdoutOpen then
    modify fun w => { w with stdout := w.stdout ++ Psv.universalNewlines text, stdoutOpen := false }
  else throw .valueError

/-- convertutility.py:44-58: the name `call` gets for its input -/
def inputName (tmpI : Str) : Arg → IO (Option Str)
  | .stdin => do
    let t ← readStdin
    writeFile tmpI t
    return some tmpI
  | a => verifyFilename a

/-- convertutility.py:60-71: the name `call` gets for its output -/
def outputName (tmpO : Str) : Arg → IO (Option Str)
  | .stdout => return some tmpO
  | a => verifyFilename a

/-- convertutility.py:74-80: the temporary output goes to standard output if that was asked for -/
def copyOutput (tmpO : Str) (output : Arg) : IO Unit :=
  if output = .stdout then do
    let t ← readFile tmpO
    writeStdout t
  else pure ()

/-- convertutility.py:42-80: the body of the `with` statement -/
def body (tmpI tmpO : Str) (call : Option Str → Option Str → IO Unit) (input output : Arg) : IO Unit := do
  let i ← inputName tmpI input
  let o ← outputName tmpO output
  call i o
  copyOutput tmpO output

/-- convertutility.py:18-80 `call_with_files`: two temporary files with fresh names exist while the body runs and are removed
    afterwards, also after an exception. -/
def callWithFiles (tmpI tmpO : Str) (call : Option Str → Option Str → IO Unit) (input output : Arg) : IO Unit := do
  writeFile tmpI []
  writeFile tmpO []
  try body tmpI tmpO call input output
  catch e =>
    unlink tmpI
    unlink tmpO
    throw e
  unlink tmpI
  unlink tmpO

/-- convertutility.py:83-133: the positional arguments of the converters; a missing one is the standard stream.  More than two are refused by the
    parser. -/
def arguments : List Str → Option (Arg × Arg)
  | [] => some (.stdin, .stdout)
  | [i] => some (.name i, .stdout)
  | [i, o] => some (.name i, .name o)
  | _ => none

/-- A converter: from the text of the input, what it writes to the output file (`none` if it does not open it) and what it raises;
    whether it opens the output before it reads the input, and whether it opens the input (which must exist) even before that. -/
structure Conv where
  openFirst : Bool
  run : Str → Option Str × Option PyErr
  inputOpen : Bool := false

/-- reading the file that `call` was given; `open(None)` is a TypeError -/
def readNamed : Option Str → IO Str
  | none => throw .typeError
  | some n => readFile n

/-- writing the file that `call` was given -/
def writeNamed (n : Option Str) (text : Str) : IO Unit :=
  match n with
  | none => throw .typeError
  | some n => writeFile n text

/-- what `run` writes and raises -/
def finish (o : Option Str) : Option Str × Option PyErr → IO Unit
  | (none, none) => return
  | (none, some e) => throw e
  | (some t, none) => writeNamed o t
  | (some t, some e) => do writeNamed o t; throw e

/-- `open(o, "w")` before the input is read, or nothing -/
def Conv.openOutput (c : Conv) (o : Option Str) : IO Unit :=
  if c.openFirst then writeNamed o [] else pure ()

/-- `open(i)` before the output is opened, or nothing -/
def Conv.openInput (c : Conv) (i : Option Str) : IO Unit :=
  if c.inputOpen then do
    let _ ← readNamed i
    return
  else pure ()

/-- the function handed to `call_with_files`: psvtoxml.py:547, xmltopsv.py:327, mpc80coltoxml.py:1050 read first; xmltompc80col.py:480-483
    opens the output first; xmltojson.py:21 and jsontoxml.py:21 open the input, then the output, then read -/
def Conv.call (c : Conv) (i o : Option Str) : IO Unit := do
  c.openInput i
  c.openOutput o
  let t ← readNamed i
  finish o (c.run t)

/-- psvtoxml.py:521-547 in a fresh process; `ser` stands for lxml's serialisation -/
def psvToXml (ser : Xml.Elem → Str) (tab : Psv.Tab) (lx : Xml.Lxml) : Conv where
  openFirst := false
  run t :=
    match Psv.psvtoxml tab lx Psv.Globals.initial t with
    | .ok (tree, _) => (some (ser tree), none)
    | .error e => (none, some e)

/-- mpc80coltoxml.py:1000-1050: a conversion that stops writes no document (and raises only if the second, checking run does) -/
def mpc80ToXml (ser : Xml.Elem → Str) (lx : Xml.Lxml) (al : Mpc80.Allowed) (nosplit : Bool) : Conv where
  openFirst := false
  run t :=
    let r := Mpc80.mpc80coltoxml lx al nosplit t
    (r.doc.map ser, r.raised)

/-- a text file of these lines -/
def unlines (ls : List Str) : Str := ls.flatMap (· ++ ['\n'])

/-- xmltopsv.py:316-327; `parse` stands for lxml's parser.  The model of `xmltopsv` has no partial output: a conversion that raises
    leaves a truncated file, here an empty one. -/
def xmlToPsv (parse : Str → Py Xml.Elem) (tabs : Master.Tables) : Conv where
  openFirst := false
  run t :=
    match parse t with
    | .error e => (none, some e)
    | .ok root =>
      match ToPsv.xmltopsv tabs root with
      | .ok ls => (some (unlines ls), none)
      | .error e => (some [], some e)

/-- xmltompc80col.py:431-486 -/
def xmlToMpc80 (parse : Str → Py Xml.Elem) (o : ToMpc80.Opts) (tabs : Master.Tables) : Conv where
  openFirst := true
  run t :=
    match parse t with
    | .error e => (some [], some e)
    | .ok root =>
      let r := ToMpc80.xmltompc80col o tabs root
      (some (unlines r.lines), r.raised)

end Verif.Convert
