import Verif.Lemmas.Convert
/-
  C35: where the input of a converter comes from and where its output goes.

  `c : Conv` is any converter: from the text it reads to the text it writes and the exception it raises, if any.  The
  temporary names `a`, `b` are any two names that are not in use.
-/
namespace Verif
open Verif.Convert

/-- File names for both: exactly the named output is written, whether the converter raises or not; the standard streams are not used. -/
theorem C35_named (c : Conv) (w : World) {a b i o t : Str} (hf : Fresh w a b) (ha : o ≠ a) (hb : o ≠ b)
    (hi : w.files i = some t) (hs : c.openFirst = true → i ≠ o) :
    result (callWithFiles a b c.call (.name i) (.name o)) w = ((c.run t).2, w.after c o t) := by
  obtain ⟨ia, ib⟩ := fresh_ne hf hi
  have h2 := call_eq c (w := inside w a b) (i := i) (o := o) (t := t) (by rw [inside_file ia ib, hi]) hs
  rw [with_eq (body_named (input_name a i _) h2), after_del hf c ha hb]

/-- Standard input instead of a file: the converter gets the text with its line ends made `\n`, the named output is written, and
    standard input is closed. -/
theorem C35_from_stdin (c : Conv) (w : World) {a b o t : Str} (hf : Fresh w a b) (ha : o ≠ a) (hb : o ≠ b) (hi : w.stdin = some t) :
    result (callWithFiles a b c.call .stdin (.name o)) w
      = ((c.run (Psv.universalNewlines t)).2, { w with stdin := none }.after c o (Psv.universalNewlines t)) := by
  have h1 := input_std (a := a) (w := inside w a b) (t := t) hi
  have h2 := call_eq c (w := ({ inside w a b with stdin := none } : World).write a (Psv.universalNewlines t)) (i := a) (o := o)
    (t := Psv.universalNewlines t) (by simp [World.write]) (fun _ => Ne.symm ha)
  rw [with_eq (body_named h1 h2)]
  congr 1
  have hf' : Fresh { w with stdin := none } a b := ⟨hf.noA, hf.noB, hf.ne⟩
  rw [← after_del hf' c ha hb]
  rw [World.after, World.after]
  have e : ((({ inside w a b with stdin := none } : World).write a (Psv.universalNewlines t)).del a)
      = (inside { w with stdin := none } a b).del a := by
    rw [del_same]; rfl
  cases c.written (Psv.universalNewlines t) with
  | none => exact congrArg (fun x : World => x.del b) e
  | some x =>
    show ((World.write _ o x).del a).del b = ((World.write _ o x).del a).del b
    rw [del_write _ ha, del_write _ ha, e]

/-- what a call with standard output leaves there: the converted text (line ends made `\n`) if the converter did not raise, nothing otherwise -/
def Convert.World.shown (w : World) (c : Conv) (t : Str) : World :=
  match (c.run t).2 with
  | some _ => w
  | none => { w with stdout := w.stdout ++ Psv.universalNewlines ((c.written t).getD []), stdoutOpen := false }

/-- Standard output instead of a file: no file is created, changed or removed. -/
theorem C35_to_stdout (c : Conv) (w : World) {a b i t : Str} (hf : Fresh w a b) (hi : w.files i = some t) (ho : w.stdoutOpen = true) :
    result (callWithFiles a b c.call (.name i) .stdout) w = ((c.run t).2, w.shown c t) := by
  obtain ⟨ia, ib⟩ := fresh_ne hf hi
  have h2 := call_eq c (w := inside w a b) (i := i) (o := b) (t := t) (by rw [inside_file ia ib, hi]) (fun _ => ib)
  have h3 : ((inside w a b).after c b t).files b = some ((c.written t).getD []) := by
    rw [World.after]
    cases c.written t <;> simp [World.write, inside]
  have h4 : ((inside w a b).after c b t).stdoutOpen = true := by
    rw [World.after]
    cases c.written t <;> exact ho
  have h5 : (((inside w a b).after c b t).del a).del b = w := by
    rw [World.after]
    cases c.written t with
    | none => exact inside_del hf
    | some x =>
      show ((World.write _ b x).del a).del b = _
      rw [del_write _ (Ne.symm hf.ne), del_same, inside_del hf]
  rw [with_eq (body_std (input_name a i _) h2 h3 h4)]
  congr 1
  rw [World.shown]
  rw [copied.eq_def]
  cases (c.run t).2 with
  | some e => exact h5
  | none =>
    conv => rhs; rw [← h5]
    rfl

/-- Both standard streams, as with no arguments at all. -/
theorem C35_pipe (c : Conv) (w : World) {a b t : Str} (hf : Fresh w a b) (hi : w.stdin = some t) (ho : w.stdoutOpen = true) :
    result (callWithFiles a b c.call .stdin .stdout) w
      = ((c.run (Psv.universalNewlines t)).2, { w with stdin := none }.shown c (Psv.universalNewlines t)) := by
  generalize hu : Psv.universalNewlines t = u
  have h1 := input_std (a := a) (w := inside w a b) (t := t) hi
  rw [hu] at h1
  generalize hv : ({ inside w a b with stdin := none } : World).write a u = v at h1
  have h2 := call_eq c (w := v) (i := a) (o := b) (t := u) (by simp [← hv, World.write]) (fun _ => hf.ne)
  have h3 : (v.after c b u).files b = some ((c.written u).getD []) := by
    rw [World.after]
    cases c.written u with
    | none => simp [← hv, World.write, inside, Ne.symm hf.ne]
    | some x => simp [World.write]
  have h4 : (v.after c b u).stdoutOpen = true := by
    rw [World.after]
    cases c.written u <;> (rw [← hv]; exact ho)
  have h0 : (v.del a).del b = { w with stdin := none } := by
    rw [← hv, del_same]
    have hf' : Fresh { w with stdin := none } a b := ⟨hf.noA, hf.noB, hf.ne⟩
    exact inside_del hf'
  have h5 : ((v.after c b u).del a).del b = { w with stdin := none } := by
    rw [World.after]
    cases c.written u with
    | none => exact h0
    | some x =>
      show ((World.write _ b x).del a).del b = _
      rw [del_write _ (Ne.symm hf.ne), del_same, h0]
  rw [with_eq (body_std h1 h2 h3 h4)]
  congr 1
  rw [World.shown]
  rw [copied.eq_def]
  cases (c.run u).2 with
  | some e => exact h5
  | none =>
    conv => rhs; rw [← h5]
    rfl

/-- The temporary files are gone after every call, whatever was called and whatever it did. -/
theorem C35_no_leftovers (call : Option Str → Option Str → Convert.IO Unit) (x y : Arg) (w : World) (a b : Str) :
    let w' := (result (callWithFiles a b call x y) w).2
    w'.files a = none ∧ w'.files b = none := by
  intro w'
  have : ∃ e v, body a b call x y (inside w a b) = outcome e v := by
    cases h : body a b call x y (inside w a b) with
    | ok u v => exact ⟨none, v, rfl⟩
    | error e v => exact ⟨some e, v, rfl⟩
  obtain ⟨e, v, h⟩ := this
  simp only [w', with_eq h]
  simp [World.del]

/-- An input that is neither a name nor standard input is refused and nothing is done: `call` does not run.  The same holds for
    the output when the input is a name. -/
theorem C35_not_a_name (call : Option Str → Option Str → Convert.IO Unit) (w : World) {a b : Str} (hf : Fresh w a b) :
    (∀ x y, x = .other ∨ x = .stdout → result (callWithFiles a b call x y) w = (some .valueError, w))
    ∧ (∀ i y, y = .other ∨ y = .stdin → result (callWithFiles a b call (.name i) y) w = (some .valueError, w)) := by
  constructor
  · intro x y hx
    have h : body a b call x y (inside w a b) = outcome (some .valueError) (inside w a b) := by
      rcases hx with rfl | rfl <;> rfl
    rw [with_eq h, inside_del hf]
  · intro i y hy
    have h : body a b call (.name i) y (inside w a b) = outcome (some .valueError) (inside w a b) := by
      rcases hy with rfl | rfl <;> rfl
    rw [with_eq h, inside_del hf]

/-- Standard input can be used once only: when it is closed, as it is after every call that used it (`C35_from_stdin`, `C35_pipe`), the
    call is refused and nothing is done. -/
theorem C35_stdin_once (call : Option Str → Option Str → Convert.IO Unit) (y : Arg) (w : World) {a b : Str} (hf : Fresh w a b)
    (h0 : w.stdin = none) : result (callWithFiles a b call .stdin y) w = (some .valueError, w) := by
  have h : body a b call .stdin y (inside w a b) = outcome (some .valueError) (inside w a b) := by
    have h2 : readStdin (inside w a b) = .error .valueError (inside w a b) := by
      have h3 : (get : Convert.IO World) (inside w a b) = .ok (inside w a b) (inside w a b) := rfl
      rw [readStdin, bindOk' h3, show (inside w a b).stdin = none from h0]
      rfl
    have h1 : inputName a .stdin (inside w a b) = .error .valueError (inside w a b) := by
      rw [inputName, bindErr' h2]
    rw [body, bindErr' h1]
    rfl
  rw [with_eq h, inside_del hf]

/-- A missing input file is an OSError; a converter that opens its output first (xmltompc80col) has emptied it by then, one that opens its input before that
    (xmltojson, jsontoxml) has not. -/
theorem C35_missing (c : Conv) (w : World) {a b i o : Str} (hf : Fresh w a b) (ha : o ≠ a) (hb : o ≠ b) (ia : i ≠ a) (ib : i ≠ b)
    (hi : w.files i = none) (hs : i ≠ o) :
    result (callWithFiles a b c.call (.name i) (.name o)) w
      = (some .osError, if c.openFirst ∧ ¬ c.inputOpen then w.write o [] else w) := by
  have h2 : c.call (some i) (some o) (inside w a b)
      = outcome (some .osError) (if c.openFirst ∧ ¬ c.inputOpen then (inside w a b).write o [] else inside w a b) :=
    call_missing c (by rw [inside_file ia ib, hi]) hs
  rw [with_eq (body_named (input_name a i _) h2)]
  congr 1
  by_cases hc : c.openFirst = true ∧ ¬ c.inputOpen = true
  case neg => rw [if_neg hc, if_neg hc]; exact inside_del hf
  · rw [if_pos hc, if_pos hc]
    show (((inside w a b).write o []).del a).del b = w.write o []
    rw [del_write _ ha, del_write _ hb, inside_del hf]

/-- The same name twice, for a converter that opens its output first (xmltompc80col, xmltojson, jsontoxml): the text of the file is lost, and
    the converter reads an empty text. -/
theorem C35_same_name_lost (c : Conv) (w : World) {a b i : Str} (hf : Fresh w a b) (ia : i ≠ a) (ib : i ≠ b) (hc : c.openFirst = true)
    (hx : c.inputOpen = true → ∃ t, w.files i = some t) :
    result (callWithFiles a b c.call (.name i) (.name i)) w = ((c.run []).2, w.after c i []) := by
  rw [with_eq (body_named (input_name a i _) (call_same c hc (fun h => by rw [inside_file ia ib]; exact hx h))), after_del hf c ia ib]

/-- psvtoxml with the same name twice replaces the file by its conversion, or leaves it as it was if the conversion raises. -/
theorem C35_psv_in_place (ser : Xml.Elem → Str) (tab : Psv.Tab) (lx : Xml.Lxml) (w : World) {a b i t : Str} (hf : Fresh w a b) (hi : w.files i = some t) :
    (∀ tree g, Psv.psvtoxml tab lx Psv.Globals.initial t = .ok (tree, g) →
      result (callWithFiles a b (psvToXml ser tab lx).call (.name i) (.name i)) w = (none, w.write i (ser tree)))
    ∧ (∀ e, Psv.psvtoxml tab lx Psv.Globals.initial t = .error e →
      result (callWithFiles a b (psvToXml ser tab lx).call (.name i) (.name i)) w = (some e, w)) := by
  obtain ⟨ia, ib⟩ := fresh_ne hf hi
  have h := C35_named (psvToXml ser tab lx) w hf ia ib hi (fun x => by simp [psvToXml] at x)
  rw [h]
  constructor
  · intro tree g e
    simp only [World.after, Conv.written, psvToXml, e]
  · intro e he
    simp only [World.after, Conv.written, psvToXml, he]
    rfl

/-- mpc80coltoxml too: a document replaces the file, no document leaves it as it was. -/
theorem C35_mpc80_in_place (ser : Xml.Elem → Str) (lx : Xml.Lxml) (al : Mpc80.Allowed) (nosplit : Bool) (w : World) {a b i t : Str} (hf : Fresh w a b)
    (hi : w.files i = some t) :
    result (callWithFiles a b (mpc80ToXml ser lx al nosplit).call (.name i) (.name i)) w
      = ((Mpc80.mpc80coltoxml lx al nosplit t).raised,
         match (Mpc80.mpc80coltoxml lx al nosplit t).doc with
         | some d => w.write i (ser d)
         | none => w) := by
  obtain ⟨ia, ib⟩ := fresh_ne hf hi
  have h := C35_named (mpc80ToXml ser lx al nosplit) w hf ia ib hi (fun x => by simp [mpc80ToXml] at x)
  rw [h]
  simp only [World.after, Conv.written, mpc80ToXml]
  cases (Mpc80.mpc80coltoxml lx al nosplit t).doc <;> rfl

/-- xmltopsv reads its input before it opens its output; a document that cannot be parsed leaves the file as it was. -/
theorem C35_xml_in_place (parse : Str → Py Xml.Elem) (tabs : Master.Tables) (w : World) {a b i t : Str} (hf : Fresh w a b) (hi : w.files i = some t) :
    (∀ root ls, parse t = .ok root → ToPsv.xmltopsv tabs root = .ok ls →
      result (callWithFiles a b (xmlToPsv parse tabs).call (.name i) (.name i)) w = (none, w.write i (unlines ls)))
    ∧ (∀ e, parse t = .error e →
      result (callWithFiles a b (xmlToPsv parse tabs).call (.name i) (.name i)) w = (some e, w)) := by
  obtain ⟨ia, ib⟩ := fresh_ne hf hi
  have h := C35_named (xmlToPsv parse tabs) w hf ia ib hi (fun x => by simp [xmlToPsv] at x)
  rw [h]
  constructor
  · intro root ls h1 h2
    simp only [World.after, Conv.written, xmlToPsv, h1, h2]
  · intro e h1
    simp only [World.after, Conv.written, xmlToPsv, h1]
    rfl

/-- xmltompc80col does not: with the same name twice the document is lost, for every parser that refuses an empty text with `e` (as lxml does), whatever
    the file contained. -/
theorem C35_mpc80_lost (parse : Str → Py Xml.Elem) (o : ToMpc80.Opts) (tabs : Master.Tables) (w : World) {a b i : Str} (hf : Fresh w a b)
    (ia : i ≠ a) (ib : i ≠ b) {e : PyErr} (he : parse [] = .error e) :
    result (callWithFiles a b (xmlToMpc80 parse o tabs).call (.name i) (.name i)) w = (some e, w.write i []) := by
  rw [C35_same_name_lost _ w hf ia ib rfl (fun h => by simp [xmlToMpc80] at h)]
  simp only [World.after, Conv.written, xmlToMpc80, he]

/-- Missing arguments stand for the standard streams; `-` does not: it is the name of a file. -/
theorem C35_arguments (i o : Str) :
    arguments [] = some (.stdin, .stdout) ∧ arguments [i] = some (.name i, .stdout) ∧ arguments [i, o] = some (.name i, .name o)
    ∧ arguments [c! "-"] = some (.name (c! "-"), .stdout) := ⟨rfl, rfl, rfl, rfl⟩

/-- Psv files and 80-column files are read as text, so that the standard input gives what a file with the same content gives. -/
theorem C35_text_input (ser : Xml.Elem → Str) (tab : Psv.Tab) (lx : Xml.Lxml) (al : Mpc80.Allowed) (nosplit : Bool) (t : Str) :
    (psvToXml ser tab lx).run (Psv.universalNewlines t) = (psvToXml ser tab lx).run t
    ∧ (mpc80ToXml ser lx al nosplit).run (Psv.universalNewlines t) = (mpc80ToXml ser lx al nosplit).run t := by
  constructor
  · simp only [psvToXml, Psv.psvtoxml, newlines_twice]
  · simp only [mpc80ToXml, Mpc80.mpc80coltoxml, newlines_twice]

/-- ... and so do XML files for every parser that takes all line ends alike, as XML demands (XML 1.0, section 2.11). -/
theorem C35_xml_input (parse : Str → Py Xml.Elem) (hp : ∀ t, parse (Psv.universalNewlines t) = parse t) (tabs : Master.Tables) (o : ToMpc80.Opts)
    (t : Str) :
    (xmlToPsv parse tabs).run (Psv.universalNewlines t) = (xmlToPsv parse tabs).run t
    ∧ (xmlToMpc80 parse o tabs).run (Psv.universalNewlines t) = (xmlToMpc80 parse o tabs).run t := by
  constructor
  · simp only [xmlToPsv, hp]
  · simp only [xmlToMpc80, hp]

/-- A pipe and files give the same: if `t` converted from file to file leaves `x` without an exception, then standard input `t` leaves
    `x` on standard output. -/
theorem C35_pipe_like_files (c : Conv) (hc : ∀ t, c.run (Psv.universalNewlines t) = c.run t) (w : World) {a b i o t x : Str} (hf : Fresh w a b)
    (ha : o ≠ a) (hb : o ≠ b) (hi : w.files i = some t) (hio : i ≠ o) (hin : w.stdin = some t) (ho : w.stdoutOpen = true)
    (h1 : (result (callWithFiles a b c.call (.name i) (.name o)) w).1 = none)
    (h2 : (result (callWithFiles a b c.call (.name i) (.name o)) w).2.files o = some x) (hnew : w.files o = none)  :
    (result (callWithFiles a b c.call .stdin .stdout) w).1 = none
    ∧ (result (callWithFiles a b c.call .stdin .stdout) w).2 =
      { w with stdin := none, stdout := w.stdout ++ Psv.universalNewlines x, stdoutOpen := false } := by
  rw [C35_named c w hf ha hb hi (fun _ => hio)] at h1 h2
  simp only at h1 h2
  rw [C35_pipe c w hf hin ho, hc]
  refine ⟨h1, ?_⟩
  have hw : c.written (Psv.universalNewlines t) = c.written t := by simp only [Conv.written, hc]
  rw [World.shown, hc, h1, hw]
  rw [World.after] at h2
  cases he : c.written t with
  | none => rw [he] at h2; simp [hnew] at h2
  | some y =>
    rw [he] at h2
    simp [World.write] at h2
    rw [h2]
    rfl

/-! A concrete case: a converter that writes its input twice and fails on empty input. -/
namespace SampleIO

def double : Conv := ⟨false, fun t => if t.isEmpty then (some (c! "partial"), some .runtimeError) else (some (t ++ t), none), false⟩
def w0 : World := ⟨fun n => if n = c! "in" then some (c! "x\r\ny\n") else if n = c! "empty" then some [] else none, some (c! "x\r\ny\n"), [], true⟩

theorem fresh : Fresh w0 (c! "tmp1") (c! "tmp2") := ⟨by decide, by decide, by decide⟩

/-- the file gets the text with its own line ends ... -/
theorem to_file : (result (callWithFiles (c! "tmp1") (c! "tmp2") double.call (.name (c! "in")) (.name (c! "out"))) w0).2.files (c! "out")
    = some (c! "x\r\ny\nx\r\ny\n") := by decide +kernel

/-- ... a pipe makes them `\n`, on both sides ... -/
theorem to_pipe : (result (callWithFiles (c! "tmp1") (c! "tmp2") double.call .stdin .stdout) w0).2.stdout = c! "x\ny\nx\ny\n" := by decide +kernel

/-- ... and an exception leaves a file with what was written, but nothing on standard output. -/
theorem failing : (result (callWithFiles (c! "tmp1") (c! "tmp2") double.call (.name (c! "empty")) .stdout) w0).2.stdout = []
    ∧ (result (callWithFiles (c! "tmp1") (c! "tmp2") double.call (.name (c! "empty")) (.name (c! "out"))) w0).2.files (c! "out")
      = some (c! "partial") := by decide +kernel
end SampleIO
end Verif
