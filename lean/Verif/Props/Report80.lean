import Verif.Lemmas.Report80
import Verif.Props.Mpc80Document
/-!
  C55: what `mpc80coltoxml` prints about a file, and what becomes of a conversion that is stopped.

  `Spec.Report80` describes the messages line by line (`Told`).
-/
set_option linter.unusedSimpArgs false
namespace Verif
open Verif.Mpc80 Verif.PackUtil Verif.Spec.Report80 Verif.Xml

theorem Report80.callMsgs_convert {lx : Lxml} {al : Allowed} (u : CState) (item : Item) (n : Nat) :
    callMsgs (convertCallback lx al) u item n = [] ∨ callMsgs (convertCallback lx al) u item n = [.noAltitude n] ∨ callMsgs (convertCallback lx al) u item n = [.refused n] := by
  unfold callMsgs convertCallback
  cases convertit lx al item u with
  | ok skipped s => cases skipped <;> simp
  | error e s => by_cases he : e = .runtimeError <;> simp [he]



/-- why a conversion is stopped by the exception `e`, `s0` being the state at the start: by converting one of the items that reading the file gives, by reading it, or at the end -/
def Reason (lx : Lxml) (al : Allowed) (s0 : CState) (gen : List (Nat × Str) × Option PyErr) (e : PyErr) : Prop :=
  let read := parseFile logCallback [] gen
  let converted := runCalls (convertCallback lx al) s0 read.1.user
  converted.2 = some e ∧ e ≠ .runtimeError ∨ converted.2 = none ∧ read.2 = some e ∨ converted.2 = none ∧ read.2 = none ∧ converted.1.stack.takeTreeAndClear = .error e

namespace Report80

theorem quiet (l : List (Item × Nat)) : (runCalls noCallback () l).2 = none := by
  induction l with
  | nil => rfl
  | cons x l ih => simpa [runCalls, noCallback] using ih

theorem notRT {σ : Type} {cb : Callback σ} : ∀ (l : List (Item × Nat)) (u : σ) (x : PyErr), (runCalls cb u l).2 = some x → x ≠ .runtimeError := by
  intro l
  induction l with
  | nil => intro u x h; simp [runCalls] at h
  | cons y l ih =>
    obtain ⟨item, n⟩ := y
    intro u x h
    rw [runCalls] at h
    split at h
    · exact ih _ x h
    · rename_i e' he'
      by_cases hr : e' = .runtimeError
      · rw [if_pos hr] at h; exact ih _ x h
      · rw [if_neg hr] at h
        simp only [Option.some.injEq] at h
        subst h
        exact hr

theorem reason_stop {lx : Lxml} {al : Allowed} {s0 : CState} {gen : List (Nat × Str) × Option PyErr} {st : PState CState} {e : PyErr} (h : parseFile (convertCallback lx al) s0 gen = (st, some e)) :
    Reason lx al s0 gen e := by
  have hc := (C25_callback (convertCallback lx al) s0 gen).2
  rw [h] at hc
  simp only at hc
  unfold Reason
  cases hr : (runCalls (convertCallback lx al) s0 (parseFile logCallback [] gen).1.user).2 with
  | some x =>
    rw [hr] at hc
    injection hc with hc
    subst hc
    exact .inl ⟨hr, notRT _ _ _ hr⟩
  | none =>
    rw [hr] at hc
    exact .inr (.inl ⟨hr, hc.symm⟩)

theorem reason_end {lx : Lxml} {al : Allowed} {s0 : CState} {gen : List (Nat × Str) × Option PyErr} {st : PState CState} {e : PyErr} (h : parseFile (convertCallback lx al) s0 gen = (st, none))
    (ht : st.user.stack.takeTreeAndClear = .error e) : Reason lx al s0 gen e := by
  obtain ⟨hu, hc⟩ := C25_callback (convertCallback lx al) s0 gen
  rw [h] at hc hu
  simp only at hc hu
  unfold Reason
  cases hr : (runCalls (convertCallback lx al) s0 (parseFile logCallback [] gen).1.user).2 with
  | some x => rw [hr] at hc; simp at hc
  | none =>
    rw [hr] at hc
    exact .inr (.inr ⟨hr, hc.symm, by rw [← hu]; exact ht⟩)

theorem core (lx : Lxml) (al : Allowed) (nosplit : Bool) (content : Str) :
    ∃ (told : List Told) (later : List Msg),
      told.map (·.line) = ((generator nosplit (Psv.fileLines (Psv.universalNewlines content))).1.map (·.1)).take told.length ∧
      (∀ t ∈ told, (∀ m ∈ t.reading, About t.line m) ∧ t.Converted) ∧
      (∀ s0, convertitPreamble lx = .ok s0 →
        told.flatMap (·.converting) = callsOut (convertCallback lx al) s0 (parseFile logCallback [] (generator nosplit (Psv.fileLines (Psv.universalNewlines content)))).1.user) ∧
      ((∃ doc, mpc80coltoxml lx al nosplit content = ⟨some doc, all told, none⟩ ∧ told.length = (generator nosplit (Psv.fileLines (Psv.universalNewlines content))).1.length ∧ later = [])
      ∨ ∃ e, mpc80coltoxml lx al nosplit content = ⟨none, all told ++ [.stopped e] ++ (readings told ++ later), (parseFile noCallback () (generator nosplit (Psv.fileLines (Psv.universalNewlines content)))).2⟩
        ∧ (∀ m ∈ later, ∃ x ∈ (generator nosplit (Psv.fileLines (Psv.universalNewlines content))).1.drop told.length, About x.1 m) ∧ (∀ s0, convertitPreamble lx = .ok s0 → Reason lx al s0 (generator nosplit (Psv.fileLines (Psv.universalNewlines content))) e)) := by
  generalize hg : generator nosplit (Psv.fileLines (Psv.universalNewlines content)) = gen
  have hrun : mpc80coltoxml lx al nosplit content = match attempt lx al gen with
      | (.ok t, out) => ⟨some t, out, none⟩
      | (.error e, out) => ⟨none, out ++ [.stopped e] ++ (parseFile noCallback () gen).1.out, (parseFile noCallback () gen).2⟩ := by
    unfold mpc80coltoxml
    rw [hg]
    rfl
  rw [hrun]
  cases hp : convertitPreamble lx with
  | error e =>
    obtain ⟨later, h1, h2⟩ := loop_grows gen.2 gen.1 ⟨c! "None", [], (), []⟩
    refine ⟨[], later, by simp, by simp, fun s0 h => by simp at h, .inr ⟨e, ?_, by simpa using h2, fun s0 h => by simp at h⟩⟩
    simp only [attempt, hp, all, readings, List.flatMap_nil]
    unfold parseFile
    rw [h1]
  | ok s0 =>
    obtain ⟨calls, k0, told, later, k1, k2, k3, k3', k4, k5, k6, k6', k7⟩ := loop_tells (convertCallback lx al) gen.2 gen.1 ⟨c! "None", [], s0, []⟩ ⟨c! "None", [], (), []⟩ ⟨c! "None", [], [], []⟩ rfl rfl rfl rfl
    simp only [List.nil_append] at k1 k2
    have e1 : (parseFile (convertCallback lx al) s0 gen).1.out = all told := k1
    have e2 : (parseFile noCallback () gen).1.out = readings told ++ later := k2
    refine ⟨told, later, k3, fun t ht => ⟨k4 t ht, ?_⟩, ?_, ?_⟩
    · rcases k5 t ht with h | ⟨u, item, h⟩
      · exact .inl h
      · unfold Told.Converted
        rw [h]
        exact Report80.callMsgs_convert u item t.line
    · intro s0' h
      injection h with h; subst h
      rw [k6]
      simp only [List.nil_append] at k0
      unfold parseFile
      rw [k0]
    · rcases hq : parseFile (convertCallback lx al) s0 gen with ⟨st, _ | e⟩
      · rw [hq] at e1
        simp only at e1
        cases ht : st.user.stack.takeTreeAndClear with
        | ok x =>
          obtain ⟨h1, h2, -⟩ := k7 (by show (parseFile (convertCallback lx al) s0 gen).2 = none; rw [hq])
          exact .inl ⟨x.1, by simp only [attempt, hp, hq, ht, e1], h2, h1⟩
        | error e =>
          refine .inr ⟨e, by simp only [attempt, hp, hq, ht, e1, e2], k6', fun s0' h => ?_⟩
          injection h with h; subst h
          exact reason_end hq ht
      · rw [hq] at e1
        simp only at e1
        refine .inr ⟨e, by simp only [attempt, hp, hq, e1, e2], k6', fun s0' h => ?_⟩
        injection h with h; subst h
        exact reason_stop hq

end Report80

/-- **C55.** There is something to say (possibly nothing) about each line, in order, up to the line where the conversion is stopped.  If it is not stopped a document is written and
    just this is printed.  If it is stopped nothing is written; after what was said about the lines up to there the exception is printed, and then what reading alone has to say about all
    lines that can be read: about those up to there the same as before, and then about lines after them. -/
theorem C55_report (lx : Lxml) (al : Allowed) (nosplit : Bool) (content : Str) :
    ∃ (told : List Told) (later : List Msg),
      told.map (·.line) = ((generator nosplit (Psv.fileLines (Psv.universalNewlines content))).1.map (·.1)).take told.length ∧
      (∀ t ∈ told, (∀ m ∈ t.reading, About t.line m) ∧ t.Converted) ∧
      (∀ s0, convertitPreamble lx = .ok s0 →
        told.flatMap (·.converting) = callsOut (convertCallback lx al) s0 (parseFile logCallback [] (generator nosplit (Psv.fileLines (Psv.universalNewlines content)))).1.user) ∧
      ((∃ doc, mpc80coltoxml lx al nosplit content = ⟨some doc, all told, none⟩ ∧ told.length = (generator nosplit (Psv.fileLines (Psv.universalNewlines content))).1.length ∧ later = [])
      ∨ ∃ e, mpc80coltoxml lx al nosplit content = ⟨none, all told ++ [.stopped e] ++ (readings told ++ later), (parseFile noCallback () (generator nosplit (Psv.fileLines (Psv.universalNewlines content)))).2⟩
        ∧ ∀ m ∈ later, ∃ x ∈ (generator nosplit (Psv.fileLines (Psv.universalNewlines content))).1.drop told.length, About x.1 m) := by
  obtain ⟨told, later, h1, h2, hk, h | ⟨e, h3, h4, -⟩⟩ := Report80.core lx al nosplit content
  · exact ⟨told, later, h1, h2, hk, .inl h⟩
  · exact ⟨told, later, h1, h2, hk, .inr ⟨e, h3, h4⟩⟩

/-- **C55.** A document is written exactly if no exception is reported. -/
theorem C55_document_or_exception (lx : Lxml) (al : Allowed) (nosplit : Bool) (content : Str) :
    (mpc80coltoxml lx al nosplit content).doc = none ↔ ∃ e, .stopped e ∈ (mpc80coltoxml lx al nosplit content).out := by
  obtain ⟨told, later, -, hm, -, ⟨doc, h, -⟩ | ⟨e, h, -⟩⟩ := C55_report lx al nosplit content
  · rw [h]
    constructor
    · intro h; simp at h
    · rintro ⟨e, he⟩
      obtain ⟨t, ht, he⟩ := List.mem_flatMap.1 he
      rcases List.mem_append.1 he with he | he
      · exact absurd ((hm t ht).1 _ he) (by simp [About])
      · rcases (hm t ht).2 with h | h | h <;> rw [h] at he <;> simp at he
  · rw [h]; exact ⟨fun _ => ⟨e, by simp⟩, fun _ => rfl⟩

/-- **C55.** The exception that is printed was raised when an item was converted (then it is not a RuntimeError), or when a line was read, or at the end; and the program ends with an exception
    exactly if the lines cannot all be read: with that exception.  So a conversion stopped by what a line says ends normally, without a document. -/
theorem C55_why (lx : Lxml) (al : Allowed) {s0 : CState} (h0 : convertitPreamble lx = .ok s0) (nosplit : Bool) (content : Str) {e : PyErr} (h : .stopped e ∈ (mpc80coltoxml lx al nosplit content).out) :
    Reason lx al s0 (generator nosplit (Psv.fileLines (Psv.universalNewlines content))) e ∧
    (mpc80coltoxml lx al nosplit content).raised = (parseFile logCallback [] (generator nosplit (Psv.fileLines (Psv.universalNewlines content)))).2 := by
  have hn := C25_callback noCallback () (generator nosplit (Psv.fileLines (Psv.universalNewlines content)))
  have hd := (C55_document_or_exception lx al nosplit content).2 ⟨e, h⟩
  obtain ⟨told, later, -, hm, -, ⟨doc, hr, -⟩ | ⟨e', hr, hl, hw⟩⟩ := Report80.core lx al nosplit content
  · rw [hr] at hd; simp at hd
  · have hee : e = e' := by
      rw [hr] at h
      simp only [List.mem_append, List.mem_singleton, Msg.stopped.injEq] at h
      rcases h with (h | h) | h | h
      · obtain ⟨t, ht, he⟩ := List.mem_flatMap.1 h
        rcases List.mem_append.1 he with he | he
        · exact absurd ((hm t ht).1 _ he) (by simp [About])
        · rcases (hm t ht).2 with h | h | h <;> rw [h] at he <;> simp at he
      · exact h
      · obtain ⟨t, ht, he⟩ := List.mem_flatMap.1 h
        exact absurd ((hm t ht).1 _ he) (by simp [About])
      · obtain ⟨x, -, hx⟩ := hl _ h
        exact absurd hx (by simp [About])
    subst hee
    refine ⟨hw s0 h0, ?_⟩
    rw [hr]
    simp only
    rw [hn.2, Report80.quiet]

/-! ### concrete files -/

namespace SampleReport
open Sample80

def rover : Str := c! "00433         V2020 08 19.21988321 33 06.41 -11 58 10.3                u     247\n"
/-- its second line, without an altitude -/
def place : Str := c! "00433         v2020 08 19.2198831  12.345678 -01.234567                      247\n"
/-- a reference that cannot be read -/
def badref : Str := c! "     K20Q04A* C2020 08 18.33489021 33 58.060+12 13 25.77         22.58wUeJ941F51\n"
/-- a date that does not exist -/
def baddate : Str := c! "     K20Q04A* C2020 02 30.33489021 33 58.060+12 13 25.77         22.58wU~44BVF51\n"
/-- too short -/
def short : Str := c! "short\n"

def run (l : List Str) : List Msg × Bool × Option PyErr :=
  let r := mpc80coltoxml anyLxml realAllowed true l.flatten
  (r.out, r.doc.isSome, r.raised)

/-- the messages before the reference that cannot be read are printed, too; then all lines are checked, and the program ends normally although there is no document -/
theorem C55_conversion : run [rover, place, short, badref, short] = ([.noAltitude 2, .refused 3, .stopped .valueError, .refused 3, .refused 5], false, none) := by kernel_rfl
/-- a date that does not exist stops both attempts, and the program ends with the exception -/
theorem C55_reading : run [rover, place, short, baddate, short] = ([.noAltitude 2, .refused 3, .stopped .valueError, .refused 3], false, some .valueError) := by kernel_rfl
/-- and a conversion that is not stopped -/
theorem C55_complete : run [rover, place, short, first, short] = ([.noAltitude 2, .refused 3, .refused 5], true, none) := by kernel_rfl

example : convertitPreamble anyLxml ≠ .error .valueError := by
  intro h
  have : (convertitPreamble anyLxml).toOption.isSome = true := by kernel_rfl
  rw [h] at this
  simp [Except.toOption] at this

end SampleReport

end Verif
