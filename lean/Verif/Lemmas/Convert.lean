import Verif.Spec.Convert
import Verif.Lemmas.PsvRun
/-
  Lemmas for C35 (`call_with_files`).
-/
namespace Verif
open Verif.Convert

/-- the world without the file -/
def Convert.World.del (w : World) (name : Str) : World :=
  { w with files := fun n => if n = name then none else w.files n }

theorem bindOk' {α β : Type} {m : Convert.IO α} {f : α → Convert.IO β} {w w' : World} {x : α} (h : m w = .ok x w') : (m >>= f) w = f x w' := by
  simp only [bind, EStateM.bind, h]

theorem bindErr' {α β : Type} {m : Convert.IO α} {f : α → Convert.IO β} {w w' : World} {e : PyErr} (h : m w = .error e w') : (m >>= f) w = .error e w' := by
  simp only [bind, EStateM.bind, h]

theorem readFile_ok {w : World} {n t : Str} (h : w.files n = some t) : readFile n w = .ok t w := by
  have : (get : Convert.IO World) w = .ok w w := rfl
  rw [readFile, bindOk' this, h]
  rfl

theorem readFile_err {w : World} {n : Str} (h : w.files n = none) : readFile n w = .error .osError w := by
  have : (get : Convert.IO World) w = .ok w w := rfl
  rw [readFile, bindOk' this, h]
  rfl

/-- What a conversion gave: a value of `EStateM.Result` made of the exception, if any. -/
def outcome (e : Option PyErr) (w : World) : EStateM.Result PyErr World Unit :=
  match e with
  | none => .ok () w
  | some e => .error e w

theorem writeFile_ok (w : World) (n t : Str) : writeFile n t w = .ok () (w.write n t) := rfl

theorem finish_eq (o : Str) (r : Option Str × Option PyErr) (w : World) :
    finish (some o) r w = outcome r.2 (match r.1 with | some x => w.write o x | none => w) := by
  obtain ⟨x, e⟩ := r
  cases x <;> cases e <;> rfl

theorem write_write (w : World) (o x y : Str) : (w.write o x).write o y = w.write o y := by
  unfold World.write
  congr 1
  funext n
  by_cases h : n = o <;> simp [h]

theorem openInput_ok (c : Conv) {w : World} {i : Str} (h : c.inputOpen = true → ∃ t, w.files i = some t) : c.openInput (some i) w = .ok () w := by
  rw [Conv.openInput]
  by_cases hc : c.inputOpen = true
  · obtain ⟨t, ht⟩ := h hc
    have h3 : readNamed (some i) w = .ok t w := readFile_ok ht
    rw [if_pos hc, bindOk' h3]
    rfl
  · rw [if_neg hc]; rfl

theorem call_eq (c : Conv) {w : World} {i o t : Str} (hi : w.files i = some t) (hs : c.openFirst = true → i ≠ o) :
    c.call (some i) (some o) w = outcome (c.run t).2 (w.after c o t) := by
  rw [Conv.call, bindOk' (openInput_ok c fun _ => ⟨t, hi⟩)]
  by_cases h : c.openFirst = true
  · have h1 : c.openOutput (some o) w = .ok () (w.write o []) := by
      rw [Conv.openOutput, if_pos h]; rfl
    have h2 : (w.write o []).files i = some t := by simp [World.write, hs h, hi]
    have h3 : readNamed (some i) (w.write o []) = .ok t (w.write o []) := readFile_ok h2
    rw [bindOk' h1, bindOk' h3, finish_eq]
    congr 1
    simp only [World.after, Conv.written]
    cases (c.run t).1 <;> simp [h, write_write]
  · have h1 : c.openOutput (some o) w = .ok () w := by
      rw [Conv.openOutput, if_neg h]; rfl
    have h3 : readNamed (some i) w = .ok t w := readFile_ok hi
    rw [bindOk' h1, bindOk' h3, finish_eq]
    congr 1
    simp only [World.after, Conv.written]
    cases (c.run t).1 <;> simp [h]

/-- a converter that opens its output first and reads a file of the same name reads an empty file -/
theorem call_same (c : Conv) {w : World} {i : Str} (h : c.openFirst = true) (hx : c.inputOpen = true → ∃ t, w.files i = some t) :
    c.call (some i) (some i) w = outcome (c.run []).2 (w.after c i []) := by
  have h1 : c.openOutput (some i) w = .ok () (w.write i []) := by
    rw [Conv.openOutput, if_pos h]; rfl
  have h3 : readNamed (some i) (w.write i []) = .ok [] (w.write i []) := readFile_ok (by simp [World.write])
  rw [Conv.call, bindOk' (openInput_ok c hx), bindOk' h1, bindOk' h3, finish_eq]
  congr 1
  simp only [World.after, Conv.written]
  cases (c.run []).1 <;> simp [h, write_write]

theorem call_missing (c : Conv) {w : World} {i o : Str} (hi : w.files i = none) (hs : i ≠ o) :
    c.call (some i) (some o) w = .error .osError (if c.openFirst ∧ ¬ c.inputOpen then w.write o [] else w) := by
  rw [Conv.call]
  by_cases hc : c.inputOpen = true
  · have h1 : c.openInput (some i) w = .error .osError w := by
      have h3 : readNamed (some i) w = .error .osError w := readFile_err hi
      rw [Conv.openInput, if_pos hc, bindErr' h3]
    rw [bindErr' h1, if_neg (by simp [hc])]
  rw [bindOk' (openInput_ok c fun h => absurd h hc)]
  by_cases h : c.openFirst = true
  · have h1 : c.openOutput (some o) w = .ok () (w.write o []) := by
      rw [Conv.openOutput, if_pos h]; rfl
    have h3 : readNamed (some i) (w.write o []) = .error .osError (w.write o []) := readFile_err (by simp [World.write, hs, hi])
    rw [bindOk' h1, bindErr' h3, if_pos ⟨h, hc⟩]
  · have h1 : c.openOutput (some o) w = .ok () w := by
      rw [Conv.openOutput, if_neg h]; rfl
    have h3 : readNamed (some i) w = .error .osError w := readFile_err hi
    rw [bindOk' h1, bindErr' h3, if_neg fun c => h c.1]

/-- the world in which the body of the `with` statement runs -/
def inside (w : World) (a b : Str) : World := (w.write a []).write b []

/-- the temporary files are removed -/
theorem with_eq {a b : Str} {call : Option Str → Option Str → Convert.IO Unit} {x y : Arg} {w w' : World} {e : Option PyErr}
    (h : body a b call x y (inside w a b) = outcome e w') :
    result (callWithFiles a b call x y) w = (e, (w'.del a).del b) := by
  have h1 : callWithFiles a b call x y w = outcome e ((w'.del a).del b) := by
    rw [callWithFiles, bindOk' (writeFile_ok w a []), bindOk' (writeFile_ok _ b [])]
    simp only [tryCatch, tryCatchThe, MonadExceptOf.tryCatch, EStateM.tryCatch, bind, EStateM.bind]
    rw [show (World.write (World.write w a []) b []) = inside w a b from rfl, h]
    cases e <;> rfl
  rw [result, h1]
  cases e <;> rfl

theorem del_write (w : World) {n m x : Str} (h : n ≠ m) : (w.write n x).del m = (w.del m).write n x := by
  unfold World.write World.del
  congr 1
  funext k
  by_cases h1 : k = m
  · have : k ≠ n := fun h2 => h (h2 ▸ h1)
    simp [h1, Ne.symm h]
  · simp [h1]

theorem del_same (w : World) {n x : Str} : (w.write n x).del n = w.del n := by
  unfold World.write World.del
  congr 1
  funext k
  by_cases h1 : k = n <;> simp [h1]

theorem del_none {w : World} {n : Str} (h : w.files n = none) : w.del n = w := by
  unfold World.del
  have : (fun k => if k = n then none else w.files k) = w.files := by
    funext k
    by_cases h1 : k = n
    · simp [h1, h]
    · simp [h1]
  rw [this]

theorem inside_del {w : World} {a b : Str} (hf : Fresh w a b) : ((inside w a b).del a).del b = w := by
  rw [inside, del_write _ (Ne.symm hf.ne), del_same, del_same, del_none hf.noA, del_none hf.noB]

theorem after_del {w : World} {a b : Str} (hf : Fresh w a b) (c : Conv) {o t : Str} (ha : o ≠ a) (hb : o ≠ b) :
    (((inside w a b).after c o t).del a).del b = w.after c o t := by
  rw [World.after, World.after]
  cases c.written t with
  | none => exact inside_del hf
  | some x =>
    show (((inside w a b).write o x).del a).del b = w.write o x
    rw [del_write _ ha, del_write _ hb, inside_del hf]

theorem inside_file {w : World} {a b n : Str} (ha : n ≠ a) (hb : n ≠ b) : (inside w a b).files n = w.files n := by
  simp [inside, World.write, ha, hb]

theorem outcome_bind {e : Option PyErr} {w : World} {f : Unit → Convert.IO Unit} {m : Convert.IO Unit} {v : World} (h : m v = outcome e w) :
    (m >>= f) v = match e with | none => f () w | some e => .error e w := by
  cases e with
  | none => exact bindOk' h
  | some e => exact bindErr' h

theorem fresh_ne {w : World} {a b i t : Str} (hf : Fresh w a b) (hi : w.files i = some t) : i ≠ a ∧ i ≠ b := by
  constructor
  · rintro rfl; simp [hf.noA] at hi
  · rintro rfl; simp [hf.noB] at hi

theorem input_name (a n : Str) (w : World) : inputName a (.name n) w = .ok (some n) w := rfl
theorem output_name (b n : Str) (w : World) : outputName b (.name n) w = .ok (some n) w := rfl
theorem output_std (b : Str) (w : World) : outputName b .stdout w = .ok (some b) w := rfl

theorem input_std {a : Str} {w : World} {t : Str} (h : w.stdin = some t) :
    inputName a .stdin w = .ok (some a) ({ w with stdin := none }.write a (Psv.universalNewlines t)) := by
  have h1 : readStdin w = .ok (Psv.universalNewlines t) { w with stdin := none } := by
    have : (get : Convert.IO World) w = .ok w w := rfl
    rw [readStdin, bindOk' this, h]
    rfl
  rw [inputName, bindOk' h1]
  rfl

theorem body_named {a b i o : Str} {call : Option Str → Option Str → Convert.IO Unit} {x : Arg} {w w1 w2 : World} {e : Option PyErr}
    (h1 : inputName a x w = .ok (some i) w1) (h2 : call (some i) (some o) w1 = outcome e w2) :
    body a b call x (.name o) w = outcome e w2 := by
  rw [body, bindOk' h1, bindOk' (output_name b o w1), outcome_bind h2]
  cases e <;> rfl

/-- the world after the output was copied to standard output, unless there was an exception -/
def copied (e : Option PyErr) (w : World) (y : Str) : World :=
  match e with
  | none => { w with stdout := w.stdout ++ Psv.universalNewlines y, stdoutOpen := false }
  | some _ => w

theorem body_std {a b i y : Str} {call : Option Str → Option Str → Convert.IO Unit} {x : Arg} {w w1 w2 : World} {e : Option PyErr}
    (h1 : inputName a x w = .ok (some i) w1) (h2 : call (some i) (some b) w1 = outcome e w2) (h3 : w2.files b = some y) (h4 : w2.stdoutOpen = true) :
    body a b call x .stdout w = outcome e (copied e w2 y) := by
  rw [body, bindOk' h1, bindOk' (output_std b w1), outcome_bind h2]
  cases e with
  | some e => rfl
  | none =>
    show copyOutput b .stdout w2 = _
    rw [copyOutput, if_pos rfl, bindOk' (readFile_ok h3)]
    have h5 : (get : Convert.IO World) w2 = .ok w2 w2 := rfl
    rw [writeStdout, bindOk' h5, h4]
    rfl

theorem newlines_twice : ∀ s : Str, Psv.universalNewlines (Psv.universalNewlines s) = Psv.universalNewlines s := by
  have h : ∀ s : Str, '\r' ∉ Psv.universalNewlines s := by
    intro s
    fun_induction Psv.universalNewlines s with
    | case1 s ih => simp [ih]
    | case2 s h ih => simp [ih]
    | case3 c s h1 h2 ih =>
      simp only [List.mem_cons, not_or]
      exact ⟨fun e => h2 e.symm, ih⟩
    | case4 => simp
  intro s
  exact Psv.universalNewlines_id (h s)
end Verif
