import Verif.Spec.Validate
import Verif.Lemmas.Convert
/-
  Lemmas for C47.
-/
namespace Verif.Validate
open Verif Verif.Xml Verif.Spec Verif.Convert Verif.Master

/-! ### the declaration -/

theorem isSub_iff (p : Str) : ∀ (s : Str), declared.isSub p s = true ↔ ∃ x y, s = x ++ p ++ y
  | [] => by
    rw [declared.isSub]
    constructor
    · intro h
      exact ⟨[], [], by simpa using h⟩
    · rintro ⟨x, y, h⟩
      have := congrArg List.length h
      simp at this
      simp [List.eq_nil_of_length_eq_zero (show p.length = 0 by omega)]
  | c :: s => by
    rw [declared.isSub, Bool.or_eq_true, isSub_iff p s, List.isPrefixOf_iff_prefix]
    constructor
    · rintro (⟨y, h⟩ | ⟨x, y, h⟩)
      · exact ⟨[], y, by simpa using h.symm⟩
      · exact ⟨c :: x, y, by simp [h]⟩
    · rintro ⟨x, y, h⟩
      cases x with
      | nil => exact .inl ⟨y, by simpa using h.symm⟩
      | cons d x =>
        simp only [List.cons_append, List.cons.injEq] at h
        exact .inr ⟨x, y, h.2⟩

theorem declared_iff (s : Str) : declared s = true ↔ ∃ x y, s = c! "<?xml" ++ x ++ c! "?>" ++ y := by
  rw [declared, Bool.and_eq_true, isSub_iff, List.isPrefixOf_iff_prefix]
  constructor
  · rintro ⟨⟨r, h⟩, x, y, hr⟩
    subst h
    rw [List.drop_left' (by rfl)] at hr
    exact ⟨x, y, by rw [hr]; simp⟩
  · rintro ⟨x, y, h⟩
    subst h
    refine ⟨⟨x ++ c! "?>" ++ y, by simp⟩, x, y, ?_⟩
    simp

theorem firstDeclared_iff : ∀ (ls : List Str), firstDeclared ls = true ↔ ∃ before line after x y, ls = before ++ line :: after ∧ (∀ l ∈ before, strip l = []) ∧
    strip line = c! "<?xml" ++ x ++ c! "?>" ++ y
  | [] => by simp [firstDeclared]
  | l :: ls => by
    rw [firstDeclared]
    by_cases h : strip l = []
    · rw [if_neg (by simp [h]), firstDeclared_iff ls]
      constructor
      · rintro ⟨b, m, a, x, y, h1, h2, h3⟩
        exact ⟨l :: b, m, a, x, y, by simp [h1], by simpa [h] using h2, h3⟩
      · rintro ⟨b, m, a, x, y, h1, h2, h3⟩
        cases b with
        | nil =>
          simp only [List.nil_append, List.cons.injEq] at h1
          rw [← h1.1, h] at h3
          simp at h3
        | cons d b =>
          simp only [List.cons_append, List.cons.injEq] at h1
          exact ⟨b, m, a, x, y, h1.2, fun z hz => h2 z (by simp [hz]), h3⟩
    · rw [if_pos h, declared_iff]
      constructor
      · rintro ⟨x, y, e⟩
        exact ⟨[], l, ls, x, y, rfl, by simp, e⟩
      · rintro ⟨b, m, a, x, y, h1, h2, h3⟩
        cases b with
        | nil =>
          simp only [List.nil_append, List.cons.injEq] at h1
          exact ⟨x, y, by rw [h1.1, h3]⟩
        | cons d b =>
          simp only [List.cons_append, List.cons.injEq] at h1
          exact absurd (by rw [h1.1]; exact h2 d (by simp)) h

/-! ### the report -/

/-- the world with the report and the output made longer -/
def told (w : World) (report r s : Str) : World :=
  { w with files := fun n => if n = report then some ((w.files n).getD [] ++ r) else w.files n, stdout := w.stdout ++ s }

theorem told_told (w : World) (report r s r' s' : Str) : told (told w report r s) report r' s' = told w report (r ++ r') (s ++ s') := by
  simp only [told]
  congr 1
  · funext n
    by_cases h : n = report <;> simp [h]
  · simp

theorem judged {lib : Lib} {F : Facets} (hr : Right lib F) (name : Str) (S : Schema) (e : Elem) (report : Str) (w : World) :
    validateSchema lib name S e report w = .ok () (told w report (reportText F [] (c! "<?xml?>") e [(name, S)]) (printedText F lib [] (c! "<?xml?>") e [(name, S)])) := by
  have hd : HasDeclaration (c! "<?xml?>") := ⟨[], c! "<?xml?>", [], [], [], rfl, by simp, by decide⟩
  rw [validateSchema]
  cases h : lib.judge S e with
  | none =>
    have hv := (hr S e).mp h
    simp only [reportText, printedText, if_pos hd, List.flatMap_cons, List.flatMap_nil, if_pos hv, List.nil_append, List.append_nil]
    rfl
  | some t =>
    have hv : ¬ ValidDocument F S e := fun c => by rw [(hr S e).mpr c] at h; cases h
    simp only [reportText, printedText, if_pos hd, List.flatMap_cons, List.flatMap_nil, if_neg hv, List.nil_append, List.append_nil, h, Option.getD_some]
    show EStateM.Result.ok () _ = _
    congr 1
    simp [told]

theorem told_nil (w : World) {report x : Str} (h : w.files report = some x) : told w report [] [] = w := by
  simp only [told]
  have : (fun n => if n = report then some ((w.files n).getD [] ++ []) else w.files n) = w.files := by
    funext n
    by_cases e : n = report
    · simp [e, h]
    · simp [e]
  rw [this]
  simp

theorem declaration_ok (F : Facets) (lib : Lib) (e : Elem) {w : World} {i t report x : Str} (hi : w.files i = some t) (hr : w.files report = some x) :
    validateDeclaration i report w = .ok () (told w report (reportText F i t e []) (printedText F lib i t e [])) := by
  rw [validateDeclaration, bindOk' (readFile_ok hi)]
  simp only [reportText, printedText, List.flatMap_nil, List.append_nil]
  by_cases h : HasDeclaration t
  · rw [if_pos ((firstDeclared_iff _).mpr h), if_pos h, told_nil w hr]
    rfl
  · rw [if_neg (fun c => h ((firstDeclared_iff _).mp c)), if_neg h]
    rfl

theorem report_split (F : Facets) (i t : Str) (e : Elem) (l : List (Str × Schema)) :
    reportText F i t e l = reportText F i t e [] ++ reportText F [] (c! "<?xml?>") e l := by
  have hd : HasDeclaration (c! "<?xml?>") := ⟨[], c! "<?xml?>", [], [], [], rfl, by simp, by decide⟩
  simp [reportText, if_pos hd]

theorem printed_split (F : Facets) (lib : Lib) (i t : Str) (e : Elem) (l : List (Str × Schema)) :
    printedText F lib i t e l = printedText F lib i t e [] ++ printedText F lib [] (c! "<?xml?>") e l := by
  have hd : HasDeclaration (c! "<?xml?>") := ⟨[], c! "<?xml?>", [], [], [], rfl, by simp, by decide⟩
  simp [printedText, if_pos hd]

theorem report_cons (F : Facets) (e : Elem) (s : Str × Schema) (l : List (Str × Schema)) :
    reportText F [] (c! "<?xml?>") e (s :: l) = reportText F [] (c! "<?xml?>") e [s] ++ reportText F [] (c! "<?xml?>") e l := by
  have hd : HasDeclaration (c! "<?xml?>") := ⟨[], c! "<?xml?>", [], [], [], rfl, by simp, by decide⟩
  simp [reportText, if_pos hd]

theorem printed_cons (F : Facets) (lib : Lib) (e : Elem) (s : Str × Schema) (l : List (Str × Schema)) :
    printedText F lib [] (c! "<?xml?>") e (s :: l) = printedText F lib [] (c! "<?xml?>") e [s] ++ printedText F lib [] (c! "<?xml?>") e l := by
  have hd : HasDeclaration (c! "<?xml?>") := ⟨[], c! "<?xml?>", [], [], [], rfl, by simp, by decide⟩
  simp [printedText, if_pos hd]

theorem told_file (w : World) (report r s : Str) : (told w report r s).files report = some ((w.files report).getD [] ++ r) := by simp [told]

theorem schemas_ok {lib : Lib} {F : Facets} (hr : Right lib F) (e : Elem) (report : Str) : ∀ (l : List (Str × Schema)) (w : World) (x : Str), w.files report = some x →
    validateSchemas lib e report l w = .ok () (told w report (reportText F [] (c! "<?xml?>") e l) (printedText F lib [] (c! "<?xml?>") e l))
  | [], w, x, h => by
    have hd : HasDeclaration (c! "<?xml?>") := ⟨[], c! "<?xml?>", [], [], [], rfl, by simp, by decide⟩
    have h1 : reportText F [] (c! "<?xml?>") e [] = [] := by simp [reportText, if_pos hd]
    have h2 : printedText F lib [] (c! "<?xml?>") e [] = [] := by simp [printedText, if_pos hd]
    rw [h1, h2, told_nil w h]
    rfl
  | (name, S) :: l, w, x, h => by
    rw [validateSchemas, bindOk' (judged hr name S e report w), schemas_ok hr e report l _ _ (told_file _ _ _ _), told_told, ← report_cons, ← printed_cons]

/-- The whole of a validation, when the candidate can be read. -/
theorem report_ok {lib : Lib} {F : Facets} (hr : Right lib F) {w : World} {i t report : Str} {e : Elem} (schemas : List (Str × Schema)) (hi : w.files i = some t)
    (hp : lib.parse t = .ok e) :
    valReport lib report schemas (some i) w = .ok () (printing (w.write report (reportText F i (if i = report then [] else t) e schemas))
      (printedText F lib i (if i = report then [] else t) e schemas)) := by
  have h1 : readNamed (some i) w = .ok t w := readFile_ok hi
  have h2 : (lift (lib.parse t) : Convert.IO Elem) w = .ok e w := by rw [hp]; rfl
  have h3 : (w.write report []).files report = some [] := by simp [World.write]
  have h4 : (w.write report []).files i = some (if i = report then [] else t) := by
    by_cases h : i = report <;> simp [World.write, h, hi]
  rw [valReport, bindOk' h1, bindOk' h2, bindOk' (writeFile_ok w report [])]
  simp only [Option.getD_some]
  rw [bindOk' (declaration_ok F lib e h4 h3), schemas_ok hr e report schemas _ _ (told_file _ _ _ _), told_told, ← report_split, ← printed_split]
  congr 1
  simp only [told, printing, World.write]
  congr 1
  funext n
  by_cases h : n = report <;> simp [h]

theorem report_missing {lib : Lib} {w : World} {i report : Str} (schemas : List (Str × Schema)) (hi : w.files i = none) :
    valReport lib report schemas (some i) w = .error .osError w := by
  have h1 : readNamed (some i) w = .error .osError w := readFile_err hi
  rw [valReport, bindErr' h1]

theorem report_unreadable {lib : Lib} {w : World} {i t report : Str} {x : PyErr} (schemas : List (Str × Schema)) (hi : w.files i = some t)
    (hp : lib.parse t = .error x) : valReport lib report schemas (some i) w = .error x w := by
  have h1 : readNamed (some i) w = .ok t w := readFile_ok hi
  have h2 : (lift (lib.parse t) : Convert.IO Elem) w = .error x w := by rw [hp]; rfl
  rw [valReport, bindOk' h1, bindErr' h2]

/-- `main` with a name -/
theorem main_named {call : Option Str → Convert.IO Unit} {w w' : World} {a b i : Str} {x : Option PyErr} (h : call (some i) (inside w a b) = outcome x w') :
    result (main a b call (.name i)) w = (x, (w'.del a).del b) := by
  refine with_eq ?_
  rw [body, bindOk' (input_name a i _), bindOk' (show outputName b .none (inside w a b) = .ok none (inside w a b) from rfl), outcome_bind h]
  cases x <;> rfl

/-- `main` with standard input -/
theorem main_stdin {call : Option Str → Convert.IO Unit} {w w' : World} {a b t : Str} {x : Option PyErr} (hi : w.stdin = some t)
    (h : call (some a) (({ inside w a b with stdin := none } : World).write a (Psv.universalNewlines t)) = outcome x w') :
    result (main a b call .stdin) w = (x, (w'.del a).del b) := by
  refine with_eq ?_
  have h1 := input_std (a := a) (w := inside w a b) (t := t) hi
  rw [body, bindOk' h1, bindOk' (show outputName b .none _ = .ok none _ from rfl), outcome_bind h]
  cases x <;> rfl

theorem printing_del (w : World) (t n : Str) : (printing w t).del n = printing (w.del n) t := rfl
theorem stdin_del (w : World) (n : Str) : ({ w with stdin := none } : World).del n = { w.del n with stdin := none } := rfl

end Verif.Validate
