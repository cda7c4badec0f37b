import Verif.Lemmas.Validate
import Verif.Lemmas.XmlToPsvRun
import Verif.Lemmas.PsvRun
import Verif.Lemmas.Dec
import Verif.MasterTables
import Verif.Props.Schema
import Verif.Lemmas.JsonSchema
/-
  C47: the validators say of a document whether it has a declaration and whether it is valid, and change nothing but their report.
-/
namespace Verif
open Verif.Xml Verif.Spec Verif.Convert Verif.Validate Verif.Master

/-! ### the two forms of a schema -/

/-- The schemas in readable form that the stylesheets make of the master file accept the same documents as the compact ones: they are the same. -/
theorem C47_human (mode : Mode) : humanSchema mode adesmaster = schema mode adesmaster := by
  cases mode
  · kernel_rfl
  · kernel_rfl

/-! ### a run with a file -/

/-- the names and schemas of `valall` -/
def allSchemas (m : Elem) : List (Str × Schema) :=
  [(c! "submit", schema .submit m), (c! "submithuman", humanSchema .submit m), (c! "general", schema .general m), (c! "generalhuman", humanSchema .general m)]

theorem report_main {lib : Lib} {F : Facets} (hr : Right lib F) {w : World} {a b i t report : Str} {e : Elem} (schemas : List (Str × Schema)) (hf : Fresh w a b)
    (hi : w.files i = some t) (hp : lib.parse t = .ok e) (ha : report ≠ a) (hb : report ≠ b) :
    result (Validate.main a b (valReport lib report schemas) (.name i)) w =
      (none, printing (w.write report (reportText F i (if i = report then [] else t) e schemas)) (printedText F lib i (if i = report then [] else t) e schemas)) := by
  obtain ⟨ia, ib⟩ := fresh_ne hf hi
  have h := report_ok hr (w := inside w a b) (report := report) schemas (show (inside w a b).files i = some t by rw [inside_file ia ib, hi]) hp
  rw [main_named (x := none) h, printing_del, printing_del, del_write _ ha, del_write _ hb, inside_del hf]

/-- A file that can be parsed: whatever is wrong with it there is no exception, the report says whether it has a declaration and whether it is valid, standard
    output says the same with the reasons, and no other file changes. -/
theorem C47_report {lib : Lib} {F : Facets} (hr : Right lib F) (m : Elem) {w : World} {a b i t : Str} {e : Elem} (hf : Fresh w a b)
    (hi : w.files i = some t) (hp : lib.parse t = .ok e) :
    (c! "valsubmit.file" ≠ a → c! "valsubmit.file" ≠ b → i ≠ c! "valsubmit.file" → result (Validate.main a b (valsubmit lib m) (.name i)) w =
      (none, printing (w.write (c! "valsubmit.file") (reportText F i t e [(c! "submit", schema .submit m)])) (printedText F lib i t e [(c! "submit", schema .submit m)])))
    ∧ (c! "valgeneral.file" ≠ a → c! "valgeneral.file" ≠ b → i ≠ c! "valgeneral.file" → result (Validate.main a b (valgeneral lib m) (.name i)) w =
      (none, printing (w.write (c! "valgeneral.file") (reportText F i t e [(c! "general", schema .general m)])) (printedText F lib i t e [(c! "general", schema .general m)])))
    ∧ (c! "valall.file" ≠ a → c! "valall.file" ≠ b → i ≠ c! "valall.file" → result (Validate.main a b (valall lib m) (.name i)) w =
      (none, printing (w.write (c! "valall.file") (reportText F i t e (allSchemas m))) (printedText F lib i t e (allSchemas m)))) := by
  refine ⟨fun ha hb hn => ?_, fun ha hb hn => ?_, fun ha hb hn => ?_⟩
  · rw [valsubmit, report_main hr _ hf hi hp ha hb, if_neg hn]
  · rw [valgeneral, report_main hr _ hf hi hp ha hb, if_neg hn]
  · rw [valall, report_main hr _ hf hi hp ha hb, if_neg hn]
    rfl

/-- The report of `valall` has one of three forms: everything is right, or the two submission schemas fail and the two general ones do not, or all fail. -/
theorem C47_three (F : Facets) (i t : Str) (e : Elem) :
    (ValidDocument F (schema .submit adesmaster) e ∧ reportText F i t e (allSchemas adesmaster)
      = reportText F i t e [] ++ c! "submit is OK\nsubmithuman is OK\ngeneral is OK\ngeneralhuman is OK\n")
    ∨ (¬ ValidDocument F (schema .submit adesmaster) e ∧ ValidDocument F (schema .general adesmaster) e ∧ reportText F i t e (allSchemas adesmaster)
      = reportText F i t e [] ++ c! "submit has failed: \nsubmithuman has failed: \ngeneral is OK\ngeneralhuman is OK\n")
    ∨ (¬ ValidDocument F (schema .general adesmaster) e ∧ reportText F i t e (allSchemas adesmaster)
      = reportText F i t e [] ++ c! "submit has failed: \nsubmithuman has failed: \ngeneral has failed: \ngeneralhuman has failed: \n") := by
  simp only [allSchemas, C47_human]
  by_cases hs : ValidDocument F (schema .submit adesmaster) e
  · have hg := C34_ades F e hs
    refine .inl ⟨hs, ?_⟩
    simp only [reportText, List.flatMap_cons, List.flatMap_nil, if_pos hs, if_pos hg, List.append_nil]
    rfl
  · by_cases hg : ValidDocument F (schema .general adesmaster) e
    · refine .inr (.inl ⟨hs, hg, ?_⟩)
      simp only [reportText, List.flatMap_cons, List.flatMap_nil, if_neg hs, if_pos hg, List.append_nil]
      rfl
    · refine .inr (.inr ⟨hg, ?_⟩)
      simp only [reportText, List.flatMap_cons, List.flatMap_nil, if_neg hs, if_neg hg, List.append_nil]
      rfl

/-- `validate` with a schema from a file: the same, with the name of the schema file. -/
theorem C47_validate {lib : Lib} {F : Facets} (hr : Right lib F) (schemaOf : Str → Py Schema) {w : World} {a b i t s u : Str} {e : Elem} {S : Schema} (hf : Fresh w a b)
    (hi : w.files i = some t) (hp : lib.parse t = .ok e) (hu : w.files s = some u) (hS : schemaOf u = .ok S) (ha : c! "validate.file" ≠ a) (hb : c! "validate.file" ≠ b)
    (hn : i ≠ c! "validate.file") :
    result (Validate.main a b (validate lib schemaOf s) (.name i)) w =
      (none, printing (w.write (c! "validate.file") (reportText F i t e [(s, S)])) (printedText F lib i t e [(s, S)])) := by
  obtain ⟨ia, ib⟩ := fresh_ne hf hi
  obtain ⟨sa, sb⟩ := fresh_ne hf hu
  have h0 : (inside w a b).files i = some t := by rw [inside_file ia ib, hi]
  have h := report_ok hr (w := inside w a b) (report := c! "validate.file") [(s, S)] h0 hp
  have hv : validate lib schemaOf s (some i) (inside w a b) = valReport lib (c! "validate.file") [(s, S)] (some i) (inside w a b) := by
    have h1 : readNamed (some i) (inside w a b) = .ok t (inside w a b) := readFile_ok h0
    have h2 : (lift (lib.parse t) : Convert.IO Elem) (inside w a b) = .ok e (inside w a b) := by rw [hp]; rfl
    have h3 : readFile s (inside w a b) = .ok u (inside w a b) := readFile_ok (by rw [inside_file sa sb, hu])
    have h4 : (lift (schemaOf u) : Convert.IO Schema) (inside w a b) = .ok S (inside w a b) := by rw [hS]; rfl
    rw [validate, valReport, bindOk' h1, bindOk' h2, bindOk' h3, bindOk' h4, bindOk' h1, bindOk' h2]
  rw [← hv, if_neg hn] at h
  rw [main_named (x := none) h, printing_del, printing_del, del_write _ ha, del_write _ hb, inside_del hf]

/-! ### a run that fails -/

/-- A file that is missing or that the parser refuses: an exception, and nothing changes; a report of an earlier run stays. -/
theorem C47_unreadable (lib : Lib) (m : Elem) (schemaOf : Str → Py Schema) (s : Str) {w : World} {a b i : Str} {x : PyErr} (hf : Fresh w a b) (ia : i ≠ a) (ib : i ≠ b)
    (h : (w.files i = none ∧ x = .osError) ∨ ∃ t, w.files i = some t ∧ lib.parse t = .error x) :
    ∀ call ∈ [valsubmit lib m, valgeneral lib m, valall lib m, validate lib schemaOf s], result (Validate.main a b call (.name i)) w = (some x, w) := by
  have hr : ∀ report schemas, result (Validate.main a b (valReport lib report schemas) (.name i)) w = (some x, w) := by
    intro report schemas
    have h1 : valReport lib report schemas (some i) (inside w a b) = .error x (inside w a b) := by
      rcases h with ⟨h, rfl⟩ | ⟨t, h, hp⟩
      · exact report_missing schemas (by rw [inside_file ia ib, h])
      · exact report_unreadable schemas (by rw [inside_file ia ib, h]) hp
    rw [main_named (x := some x) h1, inside_del hf]
  intro call hc
  simp only [List.mem_cons, List.not_mem_nil, or_false] at hc
  rcases hc with rfl | rfl | rfl | rfl
  · exact hr _ _
  · exact hr _ _
  · exact hr _ _
  · have h1 : validate lib schemaOf s (some i) (inside w a b) = .error x (inside w a b) := by
      rcases h with ⟨h, rfl⟩ | ⟨t, h, hp⟩
      · have h2 : readNamed (some i) (inside w a b) = .error .osError (inside w a b) := readFile_err (by rw [inside_file ia ib, h])
        rw [validate, bindErr' h2]
      · have h2 : readNamed (some i) (inside w a b) = .ok t (inside w a b) := readFile_ok (by rw [inside_file ia ib, h])
        have h3 : (lift (lib.parse t) : Convert.IO Elem) (inside w a b) = .error x (inside w a b) := by rw [hp]; rfl
        rw [validate, bindOk' h2, bindErr' h3]
    rw [main_named (x := some x) h1, inside_del hf]

/-- The schema of `validate` is read after the candidate and before the report: if it is missing or not a schema nothing changes. -/
theorem C47_bad_schema (lib : Lib) (schemaOf : Str → Py Schema) {w : World} {a b i t s : Str} {e : Elem} {x : PyErr} (hf : Fresh w a b) (sa : s ≠ a) (sb : s ≠ b)
    (hi : w.files i = some t) (hp : lib.parse t = .ok e) (h : (w.files s = none ∧ x = .osError) ∨ ∃ u, w.files s = some u ∧ schemaOf u = .error x) :
    result (Validate.main a b (validate lib schemaOf s) (.name i)) w = (some x, w) := by
  obtain ⟨ia, ib⟩ := fresh_ne hf hi
  have h1 : readNamed (some i) (inside w a b) = .ok t (inside w a b) := readFile_ok (by rw [inside_file ia ib, hi])
  have h2 : (lift (lib.parse t) : Convert.IO Elem) (inside w a b) = .ok e (inside w a b) := by rw [hp]; rfl
  have h5 : validate lib schemaOf s (some i) (inside w a b) = .error x (inside w a b) := by
    rw [validate, bindOk' h1, bindOk' h2]
    rcases h with ⟨h, rfl⟩ | ⟨u, h, hu⟩
    · have h3 : readFile s (inside w a b) = .error .osError (inside w a b) := readFile_err (by rw [inside_file sa sb, h])
      rw [bindErr' h3]
    · have h3 : readFile s (inside w a b) = .ok u (inside w a b) := readFile_ok (by rw [inside_file sa sb, h])
      have h4 : (lift (schemaOf u) : Convert.IO Schema) (inside w a b) = .error x (inside w a b) := by rw [hu]; rfl
      rw [bindOk' h3, bindErr' h4]
  rw [main_named (x := some x) h5, inside_del hf]

/-! ### the report as candidate; standard input -/

/-- no text: no declaration -/
theorem not_declared_nil : ¬ HasDeclaration [] := by
  rintro ⟨b, l, r, x, y, h, -⟩
  have : Psv.fileLines (Psv.universalNewlines []) = [] := rfl
  rw [this] at h
  simp at h

open Classical in
/-- A candidate with the name of the report is overwritten by the report: its text is lost, and the report denies that it had a declaration. -/
theorem C47_own_report {lib : Lib} {F : Facets} (hr : Right lib F) {w : World} {a b t report : Str} {e : Elem} (schemas : List (Str × Schema)) (hf : Fresh w a b)
    (hi : w.files report = some t) (hp : lib.parse t = .ok e) :
    result (Validate.main a b (valReport lib report schemas) (.name report)) w =
      (none, printing (w.write report (c! "candidate file " ++ report ++ c! " has no XML declaration\n" ++
          schemas.flatMap fun s => if ValidDocument F s.2 e then s.1 ++ c! " is OK\n" else s.1 ++ c! " has failed: \n")) (printedText F lib report [] e schemas)) := by
  obtain ⟨ia, ib⟩ := fresh_ne hf hi
  have h := report_main hr schemas hf hi hp ia ib
  rw [if_pos rfl] at h
  rw [h]
  simp only [reportText, if_neg not_declared_nil]

/-- From standard input: the same with line ends made `\n`, and the warning names the temporary file, which is gone afterwards. -/
theorem C47_stdin {lib : Lib} {F : Facets} (hr : Right lib F) {w : World} {a b t report : Str} {e : Elem} (schemas : List (Str × Schema)) (hf : Fresh w a b)
    (hi : w.stdin = some t) (hp : lib.parse (Psv.universalNewlines t) = .ok e) (ha : report ≠ a) (hb : report ≠ b) :
    result (Validate.main a b (valReport lib report schemas) .stdin) w =
      (none, printing ({ w with stdin := none }.write report (reportText F a (Psv.universalNewlines t) e schemas)) (printedText F lib a (Psv.universalNewlines t) e schemas)) := by
  generalize hu : Psv.universalNewlines t = u at hp ⊢
  have h := report_ok hr (w := ({ inside w a b with stdin := none } : World).write a u) (i := a) (t := u) (report := report) schemas (by simp [World.write]) hp
  rw [if_neg (Ne.symm ha), ← hu] at h
  rw [main_stdin (x := none) hi h, hu, printing_del, printing_del, del_write _ ha, del_same, del_write _ hb]
  congr 3
  rw [stdin_del, stdin_del, inside_del hf]

/-! ### the declaration -/

theorem first_line (u : Str) : ∀ {p : Str}, p ≠ [] → '\n' ∉ p → ∃ l rest, Psv.fileLines (p ++ u) = (p ++ l) :: rest
  | [], h, _ => absurd rfl h
  | [c], _, h => by
    have hc : c ≠ '\n' := by simpa using Ne.symm (by simpa using h)
    cases hu : Psv.fileLines u with
    | nil => exact ⟨[], [], by simp [Psv.fileLines, hc, hu]⟩
    | cons l ls => exact ⟨l, ls, by simp [Psv.fileLines, hc, hu]⟩
  | c :: d :: p, _, h => by
    simp only [List.mem_cons, not_or] at h
    obtain ⟨l, rest, e⟩ := first_line u (p := d :: p) (by simp) (by simp [h.2])
    refine ⟨l, rest, ?_⟩
    show Psv.fileLines (c :: (d :: p ++ u)) = _
    rw [Psv.fileLines, if_neg (Ne.symm h.1), e]
    rfl

theorem newlines_keep : ∀ (p s : Str), '\r' ∉ p → Psv.universalNewlines (p ++ s) = p ++ Psv.universalNewlines s
  | [], _, _ => rfl
  | c :: p, s, h => by
    simp only [List.mem_cons, not_or] at h
    show Psv.universalNewlines (c :: (p ++ s)) = _
    rw [Psv.universalNewlines, newlines_keep p s h.2]
    · rfl
    · intro _ e; exact absurd e.symm h.1
    · intro e; exact absurd e.symm h.1

theorem strip_front {p : Str} (hp : p ≠ []) (h1 : ∀ c ∈ p.head?, isSpace c = false) (h2 : ∀ c ∈ p.getLast?, isSpace c = false) : ∀ (n : Nat) (l : Str), l.length = n →
    ∃ l', strip (p ++ l) = p ++ l'
  | 0, l, h => by
    rw [List.eq_nil_of_length_eq_zero h]
    exact ⟨[], by simpa using strip_of_ends h1 h2⟩
  | n + 1, l, h => by
    have hl : l ≠ [] := by intro e; simp [e] at h
    have e := List.dropLast_concat_getLast hl
    by_cases hs : isSpace (l.getLast hl) = true
    · obtain ⟨l', h'⟩ := strip_front hp h1 h2 n l.dropLast (by simp [h])
      refine ⟨l', ?_⟩
      rw [← e, ← List.append_assoc, ToPsv.strip_snoc_space hs, h']
    · refine ⟨l, strip_of_ends ?_ ?_⟩
      · intro c hc
        cases p with
        | nil => exact absurd rfl hp
        | cons d p => exact h1 c (by simpa using hc)
      · intro c hc
        rw [← e, ← List.append_assoc, List.getLast?_concat] at hc
        simp only [Option.mem_def, Option.some.injEq] at hc
        rw [← hc]
        simpa using hs

/-- Anything that begins with `<?xml` and has `?>` before the end of the line counts as a declaration, such as an `xml-stylesheet` instruction. -/
theorem C47_counts (x y : Str) (h1 : '\n' ∉ x) (h2 : '\r' ∉ x) : HasDeclaration (c! "<?xml" ++ x ++ c! "?>" ++ y) := by
  have e : c! "<?xml" ++ x ++ c! "?>" ++ y = (c! "<?xml" ++ x ++ c! "?>") ++ y := rfl
  have hne : c! "<?xml" ++ x ++ c! "?>" ≠ [] := by simp
  obtain ⟨l, rest, hl⟩ := first_line (Psv.universalNewlines y) hne (by simp [h1])
  obtain ⟨l', hs⟩ := strip_front hne (by simp; decide) (by rw [show c! "<?xml" ++ x ++ c! "?>" = (c! "<?xml" ++ x ++ ['?']) ++ ['>'] by simp, List.getLast?_concat]; simp; decide) _ l rfl
  refine ⟨[], _, rest, x, l', ?_, by simp, hs⟩
  rw [e, newlines_keep _ _ (by simp [h2]), hl]
  rfl

theorem first_decides {l : Str} {ls : List Str} {t : Str} (h : Psv.fileLines (Psv.universalNewlines t) = l :: ls) (hs : strip l ≠ []) (hd : HasDeclaration t) :
    ∃ x y, strip l = c! "<?xml" ++ x ++ c! "?>" ++ y := by
  obtain ⟨b, m, r, x, y, e, hb, hm⟩ := hd
  rw [h] at e
  cases b with
  | nil =>
    simp only [List.nil_append, List.cons.injEq] at e
    exact ⟨x, y, by rw [e.1, hm]⟩
  | cons d b =>
    simp only [List.cons_append, List.cons.injEq] at e
    exact absurd (by rw [e.1]; exact hb d (by simp)) hs

theorem not_first {c : Char} (t : Str) (h0 : c ≠ '\n') (h1 : c ≠ '\r') (h2 : c ≠ '<') (hs : isSpace c = false) : ¬ HasDeclaration (c :: t) := by
  intro hd
  obtain ⟨l, rest, hl⟩ := first_line (Psv.universalNewlines t) (p := [c]) (by simp) (by simpa using Ne.symm h0)
  have e : Psv.fileLines (Psv.universalNewlines (c :: t)) = (c :: l) :: rest := by
    rw [show c :: t = [c] ++ t from rfl, newlines_keep _ _ (by simpa using Ne.symm h1), hl]
    rfl
  have hh := ToPsv.lstrip_head_of (p := c :: l) rfl hs
  obtain ⟨x, y, h⟩ := first_decides e (by intro z; rw [z] at hh; cases hh) hd
  rw [h] at hh
  simp at hh
  exact h2 hh.symm

/-- A text with a byte order mark is said to have no declaration. -/
theorem C47_bom (t : Str) : ¬ HasDeclaration (Char.ofNat 0xFEFF :: t) :=
  not_first t (by decide) (by decide) (by decide) (by decide)

theorem strip_sub {l : Str} {c : Char} (h : c ∈ strip l) : c ∈ l := by
  obtain ⟨x, -, e, -⟩ := Psv.lstrip_split (rstrip l)
  have h1 : c ∈ rstrip l := by rw [e]; exact List.mem_append_right _ h
  exact ToPsv.rstrip_mem h1

/-- A declaration that goes on in a second line is said to be missing. -/
theorem C47_two_lines (x y : Str) (h1 : '\n' ∉ x) (h2 : '\r' ∉ x) (h3 : '>' ∉ x) : ¬ HasDeclaration (c! "<?xml" ++ x ++ '\n' :: y) := by
  intro hd
  have e : Psv.fileLines (Psv.universalNewlines (c! "<?xml" ++ x ++ '\n' :: y)) = (c! "<?xml" ++ x ++ ['\n']) :: Psv.fileLines (Psv.universalNewlines y) := by
    rw [newlines_keep _ _ (by simp [h2])]
    have : Psv.universalNewlines ('\n' :: y) = '\n' :: Psv.universalNewlines y := newlines_keep ['\n'] y (by decide)
    rw [this, Psv.fileLines_line (by simp [h1])]
  have hh := ToPsv.lstrip_head_of (p := c! "<?xml" ++ x ++ ['\n']) (c := '<') rfl (by decide)
  obtain ⟨u, v, h⟩ := first_decides e (by intro z; rw [z] at hh; cases hh) hd
  have hm : '>' ∈ strip (c! "<?xml" ++ x ++ ['\n']) := by rw [h]; simp
  have := strip_sub hm
  simp [h3] at this

/-! ### samples -/

namespace SampleValidate

open Classical in
/-- a library that parses one document and judges rightly -/
noncomputable def lib (F : Facets) (e : Elem) : Lib where
  parse _ := .ok e
  judge S e := if ValidDocument F S e then none else some (c! "reason")

theorem right (F : Facets) (e : Elem) : Right (lib F e) F := by
  intro S e'
  simp only [lib]
  by_cases h : ValidDocument F S e' <;> simp [h]

/-- the text of a file -/
def text : Str := c! "\n<?xml version='1.0' encoding='UTF-8'?>\n<ades/>\n"

theorem has : HasDeclaration text := ⟨[['\n']], c! "<?xml version='1.0' encoding='UTF-8'?>\n", [c! "<ades/>\n"], c! " version='1.0' encoding='UTF-8'", [], by decide, by decide, by decide⟩

/-- one file -/
def world : World := ⟨fun n => if n = c! "x.xml" then some text else none, none, [], true⟩

theorem fresh : Fresh world (c! "tmp1") (c! "tmp2") := ⟨by decide, by decide, by decide⟩

/-- a document that is valid for submission -/
theorem sample_valid : result (Validate.main (c! "tmp1") (c! "tmp2") (valall (lib Check.lenient sampleDoc) adesmaster) (.name (c! "x.xml"))) world =
    (none, printing (world.write (c! "valall.file") (c! "submit is OK\nsubmithuman is OK\ngeneral is OK\ngeneralhuman is OK\n"))
      (c! "submit is OK\nsubmithuman is OK\ngeneral is OK\ngeneralhuman is OK\n")) := by
  have h := (C47_report (right Check.lenient sampleDoc) adesmaster fresh (i := c! "x.xml") (t := text) (e := sampleDoc) rfl rfl).2.2 (by decide) (by decide) (by decide)
  rw [h]
  have hg := C34_ades _ _ sampleDoc_valid
  simp only [reportText, printedText, allSchemas, C47_human, if_pos has, List.flatMap_cons, List.flatMap_nil, if_pos sampleDoc_valid, if_pos hg, List.append_nil]
  rfl

/-- in a submission there are only blocks below the root -/
theorem only_blocks {F : Facets} {e : Elem} (h : Valid F (schema .submit adesmaster) (.typed (c! "ADESType") e)) : ∀ k ∈ e.kids, k.tag = c! "obsBlock" := by
  have h0 : (lookup (schema .submit adesmaster).complex (c! "ADESType")).bind (fun ct => Json.kinds (schema .submit adesmaster) (fun _ => true) [] true 80 (.seq ct.content))
      = some [c! "obsBlock"] := by decide +kernel
  have tags : ∀ {l : List (Str × Str)} {es : List Elem}, Valid F (schema .submit adesmaster) (.kids (l.map some) es) → (∀ p ∈ l, p.1 ∈ [c! "obsBlock"]) → ∀ k ∈ es, k.tag = c! "obsBlock" := by
    intro l
    induction l with
    | nil => intro es h _; cases h; simp
    | cons p l ih =>
      intro es h hl
      cases h with
      | cons ht _ hk =>
        intro k hk'
        rcases List.mem_cons.mp hk' with rfl | hk'
        · rw [ht]; simpa using hl _ (List.mem_cons_self ..)
        · exact ih hk (fun p hp => hl p (by simp [hp])) k hk'
  cases h with
  | simple hl _ =>
    rw [hl] at h0
    cases h0
  | complex hl _ _ hm hk =>
    rw [hl] at h0
    obtain ⟨l, e1, h2, -⟩ := Json.kinds_sound _ _ _ _ _ _ _ h0 _ hm (fun _ _ _ => by simp)
    subst e1
    exact tags hk (fun p hp => (h2 p hp).1)

/-- a single observation is valid in general and not for submission; with an unknown root nothing is right -/
theorem sample_others (i : Str) : reportText Check.lenient i text (.mk (c! "ades") none [(c! "version", c! "2022")] [generalOnly]) (allSchemas adesmaster)
      = c! "submit has failed: \nsubmithuman has failed: \ngeneral is OK\ngeneralhuman is OK\n"
    ∧ reportText Check.lenient i [] (.mk (c! "adse") none [] []) (allSchemas adesmaster)
      = c! "candidate file " ++ i ++ c! " has no XML declaration\nsubmit has failed: \nsubmithuman has failed: \ngeneral has failed: \ngeneralhuman has failed: \n" := by
  have hd : ∀ F i e, reportText F i text e [] = [] := fun F i e => by simp [reportText, if_pos has]
  constructor
  · have hg : ValidDocument Check.lenient (schema .general adesmaster) (.mk (c! "ades") none [(c! "version", c! "2022")] [generalOnly]) :=
      ⟨c! "ADESType", by decide +kernel, Check.validB_sound _ 80 _ _ (by decide +kernel)⟩
    have hs : ¬ ValidDocument Check.lenient (schema .submit adesmaster) (.mk (c! "ades") none [(c! "version", c! "2022")] [generalOnly]) := by
      rintro ⟨T, hT, hv⟩
      have : lookup (schema .submit adesmaster).elements (c! "ades") = some (c! "ADESType") := by decide +kernel
      rw [show (Elem.mk (c! "ades") none [(c! "version", c! "2022")] [generalOnly]).tag = c! "ades" from rfl, this] at hT
      cases hT
      exact absurd (only_blocks hv generalOnly (by simp [Elem.kids])) (by decide)
    rcases C47_three Check.lenient i text (.mk (c! "ades") none [(c! "version", c! "2022")] [generalOnly]) with h | h | h
    · exact absurd h.1 hs
    · rw [h.2.2, hd]; rfl
    · exact absurd hg h.1
  · have hg : ¬ ValidDocument Check.lenient (schema .general adesmaster) (.mk (c! "adse") none [] []) := by
      rintro ⟨T, hT, -⟩
      have : lookup (schema .general adesmaster).elements (c! "adse") = none := by decide +kernel
      rw [show (Elem.mk (c! "adse") none [] []).tag = c! "adse" from rfl, this] at hT
      cases hT
    rcases C47_three Check.lenient i [] (.mk (c! "adse") none [] []) with h | h | h
    · exact absurd (C34_ades _ _ h.1) hg
    · exact absurd h.2.1 hg
    · rw [h.2, show reportText Check.lenient i [] (.mk (c! "adse") none [] []) [] = c! "candidate file " ++ i ++ c! " has no XML declaration\n" by
        simp [reportText, if_neg not_declared_nil]]
      simp only [List.append_assoc]
      rfl

end SampleValidate

end Verif
