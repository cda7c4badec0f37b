import Verif.Lemmas.PsvErrors
import Verif.Props.Tables
/-!
  C57: how the conversion of a PSV file ends that is not a document.
-/
namespace Verif
open Verif.Xml Verif.Psv Verif.Spec

theorem start_error {tab : Tab} {lx : Lxml} (hw : Tab.WF tab) (hl : Psv.Lxml.Sane lx) {e : PyErr} : ∀ (lines : List Str) {g : Globals}, g.firstLine = true → g.state = .empty →
    (readLines tab lx g (ended lines) = .error e ↔ ∃ first rest, nonBlank lines = first :: rest ∧
      (((∀ v, ¬ VersionIs first v) ∧ e = .systemExit) ∨ (∃ v, VersionIs first v ∧ ¬ lx.Accepts (c! "ades") none [(c! "version", v)] ∧ e = .valueError) ∨
        ∃ v, VersionIs first v ∧ lx.Accepts (c! "ades") none [(c! "version", v)] ∧ ∃ good bad rest' pls gs' cur', rest = good ++ bad :: rest' ∧ Each (LineIs (typesOf tab)) good pls ∧
          steps [] .start pls = some (gs', cur') ∧ RunAccepted tab lx [] .start pls ∧ BadAt tab lx gs' cur' bad e))
  | [], g, _, _ => by simp [ended, readLines, nonBlank]
  | l :: ls, g, hf, hs => by
    rw [readLines_step]
    by_cases hb : strip l = []
    · have : parsePSV tab lx g l = .ok g := by unfold parsePSV; rw [parse_blank hb]; rfl
      rw [this, nonBlank_blank hb]
      exact start_error hw hl ls hf hs
    · rw [nonBlank_cons hb]
      cases hp : parsePSV tab lx g l with
      | error e0 =>
        have key := first_error (lx := lx) hw hf hb (e := e)
        rw [hp] at key
        simp only [Except.error.injEq, exists_eq_left'] at key ⊢
        rw [key]
        constructor
        · rintro (h | h)
          · exact ⟨l, nonBlank ls, rfl, .inl h⟩
          · exact ⟨l, nonBlank ls, rfl, .inr (.inl h)⟩
        · rintro ⟨first, rest, h, h'⟩
          simp only [List.cons.injEq] at h
          obtain ⟨rfl, rfl⟩ := h
          rcases h' with h' | h' | ⟨v, h1, h2, -⟩
          · exact .inl h'
          · exact .inr h'
          · obtain ⟨s, h3, -⟩ := Rep.init h2
            have := (parsePSV_first (tab := tab) (lx := lx) hf hb).2 ⟨v, s, h1, h3, rfl⟩
            rw [hp] at this
            cases this
      | ok g1 =>
        obtain ⟨v, s, h1, h2, rfl⟩ := (parsePSV_first hf hb).1 hp
        obtain ⟨h3, h4⟩ := sim_start (tab := tab) hs h2
        simp only
        rw [read_error hw hl ls h3]
        have no : ¬ (((∀ v, ¬ VersionIs l v) ∧ e = .systemExit) ∨ (∃ v, VersionIs l v ∧ ¬ lx.Accepts (c! "ades") none [(c! "version", v)] ∧ e = .valueError)) := by
          rw [← first_error (tab := tab) (lx := lx) hw hf hb (e := e), hp]
          rintro ⟨_, h, -⟩
          cases h
        constructor
        · rintro h
          exact ⟨l, nonBlank ls, rfl, .inr (.inr ⟨v, h1, h4, h⟩)⟩
        · rintro ⟨first, rest, h, h'⟩
          simp only [List.cons.injEq] at h
          obtain ⟨rfl, rfl⟩ := h
          rcases h' with h' | h' | ⟨v, -, -, h'⟩
          · exact absurd (.inl h') no
          · exact absurd (.inr h') no
          · exact h'

/-- C57: a file that is not a document ends the conversion with the exception of its first wrong line, and only so. -/
theorem C57_fails {tab : Tab} {lx : Lxml} (hw : Tab.WF tab) (hl : Psv.Lxml.Sane lx) {lines : List Str} (hlines : ∀ l ∈ lines, IsLine l) (e : PyErr) :
    psvtoxml tab lx .initial (fileText lines) = .error e ↔ Fails (typesOf tab) lx lines e := by
  have ades : ∀ {v : Str} {gs : List Group}, Accepted lx (adesElem (typesOf tab).allowed v gs) ↔ lx.Accepts (c! "ades") none [(c! "version", v)] ∧ ∀ g ∈ gs, GAcc tab lx g :=
    accepted_ades hl
  rw [psvtoxml_text hlines]
  have key := start_error (lx := lx) hw hl (e := e) lines (g := .initial) rfl rfl
  cases hr : readLines tab lx .initial (ended lines) with
  | ok g =>
    rw [hr] at key
    have no := mt key.2 (by simp)
    rcases start_inv hw hl lines rfl rfl hr with ⟨rfl, hn⟩ | ⟨first, rest, v, pls, gs, cur, e1, e2, e3, e4, e5, e6, e7⟩
    · simp only [bind, Except.bind, Globals.initial, Globals.getStack, Except.error.injEq]
      constructor
      · rintro rfl; exact .nothing hn
      · intro h
        cases h with
        | nothing => rfl
        | noVersion h => rw [hn] at h; cases h
        | badVersion h => rw [hn] at h; cases h
        | line h => rw [hn] at h; cases h
    · obtain ⟨s, h3, -⟩ := finish_ok e6
      have : (do
          let g ← (Except.ok g : Py Globals)
          let s ← g.getStack
          let (tree, s) ← s.takeTreeAndClear
          return (tree, { g with stack := some s }) : Py (Elem × Globals)) = .error e ↔ False := by
        constructor
        · intro h
          have h' := h3.symm.trans h
          cases h'
        · exact False.elim
      rw [this]
      refine ⟨False.elim, fun h => no ?_⟩
      cases h with
      | nothing h => rw [e1] at h; cases h
      | noVersion h h' => exact ⟨_, _, h, .inl ⟨h', rfl⟩⟩
      | badVersion h h' h'' => exact ⟨_, _, h, .inr (.inl ⟨_, h', fun ha => h'' (ades.2 ⟨ha, by simp⟩), rfl⟩)⟩
      | line h1 h2 h3 h4 h5 h6 =>
        obtain ⟨ha, hg⟩ := ades.1 h5
        obtain ⟨gs', cur', h7, h8⟩ := steps_groups _ [] .start (.inl rfl) h4
        simp only [start_groups, List.append_nil, List.nil_append] at h8
        subst h8
        exact ⟨_, _, h1, .inr (.inr ⟨_, h2, ha, _, _, _, _, gs', cur', rfl, h3, h7, ((steps_acc _ h7).1 hg).2, (wrong_iff hl ha h7 hg).1 h6⟩)⟩
  | error e0 =>
    rw [hr] at key
    have : (do
        let g ← (Except.error e0 : Py Globals)
        let s ← g.getStack
        let (tree, s) ← s.takeTreeAndClear
        return (tree, { g with stack := some s }) : Py (Elem × Globals)) = .error e ↔ (Except.error e0 : Py Globals) = .error e := by
      simp [bind, Except.bind]
    rw [this, key]
    constructor
    · rintro ⟨first, rest, h1, ⟨h2, rfl⟩ | ⟨v, h2, h3, rfl⟩ | ⟨v, h2, h3, good, bad, rest', pls, gs', cur', rfl, h4, h5, h6, h7⟩⟩
      · exact .noVersion h1 h2
      · exact .badVersion h1 h2 fun h => h3 (ades.1 h).1
      · obtain ⟨l1, l2⟩ := steps_lines pls h5 ⟨by simp [Cur.groups], by simp⟩
        simp only [start_groups, List.append_nil, List.flatMap_nil, List.nil_append] at l1
        have hg := (steps_acc (tab := tab) (lx := lx) pls h5).2 ⟨by simp [Cur.groups], h6⟩
        exact .line h1 h2 (l1 ▸ h4) l2.document (ades.2 ⟨h3, hg⟩) ((wrong_iff hl h3 h5 hg).2 h7)
    · intro h
      cases h with
      | nothing h =>
        exfalso
        have : readLines tab lx .initial (ended lines) = .ok .initial := by
          have all : ∀ (ls : List Str), nonBlank ls = [] → readLines tab lx .initial (ended ls) = .ok .initial := by
            intro ls
            induction ls with
            | nil => intro _; rfl
            | cons l ls ih =>
              intro hn
              by_cases hb : strip l = []
              · rw [nonBlank_blank hb] at hn
                rw [readLines_step]
                have : parsePSV tab lx .initial l = .ok .initial := by unfold parsePSV; rw [parse_blank hb]; rfl
                rw [this]
                exact ih hn
              · rw [nonBlank_cons hb] at hn; cases hn
          exact all lines h
        rw [hr] at this
        cases this
      | noVersion h h' => exact ⟨_, _, h, .inl ⟨h', rfl⟩⟩
      | badVersion h h' h'' => exact ⟨_, _, h, .inr (.inl ⟨_, h', fun ha => h'' (ades.2 ⟨ha, by simp⟩), rfl⟩)⟩
      | line h1 h2 h3 h4 h5 h6 =>
        obtain ⟨ha, hg⟩ := ades.1 h5
        obtain ⟨gs', cur', h7, h8⟩ := steps_groups _ [] .start (.inl rfl) h4
        simp only [start_groups, List.append_nil, List.nil_append] at h8
        subst h8
        exact ⟨_, _, h1, .inr (.inr ⟨_, h2, ha, _, _, _, _, gs', cur', rfl, h3, h7, ((steps_acc _ h7).1 hg).2, (wrong_iff hl ha h7 hg).1 h6⟩)⟩

/-- C57: every file is a document (that lxml accepts) or fails in exactly one way. -/
theorem C57_either {tab : Tab} {lx : Lxml} (hw : Tab.WF tab) (hl : Psv.Lxml.Sane lx) {lines : List Str} (hlines : ∀ l ∈ lines, IsLine l) :
    ((∃ v gs, IsText (typesOf tab) lines v gs ∧ Document gs ∧ Accepted lx (adesElem (typesOf tab).allowed v gs)) ↔ ¬ ∃ e, Fails (typesOf tab) lx lines e) ∧
      ∀ e e', Fails (typesOf tab) lx lines e → Fails (typesOf tab) lx lines e' → e = e' := by
  constructor
  · constructor
    · rintro ⟨v, gs, h1, h2, h3⟩ ⟨e, he⟩
      obtain ⟨g, h⟩ := (psv_meaning hw hl hlines _).2 ⟨v, gs, h1, h2, rfl, h3⟩
      rw [(C57_fails hw hl hlines e).2 he] at h
      cases h
    · intro h
      cases hp : psvtoxml tab lx .initial (fileText lines) with
      | error e => exact absurd ⟨e, (C57_fails hw hl hlines e).1 hp⟩ h
      | ok p =>
        obtain ⟨v, gs, h1, h2, h3, h4⟩ := (psv_meaning hw hl hlines p.1).1 ⟨p.2, hp⟩
        exact ⟨v, gs, h1, h2, h3 ▸ h4⟩
  · intro e e' h h'
    have := (C57_fails hw hl hlines e).2 h
    rw [(C57_fails hw hl hlines e').2 h'] at this
    cases this
    rfl

/-- C57: the program's own message (the end of the process) is given only for the first line and for unknown column names; the other defects end in NameError, IndexError or lxml's ValueError. -/
theorem C57_message {tab : Tab} {lx : Lxml} (hw : Tab.WF tab) (hl : Psv.Lxml.Sane lx) {lines : List Str} (hlines : ∀ l ∈ lines, IsLine l) {e : PyErr}
    (h : psvtoxml tab lx .initial (fileText lines) = .error e) :
    e ∈ [.nameError, .indexError, .valueError] ∨ e = .systemExit ∧ ((∃ first rest, nonBlank lines = first :: rest ∧ ∀ v, ¬ VersionIs first v) ∨
      ∃ line ∈ lines, ∃ hd, NamesLine line hd ∧ ∀ t, ¬ (typesOf tab).Is hd t) := by
  cases (C57_fails hw hl hlines e).1 h with
  | nothing => simp
  | badVersion => simp
  | noVersion h1 h2 => exact .inr ⟨rfl, .inl ⟨_, _, h1, h2⟩⟩
  | line h1 h2 h3 h4 h5 h6 =>
    rename_i first v bad good rest gs
    have hm : bad ∈ lines := by
      have : bad ∈ nonBlank lines := by rw [h1]; simp
      exact (List.mem_filter.1 this).1
    cases h6 with
    | names h7 h8 => exact .inr ⟨rfl, .inr ⟨bad, hm, _, h7, h8⟩⟩
    | misplaced => simp
    | mark => simp
    | blank => simp
    | refused => simp

/-! ### concrete cases, with the tables of adesmaster.xml -/
namespace SamplePsvErrors

/-- names of letters and digits, texts without control characters (an approximation of lxml's rules that is enough here) -/
def lx : Xml.Lxml := ⟨fun t => decide (t ≠ []) && t.all (fun c => c.isAlphanum) && !t.head?.any Char.isDigit, fun t => t.all fun c => decide (32 ≤ c.toNat)⟩

/-- the exception of a conversion -/
def raised (lines : List Str) : Option PyErr :=
  match psvtoxml adesTab lx .initial (fileText lines) with
  | .ok _ => none
  | .error e => some e

theorem raised_fails {lines : List Str} (h : ∀ l ∈ lines, IsLine l) {e : PyErr} (he : raised lines = some e) : Fails (typesOf adesTab) lx lines e := by
  rw [← C57_fails adesTab_wf (lx := lx) ⟨by decide, by decide, by decide⟩ h]
  unfold raised at he
  split at he
  · cases he
  · rename_i e' h'
    rw [h']
    cases he
    rfl

def head : List Str := [c! "# version=2017", [], c! "# observatory", c! "! mpcCode 568", c! "mode|stn|obsTime|ra|dec|astCat", c! "CCD|568|2016-08-29T12:23:34Z|215.1|-12.5|Gaia3"]

/-- every way of failing occurs -/
theorem ways :
    raised head = none ∧
    raised [[], c! "  "] = some .nameError ∧
    raised [c! "permID|mode"] = some .systemExit ∧
    raised [c! "# version=2017\x01"] = some .valueError ∧
    raised (head ++ [c! "permID|nothing|mode"]) = some .systemExit ∧
    raised (head ++ [c! "! mpcCode 568"]) = some .nameError ∧
    raised (head ++ [c! "CCD|568|1|2|3|4|5"]) = some .nameError ∧
    raised (head ++ [c! "!"]) = some .nameError ∧
    raised (head ++ [c! "#", c! "nonsense|"]) = some .indexError ∧
    raised (head ++ [c! "CCD|568|21\x025"]) = some .valueError ∧
    raised (head ++ [c! "# 12 x"]) = some .valueError := by
  decide +kernel

/-- what the theorem says of two of them -/
theorem second_mark_fails : Fails (typesOf adesTab) lx (head ++ [c! "!"]) .nameError :=
  raised_fails (by unfold IsLine; decide) ways.2.2.2.2.2.2.2.1

theorem lone_mark_fails : Fails (typesOf adesTab) lx (head ++ [c! "#", c! "nonsense|"]) .indexError :=
  raised_fails (by unfold IsLine; decide) ways.2.2.2.2.2.2.2.2.1

end SamplePsvErrors

end Verif
