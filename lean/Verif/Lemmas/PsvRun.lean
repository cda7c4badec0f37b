import Verif.Lemmas.PsvText
/-!
  Reading a whole PSV file.
-/
namespace Verif.Psv
open Verif Verif.Xml Verif.Spec

theorem accepted_mk {lx : Lxml} {tag : Str} {text : Option Str} {attrib : Attrib} {kids : List Elem} : Accepted lx (.mk tag text attrib kids) ↔
    lx.tagOk tag = true ∧ (∀ t, text = some t → lx.textOk t = true) ∧ (∀ a ∈ attrib, lx.tagOk a.1 = true ∧ lx.textOk a.2 = true) ∧ ∀ k ∈ kids, Accepted lx k :=
  ⟨fun h => by cases h with | mk h1 h2 h3 h4 => exact ⟨h1, h2, h3, h4⟩, fun ⟨h1, h2, h3, h4⟩ => .mk h1 h2 h3 h4⟩

theorem accepted_iff {lx : Lxml} {tag : Str} {text : Option Str} {attrib : Attrib} {kids : List Elem} : Accepted lx (.mk tag (normText text) attrib kids) ↔
    lx.Accepts tag text attrib ∧ ∀ k ∈ kids, Accepted lx k := by
  rw [accepted_mk, Lxml.Accepts]
  rcases text with _ | _ | ⟨c, t⟩ <;> simp [normText, and_comm, and_left_comm]

theorem accepted_item {lx : Lxml} {i : Item} {kids : List Elem} : Accepted lx (i.elem kids) ↔ lx.Accepts i.tag i.more [] ∧ ∀ k ∈ kids, Accepted lx k := by
  rw [Item.elem, textOf_eq, accepted_iff]

theorem accepted_none {lx : Lxml} {tag : Str} {kids : List Elem} : Accepted lx (.mk tag none [] kids) ↔ lx.tagOk tag = true ∧ ∀ k ∈ kids, Accepted lx k := by
  rw [accepted_mk]; simp

theorem accepted_row {lx : Lxml} {tab : Tab} {t : Str} {h c : List Str} : Accepted lx (rowElem (order tab) t h c) ↔
    lx.Accepts t none [] ∧ ∀ x ∈ rowItems (order tab t) h c, lx.Accepts x.1 (some x.2) [] := by
  rw [rowElem, accepted_none, ← rowItems_kids]
  simp only [Lxml.Accepts, List.mem_map, forall_exists_index, and_imp]
  constructor
  · rintro ⟨h1, h2⟩
    refine ⟨⟨h1, by simp, by simp⟩, ?_⟩
    intro x hx
    have := h2 _ _ x hx rfl rfl
    rw [accepted_iff] at this
    exact this.1
  · rintro ⟨h1, h2⟩
    refine ⟨h1.1, ?_⟩
    rintro _ _ x hx rfl rfl
    rw [accepted_iff]
    exact ⟨h2 x hx, by simp⟩

/-- the row is accepted -/
def RowAcc (tab : Tab) (lx : Lxml) (t : Str) (h c : List Str) : Prop := lx.Accepts t none [] ∧ ∀ x ∈ rowItems (order tab t) h c, lx.Accepts x.1 (some x.2) []

def CtxAcc (lx : Lxml) (ctx : List (Item × List Item)) : Prop := ∀ c ∈ ctx, lx.Accepts c.1.tag c.1.more [] ∧ ∀ i ∈ c.2, lx.Accepts i.tag i.more []

/-- everything in a group is accepted -/
def GAcc (tab : Tab) (lx : Lxml) : Group → Prop
  | .table t => ∀ r ∈ t.rows, RowAcc tab lx t.tag t.hdr r
  | .block ctx none => CtxAcc lx ctx
  | .block ctx (some t) => CtxAcc lx ctx ∧ ∀ r ∈ t.rows, RowAcc tab lx t.tag t.hdr r

theorem accepted_context {lx : Lxml} (hl : Lxml.Sane lx) {ctx : List (Item × List Item)} : Accepted lx (contextElem ctx) ↔ CtxAcc lx ctx := by
  rw [contextElem, accepted_none, CtxAcc]
  simp only [hl.2.1, true_and, List.mem_map, forall_exists_index, and_imp]
  constructor
  · intro h c hc
    have := h _ c hc rfl
    rw [accepted_item] at this
    refine ⟨this.1, fun i hi => ?_⟩
    have h2 := this.2 _ (List.mem_map.2 ⟨i, hi, rfl⟩)
    rw [accepted_item] at h2
    exact h2.1
  · rintro h _ c hc rfl
    rw [accepted_item]
    refine ⟨(h c hc).1, ?_⟩
    intro k hk
    obtain ⟨i, hi, rfl⟩ := List.mem_map.1 hk
    rw [accepted_item]
    exact ⟨(h c hc).2 i hi, by simp⟩

theorem accepted_rows {tab : Tab} {lx : Lxml} {t : Str} {h : List Str} {rows : List (List Str)} :
    (∀ e ∈ rows.map (rowElem (order tab) t h), Accepted lx e) ↔ ∀ r ∈ rows, RowAcc tab lx t h r := by
  simp only [List.mem_map, forall_exists_index, and_imp]
  constructor
  · intro h r hr; exact accepted_row.1 (h _ r hr rfl)
  · rintro h _ r hr rfl; exact accepted_row.2 (h r hr)

theorem gAcc_iff {tab : Tab} {lx : Lxml} (hl : Lxml.Sane lx) (g : Group) : (∀ e ∈ g.elems (order tab), Accepted lx e) ↔ GAcc tab lx g := by
  rcases g with t | ⟨ctx, _ | t⟩
  · exact accepted_rows
  · simp only [Group.elems, List.mem_singleton, forall_eq, accepted_none, hl.1, true_and, accepted_context hl, GAcc]
  · simp only [Group.elems, GAcc]
    split
    · rename_i h
      simp only [List.mem_singleton, forall_eq, accepted_none, hl.1, true_and, accepted_context hl, h]
      simp
    · simp only [forall_eq, accepted_none, hl.1, true_and, List.mem_cons, List.not_mem_nil, or_false, forall_eq_or_imp, accepted_context hl, hl.2.2, Table.elems]
      rw [accepted_rows]

theorem step_acc {tab : Tab} {lx : Lxml} {gs gs' : List Group} {cur cur' : Cur} {l : PLine} (h : step gs cur l = some (gs', cur')) :
    (∀ g ∈ gs' ++ cur'.groups, GAcc tab lx g) ↔ (∀ g ∈ gs ++ cur.groups, GAcc tab lx g) ∧ LineAccepted tab lx cur l := by
  have e1 : ∀ (t : Str) (h c : List Str), (∀ t' h', t = t' → h = h' → lx.Accepts t' none [] ∧ ∀ x ∈ rowItems (order tab t') h' c, lx.Accepts x.1 (some x.2) []) ↔ RowAcc tab lx t h c := by
    intro t h c
    exact ⟨fun hh => hh t h rfl rfl, by rintro hh _ _ rfl rfl; exact hh⟩
  cases cur <;> cases l <;> simp only [step, reduceCtorEq, Option.some.injEq, Prod.mk.injEq, Option.ite_none_left_eq_some] at h <;>
    first
    | (obtain ⟨rfl, rfl⟩ := h
       simp [Cur.groups, LineAccepted, GAcc, CtxAcc, or_imp, forall_and, and_assoc]
       done)
    | (obtain ⟨rfl, rfl⟩ := h
       simp [Cur.groups, LineAccepted, GAcc, CtxAcc, or_imp, forall_and, and_assoc, and_comm, and_left_comm]
       done)
    | (obtain ⟨-, rfl, rfl⟩ := h
       simp only [Cur.groups, LineAccepted, Cur.header, Option.some.injEq, Prod.mk.injEq, and_imp, e1]
       simp [GAcc, or_imp, forall_and, and_assoc]
       done)

theorem steps_acc {tab : Tab} {lx : Lxml} : ∀ (ls : List PLine) {gs gs' : List Group} {cur cur' : Cur}, steps gs cur ls = some (gs', cur') →
    ((∀ g ∈ gs' ++ cur'.groups, GAcc tab lx g) ↔ (∀ g ∈ gs ++ cur.groups, GAcc tab lx g) ∧ RunAccepted tab lx gs cur ls)
  | [], gs, gs', cur, cur', h => by simp [steps] at h; obtain ⟨rfl, rfl⟩ := h; simp [RunAccepted]
  | l :: ls, gs, gs', cur, cur', h => by
    rw [steps, Option.bind_eq_some_iff] at h
    obtain ⟨⟨gs1, cur1⟩, h1, h2⟩ := h
    rw [steps_acc ls h2, step_acc h1, RunAccepted, and_assoc]
    simp [h1]

theorem accepted_ades {tab : Tab} {lx : Lxml} (hl : Lxml.Sane lx) {v : Str} {gs : List Group} :
    Accepted lx (adesElem (order tab) v gs) ↔ lx.Accepts (c! "ades") none [(c! "version", v)] ∧ ∀ g ∈ gs, GAcc tab lx g := by
  rw [adesElem, accepted_mk, Lxml.Accepts]
  have : (∀ k ∈ gs.flatMap (Group.elems (order tab)), Accepted lx k) ↔ ∀ g ∈ gs, GAcc tab lx g := by
    simp only [List.mem_flatMap, forall_exists_index, and_imp]
    constructor
    · intro h g hg; exact (gAcc_iff hl g).1 fun e he => h e g hg he
    · intro h e g hg he; exact (gAcc_iff hl g).2 (h g hg) e he
  rw [this]
  simp [and_assoc]
theorem lone_fails {tab : Tab} {lx : Lxml} {g g' : Globals} {p : LineType × List Str} (hp : Lone p) : act tab lx g p ≠ .ok g' := by
  obtain ⟨ty, f⟩ := p
  obtain ⟨h1, h2⟩ := hp
  simp only at h1 h2
  subst h1
  have e1 : ∀ {g g' : Globals}, firstObsBlockAction lx g [] ≠ .ok g' := by
    intro g g' h
    rw [firstObsBlockAction] at h
    obtain ⟨_, -, h⟩ := bind_ok.1 h
    obtain ⟨_, -, h⟩ := bind_ok.1 h
    simp [obsContextAction] at h
  intro h
  have h := bind_ok.1 h
  obtain ⟨g1, h, -⟩ := h
  rcases h2 with rfl | rfl <;> cases hs : g.state <;> rw [hs] at h <;> simp only [transition, errorAction, reduceCtorEq] at h
  · exact e1 h
  · simp [obsContextAction] at h
  · rw [closeObsBlockOpenObsBlockAction] at h
    obtain ⟨_, -, h⟩ := bind_ok.1 h
    obtain ⟨_, -, h⟩ := bind_ok.1 h
    obtain ⟨_, -, h⟩ := bind_ok.1 h
    exact e1 h
  · rw [closeDataOpenObsBlockAction] at h
    obtain ⟨_, -, h⟩ := bind_ok.1 h
    exact e1 h
  · simp [subObsContextAction] at h

theorem parse_none {tab : Tab} {l : Str} (h3 : parsePSVLine tab l = .ok none) : strip l = [] := by
  apply Classical.byContradiction
  intro hn
  unfold parsePSVLine at h3
  simp only at h3
  split at h3
  · exact hn (by assumption)
  · split at h3
    · simp at h3
    split at h3
    · simp at h3
    split at h3
    · obtain ⟨_, -, h3⟩ := bind_ok.1 h3
      obtain ⟨t, -, h3⟩ := bind_ok.1 h3
      cases t with
      | none => simp [raiseRT] at h3
      | some t =>
        simp only at h3
        split at h3
        · simp [raiseRT] at h3
        · simp [pure, Except.pure] at h3
    · simp at h3

theorem parsePSV_later {tab : Tab} {lx : Lxml} {g : Globals} (hf : g.firstLine = false) (text : Str) :
    parsePSV tab lx g text = parsePSVLine tab text >>= fun p => match p with | none => .ok g | some p => act tab lx g p := by
  unfold parsePSV
  congr 1
  funext p
  cases p with
  | none => rfl
  | some p => obtain ⟨r, f⟩ := p; simp only [hf]; rfl

theorem nonBlank_blank {l : Str} {ls : List Str} (h : strip l = []) : nonBlank (l :: ls) = nonBlank ls := by simp [nonBlank, h]
theorem nonBlank_cons {l : Str} {ls : List Str} (h : strip l ≠ []) : nonBlank (l :: ls) = l :: nonBlank ls := by simp [nonBlank, h]

/-- the lines with their newlines -/
def ended (lines : List Str) : List Str := lines.map (· ++ ['\n'])

theorem readLines_cons {tab : Tab} {lx : Lxml} {g g' : Globals} {l : Str} {ls : List Str} :
    readLines tab lx g (ended (l :: ls)) = .ok g' ↔ ∃ g1, parsePSV tab lx g l = .ok g1 ∧ readLines tab lx g1 (ended ls) = .ok g' := by
  simp only [ended, List.map_cons, readLines, List.dropLast_concat]
  cases h : parsePSV tab lx g l with
  | ok g1 => simp
  | error e => cases e <;> simp

theorem read_inv {tab : Tab} {lx : Lxml} (hw : Tab.WF tab) (hl : Lxml.Sane lx) {v : Str} : ∀ (lines : List Str) {gs : List Group} {cur : Cur} {g g' : Globals}, Sim tab v gs cur g →
    readLines tab lx g (ended lines) = .ok g' → ∃ pls gs' cur', Each (LineIs (typesOf tab)) (nonBlank lines) pls ∧ steps gs cur pls = some (gs', cur') ∧ Sim tab v gs' cur' g' ∧
      RunAccepted tab lx gs cur pls
  | [], gs, cur, g, g', hsim, h => by
    simp [ended, readLines] at h; subst h
    exact ⟨[], gs, cur, .nil, rfl, hsim, trivial⟩
  | l :: ls, gs, cur, g, g', hsim, h => by
    rw [readLines_cons] at h
    obtain ⟨g1, h1, h2⟩ := h
    rw [parsePSV_later hsim.first, bind_ok] at h1
    obtain ⟨p, h3, h4⟩ := h1
    cases p with
    | none =>
      simp at h4; subst h4
      obtain ⟨pls, gs', cur', h5, h6⟩ := read_inv hw hl ls hsim h2
      have hb := parse_none h3
      exact ⟨pls, gs', cur', by rw [nonBlank_blank hb]; exact h5, h6⟩
    | some p =>
      simp only at h4
      obtain ⟨hb, h5⟩ := parse_sound hw h3
      rcases h5 with h5 | ⟨pl, rfl, h5⟩
      · exact absurd h4 (lone_fails h5)
      · cases hst : step gs cur pl with
        | none => rw [step_none hl hsim hst] at h4; simp at h4
        | some q =>
          obtain ⟨gs1, cur1⟩ := q
          have ha := step_accepted hsim hst h4
          obtain ⟨g2, e2, hs2⟩ := step_ok hl hsim hst (lineIs_known hw h5) ha
          rw [h4] at e2
          simp at e2; subst e2
          obtain ⟨pls, gs', cur', h6, h7, h8, h9⟩ := read_inv hw hl ls hs2 h2
          refine ⟨pl :: pls, gs', cur', by rw [nonBlank_cons hb]; exact .cons h5 h6, by rw [steps, hst]; exact h7, h8, ha, ?_⟩
          intro gs2 cur2 e
          rw [hst] at e
          simp at e
          obtain ⟨rfl, rfl⟩ := e
          exact h9

theorem read_ok {tab : Tab} {lx : Lxml} (hw : Tab.WF tab) (hl : Lxml.Sane lx) {v : Str} : ∀ (lines : List Str) {pls : List PLine} {gs gs' : List Group} {cur cur' : Cur} {g : Globals},
    Sim tab v gs cur g → Each (LineIs (typesOf tab)) (nonBlank lines) pls → steps gs cur pls = some (gs', cur') → RunAccepted tab lx gs cur pls →
    ∃ g', readLines tab lx g (ended lines) = .ok g' ∧ Sim tab v gs' cur' g'
  | [], pls, gs, gs', cur, cur', g, hsim, he, hst, _ => by
    have : nonBlank [] = [] := rfl
    rw [this] at he
    cases he
    simp [steps] at hst
    obtain ⟨rfl, rfl⟩ := hst
    exact ⟨g, rfl, hsim⟩
  | l :: ls, pls, gs, gs', cur, cur', g, hsim, he, hst, ha => by
    by_cases hb : strip l = []
    · rw [nonBlank_blank hb] at he
      obtain ⟨g', h1, h2⟩ := read_ok hw hl ls hsim he hst ha
      exact ⟨g', readLines_cons.2 ⟨g, by rw [parsePSV_later hsim.first, parse_blank hb]; rfl, h1⟩, h2⟩
    · rw [nonBlank_cons hb] at he
      cases he with
      | cons h1 h2 =>
        rw [steps, Option.bind_eq_some_iff] at hst
        obtain ⟨⟨gs1, cur1⟩, h3, h4⟩ := hst
        obtain ⟨g1, h5, h6⟩ := step_ok hl hsim h3 (lineIs_known hw h1) ha.1
        obtain ⟨g', h7, h8⟩ := read_ok hw hl ls h6 h2 h4 (ha.2 _ _ h3)
        exact ⟨g', readLines_cons.2 ⟨g1, by rw [parsePSV_later hsim.first, parse_complete hw h1]; exact h5, h7⟩, h8⟩

theorem init_inv {lx : Lxml} {tag : Str} {text : Option Str} {attrib : Attrib} {s : Stk} (h : Stk.init lx tag text attrib = .ok s) : lx.Accepts tag text attrib := by
  obtain ⟨c, h1, -⟩ := bind_ok.1 h
  exact (newElement_inv h1).1

theorem sim_start {tab : Tab} {lx : Lxml} {g : Globals} {s : Stk} {v : Str} (hg : g.state = .empty) (h : Stk.init lx (c! "ades") none [(c! "version", v)] = .ok s) :
    Sim tab v [] .start { g with firstLine := false, stack := some s } ∧ lx.Accepts (c! "ades") none [(c! "version", v)] := by
  have ha := init_inv h
  obtain ⟨s', h1, h2⟩ := Rep.init ha
  rw [h] at h1
  simp at h1; subst h1
  exact ⟨⟨rfl, hg, ⟨s, rfl, h2⟩, by simp, by simp [Cur.header]⟩, ha⟩

theorem parsePSV_first {tab : Tab} {lx : Lxml} {g g' : Globals} (hf : g.firstLine = true) {text : Str} (hb : strip text ≠ []) :
    parsePSV tab lx g text = .ok g' ↔ ∃ v s, VersionIs text v ∧ Stk.init lx (c! "ades") none [(c! "version", v)] = .ok s ∧ g' = { g with firstLine := false, stack := some s } := by
  rw [← versionLine_iff]
  constructor
  · intro h
    unfold parsePSV at h
    obtain ⟨p, h1, h2⟩ := bind_ok.1 h
    cases p with
    | none => exact absurd (parse_none h1) hb
    | some p => simpa [hf] using h2
  · intro h
    obtain ⟨v, s, hv, -, -⟩ := versionLine_iff.1 h
    obtain ⟨r, e⟩ := version_strip hv
    unfold parsePSV
    have : parsePSVLine tab text = .ok (some (.top, splitWs1 r)) := by simp [parsePSVLine, e]
    rw [this]
    simp [bind, Except.bind, hf, h]

theorem start_inv {tab : Tab} {lx : Lxml} (hw : Tab.WF tab) (hl : Lxml.Sane lx) : ∀ (lines : List Str) {g g' : Globals}, g.firstLine = true → g.state = .empty →
    readLines tab lx g (ended lines) = .ok g' → (g' = g ∧ nonBlank lines = []) ∨ ∃ first rest v pls gs cur, nonBlank lines = first :: rest ∧ VersionIs first v ∧
      lx.Accepts (c! "ades") none [(c! "version", v)] ∧ Each (LineIs (typesOf tab)) rest pls ∧ steps [] .start pls = some (gs, cur) ∧ Sim tab v gs cur g' ∧ RunAccepted tab lx [] .start pls
  | [], g, g', _, _, h => by simp [ended, readLines] at h; exact .inl ⟨h.symm, rfl⟩
  | l :: ls, g, g', hf, hs, h => by
    rw [readLines_cons] at h
    obtain ⟨g1, h1, h2⟩ := h
    by_cases hb : strip l = []
    · have : parsePSV tab lx g l = .ok g := by unfold parsePSV; rw [parse_blank hb]; rfl
      rw [this] at h1; simp at h1; subst h1
      rw [nonBlank_blank hb]
      exact start_inv hw hl ls hf hs h2
    · rw [parsePSV_first hf hb] at h1
      obtain ⟨v, s, h3, h4, rfl⟩ := h1
      obtain ⟨h5, h6⟩ := sim_start (tab := tab) hs h4
      obtain ⟨pls, gs, cur, h7, h8, h9, h10⟩ := read_inv hw hl ls h5 h2
      exact .inr ⟨l, nonBlank ls, v, pls, gs, cur, nonBlank_cons hb, h3, h6, h7, h8, h9, h10⟩

theorem start_ok {tab : Tab} {lx : Lxml} (hw : Tab.WF tab) (hl : Lxml.Sane lx) : ∀ (lines : List Str) {g : Globals} {first : Str} {rest : List Str} {v : Str} {pls : List PLine}
    {gs : List Group} {cur : Cur}, g.firstLine = true → g.state = .empty → nonBlank lines = first :: rest → VersionIs first v → lx.Accepts (c! "ades") none [(c! "version", v)] →
    Each (LineIs (typesOf tab)) rest pls → steps [] .start pls = some (gs, cur) → RunAccepted tab lx [] .start pls →
    ∃ g', readLines tab lx g (ended lines) = .ok g' ∧ Sim tab v gs cur g'
  | [], g, first, rest, v, pls, gs, cur, _, _, h, _, _, _, _, _ => by simp [nonBlank] at h
  | l :: ls, g, first, rest, v, pls, gs, cur, hf, hs, h, hv, ha, he, hst, hr => by
    by_cases hb : strip l = []
    · have : parsePSV tab lx g l = .ok g := by unfold parsePSV; rw [parse_blank hb]; rfl
      rw [nonBlank_blank hb] at h
      obtain ⟨g', h1, h2⟩ := start_ok hw hl ls hf hs h hv ha he hst hr
      exact ⟨g', readLines_cons.2 ⟨g, this, h1⟩, h2⟩
    · rw [nonBlank_cons hb] at h
      simp at h
      obtain ⟨rfl, rfl⟩ := h
      obtain ⟨s, h1, -⟩ := Rep.init ha
      obtain ⟨h5, -⟩ := sim_start (tab := tab) hs h1
      obtain ⟨g', h6, h7⟩ := read_ok hw hl ls h5 he hst hr
      exact ⟨g', readLines_cons.2 ⟨_, (parsePSV_first hf hb).2 ⟨v, s, hv, h1, rfl⟩, h6⟩, h7⟩

theorem fileLines_line {l : Str} (h : '\n' ∉ l) (s : Str) : fileLines (l ++ '\n' :: s) = (l ++ ['\n']) :: fileLines s := by
  induction l with
  | nil => simp [fileLines]
  | cons c l ih =>
    simp at h
    rw [List.cons_append, fileLines, if_neg (fun e => h.1 e.symm), ih h.2]
    rfl

theorem fileLines_last {l : Str} (h : '\n' ∉ l) (hne : l ≠ []) : fileLines l = [l] := by
  induction l with
  | nil => exact absurd rfl hne
  | cons c l ih =>
    simp at h
    rw [fileLines, if_neg (fun e => h.1 e.symm)]
    cases l with
    | nil => rfl
    | cons d l => rw [ih h.2 (by simp)]

theorem fileLines_text : ∀ (lines : List Str), (∀ l ∈ lines, '\n' ∉ l) → ∀ s, fileLines (fileText lines ++ s) = ended lines ++ fileLines s
  | [], _, s => rfl
  | l :: ls, h, s => by
    have e : fileText (l :: ls) ++ s = l ++ '\n' :: (fileText ls ++ s) := by simp [fileText]
    rw [e, fileLines_line (h l (by simp)), fileLines_text ls (fun x hx => h x (by simp [hx]))]
    simp [ended]

theorem universalNewlines_id : ∀ {s : Str}, '\r' ∉ s → universalNewlines s = s
  | [], _ => rfl
  | c :: s, h => by
    simp at h
    rw [universalNewlines]
    · rw [universalNewlines_id h.2]
    · rintro _ rfl; exact absurd rfl h.1
    · rintro rfl; exact absurd rfl h.1

theorem steps_unique_groups {gs : List Group} (h : Document gs) {gs' : List Group} {cur' : Cur} (h' : steps [] .start (gs.flatMap Group.lines) = some (gs', cur')) : gs' ++ cur'.groups = gs := by
  obtain ⟨g2, c2, h1, h2⟩ := steps_groups gs [] .start (.inl rfl) h
  rw [h'] at h1
  simp at h1
  obtain ⟨rfl, rfl⟩ := h1
  simpa [Cur.groups] using h2

end Verif.Psv
