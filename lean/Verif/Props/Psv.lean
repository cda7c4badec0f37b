import Verif.Lemmas.PsvRun
/-!
  C18-C22: PSV to XML.
-/
namespace Verif
open Verif.Xml Verif.Psv Verif.Spec

theorem psvtoxml_text {tab : Tab} {lx : Lxml} {g : Globals} {lines : List Str} (h : ∀ l ∈ lines, IsLine l) :
    psvtoxml tab lx g (fileText lines) = (do
      let g ← readLines tab lx g (ended lines)
      let s ← g.getStack
      let (tree, s) ← s.takeTreeAndClear
      return (tree, { g with stack := some s })) := by
  have e1 : '\r' ∉ fileText lines := by
    simp only [fileText, List.mem_flatMap, not_exists, not_and, List.mem_append]
    intro l hl hc
    rcases hc with hc | hc
    · exact (h l hl).2 hc
    · simp at hc
  have e2 := fileLines_text lines (fun l hl => (h l hl).1) []
  rw [List.append_nil] at e2
  rw [psvtoxml, universalNewlines_id e1, e2]
  simp [fileLines]

theorem finish_ok {tab : Tab} {v : Str} {gs : List Group} {cur : Cur} {g : Globals} (h : Sim tab v gs cur g) :
    ∃ s, (do
      let s ← g.getStack
      let (tree, s) ← s.takeTreeAndClear
      return (tree, { g with stack := some s }) : Py (Elem × Globals)) = .ok (adesElem (order tab) v (gs ++ cur.groups), { g with stack := some s }) ∧ s.stack = [] := by
  obtain ⟨s, h1, h2⟩ := h.stack
  obtain ⟨f, fs, h3, h4⟩ := zipper_close tab v gs cur
  rw [h3] at h2
  refine ⟨{ s with stack := [] }, ?_, rfl⟩
  simp only [Globals.getStack, h1, bind, Except.bind, h2.take, h4]
  rfl

theorem steps_to_start : ∀ (ls : List PLine) {gs gs' : List Group} {cur : Cur}, steps gs cur ls = some (gs', .start) → ls = []
  | [], _, _, _, _ => rfl
  | l :: ls, gs, gs', cur, h => by
    rw [steps, Option.bind_eq_some_iff] at h
    obtain ⟨⟨g1, c1⟩, h1, h2⟩ := h
    have := steps_to_start ls h2
    subst this
    simp [steps] at h2
    obtain ⟨-, rfl⟩ := h2
    cases cur <;> cases l <;> simp [step] at h1

/-- the result of a first call, with what is left behind -/
theorem psv_call {tab : Tab} {lx : Lxml} (hw : Tab.WF tab) (hl : Psv.Lxml.Sane lx) {lines : List Str} (hlines : ∀ l ∈ lines, IsLine l) {tree : Elem} {g : Globals} :
    psvtoxml tab lx .initial (fileText lines) = .ok (tree, g) →
    ∃ v gs, ∃ cur : Cur, IsText (typesOf tab) lines v (gs ++ cur.groups) ∧ Document (gs ++ cur.groups) ∧ tree = adesElem (typesOf tab).allowed v (gs ++ cur.groups) ∧ Accepted lx tree ∧
      g.firstLine = false ∧ g.state = cur.state ∧ (∃ s, g.stack = some s ∧ s.stack = []) ∧ (cur = .start → gs = []) := by
  intro h
  rw [psvtoxml_text hlines, bind_ok] at h
  obtain ⟨g1, h1, h2⟩ := h
  rcases start_inv hw hl lines rfl rfl h1 with ⟨rfl, -⟩ | ⟨first, rest, v, pls, gs, cur, e1, e2, e3, e4, e5, e6, e7⟩
  · simp [Globals.initial, Globals.getStack, bind, Except.bind] at h2
  · obtain ⟨s, h3, h4⟩ := finish_ok e6
    rw [h3] at h2
    simp only [Except.ok.injEq, Prod.mk.injEq] at h2
    obtain ⟨rfl, rfl⟩ := h2
    obtain ⟨l1, l2⟩ := steps_lines pls e5 ⟨by simp [Cur.groups], by simp⟩
    simp [Cur.groups] at l1
    refine ⟨v, gs, cur, ⟨first, rest, e1, e2, ?_⟩, l2.document, rfl, ?_, e6.first, e6.state, ⟨s, rfl, h4⟩, ?_⟩
    · rw [List.flatMap_append]
      cases cur <;> simp [Cur.groups] at l1 ⊢ <;> rw [l1] <;> exact e4
    · rw [accepted_ades hl]
      exact ⟨e3, (steps_acc pls e5).2 ⟨by simp [Cur.groups], e7⟩⟩
    · rintro rfl
      have : pls = [] := steps_to_start pls e5
      subst this
      simp [steps] at e5
      exact e5

/-- What `psvtoxml` does: it succeeds exactly on the texts of documents (that lxml accepts), with the tree of the document. -/
theorem psv_meaning {tab : Tab} {lx : Lxml} (hw : Tab.WF tab) (hl : Psv.Lxml.Sane lx) {lines : List Str} (hlines : ∀ l ∈ lines, IsLine l) (tree : Elem) :
    (∃ g, psvtoxml tab lx .initial (fileText lines) = .ok (tree, g)) ↔
    ∃ v gs, IsText (typesOf tab) lines v gs ∧ Document gs ∧ tree = adesElem (typesOf tab).allowed v gs ∧ Accepted lx tree := by
  constructor
  · rintro ⟨g, h⟩
    obtain ⟨v, gs, cur, h1, h2, h3, h4, -⟩ := psv_call hw hl hlines h
    exact ⟨v, _, h1, h2, h3, h4⟩
  · rintro ⟨v, gs, ⟨first, rest, e1, e2, e3⟩, hd, rfl, ha⟩
    rw [psvtoxml_text hlines]
    obtain ⟨gs', cur', h1, h2⟩ := steps_groups gs [] .start (.inl rfl) hd
    simp [Cur.groups] at h2
    have ha' := (accepted_ades hl).1 ha
    have hr : RunAccepted tab lx [] .start (gs.flatMap Group.lines) := by
      refine ((steps_acc _ h1).1 ?_).2
      have : gs' ++ cur'.groups = gs := by cases cur' <;> simpa [Cur.groups] using h2
      rw [this]; exact ha'.2
    obtain ⟨g', h3, h4⟩ := start_ok (g := .initial) hw hl lines rfl rfl e1 e2 ha'.1 e3 h1 hr
    obtain ⟨s, h5, -⟩ := finish_ok h4
    rw [h3]
    have : gs' ++ cur'.groups = gs := by cases cur' <;> simpa [Cur.groups] using h2
    rw [this] at h5
    exact ⟨_, h5⟩

theorem raw_inj : ∀ {l l' : PLine}, raw l = raw l' → l = l' := by
  have it : ∀ {i j : Item}, i.tag :: i.more.toList = j.tag :: j.more.toList → i = j := by
    rintro ⟨a, b⟩ ⟨a', b'⟩ h
    simp at h
    obtain ⟨rfl, h⟩ := h
    cases b <;> cases b' <;> simp_all
  intro l l' h
  cases l <;> cases l' <;> simp [raw, -List.cons.injEq] at h
  · rw [it h]
  · rw [it h]
  · rw [h.1, h.2]
  · rw [h]

theorem line_inj {tab : Tab} (hw : Tab.WF tab) {l : Str} {p p' : PLine} (h : LineIs (typesOf tab) l p) (h' : LineIs (typesOf tab) l p') : p = p' := by
  have e := parse_complete hw h
  rw [parse_complete hw h'] at e
  simp at e
  exact (raw_inj e).symm

theorem each_line_inj {tab : Tab} (hw : Tab.WF tab) : ∀ {ls : List Str} {ps ps' : List PLine}, Each (LineIs (typesOf tab)) ls ps → Each (LineIs (typesOf tab)) ls ps' → ps = ps' := by
  intro ls
  induction ls with
  | nil => intro ps ps' h h'; cases h; cases h'; rfl
  | cons l ls ih =>
    intro ps ps' h h'
    cases h with
    | cons h1 h2 =>
      cases h' with
      | cons h1' h2' => rw [line_inj hw h1 h1', ih h2 h2']

/-- the document of a text is determined by the text -/
theorem psv_unambiguous {tab : Tab} (hw : Tab.WF tab) {lines : List Str} {v v' : Str} {gs gs' : List Group} (h : IsText (typesOf tab) lines v gs) (hd : Document gs)
    (h' : IsText (typesOf tab) lines v' gs') (hd' : Document gs') : v = v' ∧ gs = gs' := by
  obtain ⟨f, r, e1, e2, e3⟩ := h
  obtain ⟨f', r', e1', e2', e3'⟩ := h'
  rw [e1] at e1'
  simp at e1'
  obtain ⟨rfl, rfl⟩ := e1'
  constructor
  · obtain ⟨a, b, h1, h2, h3, h4, h5⟩ := e2
    obtain ⟨a', b', h1', h2', h3', h4', h5'⟩ := e2'
    have := splitChar_two.2 ⟨h1, h2, h3⟩
    rw [splitChar_two.2 ⟨h1', h2', h3'⟩] at this
    simp at this
    rw [h5, h5', this.2]
  · have e := each_line_inj hw e3 e3'
    obtain ⟨g1, c1, s1, s2⟩ := steps_groups gs [] .start (.inl rfl) hd
    rw [e] at s1
    have s3 := steps_unique_groups hd' s1
    rw [s3] at s2
    simpa [Cur.groups] using s2.symm

theorem Each.exists {α β : Type} {R : α → β → Prop} : ∀ {as : List α} {bs : List β}, Each R as bs → ∀ b ∈ bs, ∃ a ∈ as, R a b
  | _, _, .nil, b, hb => by simp at hb
  | _, _, .cons (a := a) (b := b') h1 h2, b, hb => by
    simp at hb
    rcases hb with rfl | hb
    · exact ⟨a, by simp, h1⟩
    · obtain ⟨x, hx, h⟩ := Each.exists h2 b hb
      exact ⟨x, by simp [hx], h⟩

theorem rowKids_tags (o h c : List Str) : ((rowKids o h c).map Elem.tag).Sublist o := by
  unfold rowKids
  induction o with
  | nil => simp
  | cons n o ih =>
    rw [List.filterMap_cons]
    split
    · exact ih.cons _
    · rename_i e he
      have : e.tag = n := by
        split at he
        · split at he <;> simp at he; rw [← he]; rfl
        · simp at he
      rw [List.map_cons, this]
      exact ih.cons_cons _

theorem row_observation (ty : Types) (t : Str) (h c : List Str) : Observation ty t (rowElem ty.allowed t h c) := by
  refine ⟨rfl, rfl, rfl, ?_, rowKids_tags _ _ _⟩
  intro k hk
  unfold rowKids at hk
  obtain ⟨n, -, hn⟩ := List.mem_filterMap.1 hk
  split at hn
  · split at hn <;> simp at hn
    rw [← hn]
    exact ⟨by simp, rfl, rfl⟩
  · simp at hn

/-- C19: whatever is read, the tree is `ades` containing blocks (context, then data of one observation type) and observations, and nothing else. -/
theorem C19_nesting {tab : Tab} {lx : Lxml} (hw : Tab.WF tab) (hl : Psv.Lxml.Sane lx) {lines : List Str} (hlines : ∀ l ∈ lines, IsLine l) {tree : Elem} {g : Globals}
    (h : psvtoxml tab lx .initial (fileText lines) = .ok (tree, g)) : Nested (typesOf tab) tree := by
  obtain ⟨v, gs, ⟨first, rest, -, -, he⟩, hd, rfl, -⟩ := (psv_meaning hw hl hlines tree).1 ⟨g, h⟩
  have kind : ∀ hd t, PLine.keyword hd t ∈ gs.flatMap Group.lines → t ∈ (typesOf tab).kinds := by
    intro hdr t ht
    obtain ⟨x, -, hx⟩ := Each.exists he _ ht
    obtain ⟨-, -, -, -, -, a, b, e, -⟩ := hx
    rw [e]; simp
  refine ⟨v, _, rfl, ?_⟩
  intro k hk
  obtain ⟨gr, hg, hk⟩ := List.mem_flatMap.1 hk
  have ctxOk : ∀ ctx : List (Item × List Item), ∀ c ∈ ctx.map (fun c => c.1.elem (c.2.map fun i => i.elem [])), ContextItem c := by
    intro ctx c hc
    obtain ⟨x, -, rfl⟩ := List.mem_map.1 hc
    refine ⟨rfl, ?_⟩
    intro k hk
    obtain ⟨y, -, rfl⟩ := List.mem_map.1 hk
    exact ⟨rfl, rfl⟩
  have hf := hd.1 gr hg
  rcases gr with t | ⟨ctx, _ | t⟩
  · right
    obtain ⟨r, hr, rfl⟩ := List.mem_map.1 hk
    exact ⟨t.tag, kind t.hdr t.tag (List.mem_flatMap.2 ⟨_, hg, by simp [Group.lines, Table.lines]⟩), row_observation _ _ _ _⟩
  · left
    simp [Group.elems] at hk
    subst hk
    exact ⟨_, by simpa [Group.Fits] using hf, ctxOk ctx, .inl rfl⟩
  · left
    have hne : ctx ≠ [] := hf.1
    simp only [Group.elems] at hk
    split at hk
    · simp at hk
      subst hk
      exact ⟨_, by simpa using hne, ctxOk ctx, .inl rfl⟩
    · rename_i hrows
      simp at hk
      subst hk
      refine ⟨_, by simpa using hne, ctxOk ctx, .inr ⟨t.tag, kind t.hdr t.tag (List.mem_flatMap.2 ⟨_, hg, by simp [Group.lines, Table.lines]⟩), t.elems _, by simpa [Table.elems] using hrows, ?_, rfl⟩⟩
      intro o ho
      obtain ⟨r, -, rfl⟩ := List.mem_map.1 ho
      exact row_observation _ _ _ _

/-- the rows of a group, with the type and columns of their table -/
def Spec.Group.rows : Group → List (Str × List Str × List Str)
  | .table t => t.rows.map fun r => (t.tag, t.hdr, r)
  | .block _ none => []
  | .block _ (some t) => t.rows.map fun r => (t.tag, t.hdr, r)

theorem cell_some {h cells : List Str} (hn : h.Nodup) {n v : Str} (hm : (n, v) ∈ h.zip cells) : cell h cells n = some v := by
  unfold cell
  have : (h.zip cells).filter (fun p => p.1 = n) = [(n, v)] := by
    induction h generalizing cells with
    | nil => simp at hm
    | cons a h ih =>
      cases cells with
      | nil => simp at hm
      | cons b cells =>
        rw [List.nodup_cons] at hn
        simp only [List.zip_cons_cons, List.mem_cons, Prod.mk.injEq] at hm
        rw [List.zip_cons_cons, List.filter_cons]
        rcases hm with ⟨rfl, rfl⟩ | hm
        · simp only [decide_true, if_true, List.cons.injEq, true_and]
          rw [List.filter_eq_nil_iff]
          rintro ⟨x, y⟩ hx
          have := (List.of_mem_zip hx).1
          simp only [decide_eq_true_eq]
          rintro rfl
          exact hn.1 this
        · have h1 := (List.of_mem_zip hm).1
          have : a ≠ n := by rintro rfl; exact hn.1 h1
          simp only [this, decide_false, Bool.false_eq_true, if_false]
          exact ih hn.2 hm
  rw [this]; rfl

theorem cell_mem {h cells : List Str} {n v : Str} (hc : cell h cells n = some v) : (n, v) ∈ h.zip cells := by
  unfold cell at hc
  cases hl : ((h.zip cells).filter fun p => p.1 = n).getLast? with
  | none => rw [hl] at hc; simp at hc
  | some p =>
    rw [hl] at hc
    simp at hc
    have := List.mem_filter.1 (List.mem_of_getLast? hl)
    simp at this
    obtain ⟨a, b⟩ := p
    simp at hc this
    rw [← hc, ← this.2]; exact this.1

/-- a row as elements: exactly the non-blank cells, each under its column name, in the order of the schema -/
theorem row_cells {o h cells : List Str} (ho : o.Nodup) (hn : h.Nodup) (hs : ∀ n ∈ h, n ∈ o) :
    ((rowKids o h cells).map fun k => (k.tag, k.text)).Perm (((h.zip cells).filter fun p => p.2 ≠ []).map fun p => (p.1, some p.2)) ∧
    ((rowKids o h cells).map Elem.tag).Sublist o ∧ ∀ k ∈ rowKids o h cells, Leaf k := by
  refine ⟨?_, rowKids_tags _ _ _, (row_observation ⟨[], fun _ => o, fun _ => []⟩ [] h cells).2.2.2.1⟩
  have zn : ∀ {h cells : List Str}, h.Nodup → (h.zip cells).Nodup := by
    intro h
    induction h with
    | nil => simp
    | cons a h ih =>
      intro cells hn
      rw [List.nodup_cons] at hn
      cases cells with
      | nil => simp
      | cons b cells =>
        rw [List.zip_cons_cons, List.nodup_cons]
        exact ⟨fun hm => hn.1 (List.of_mem_zip hm).1, ih hn.2⟩
  rw [List.perm_ext_iff_of_nodup]
  · rintro ⟨n, x⟩
    simp only [List.mem_map, Prod.mk.injEq, List.mem_filter, ne_eq, decide_eq_true_eq]
    constructor
    · rintro ⟨k, hk, rfl, rfl⟩
      obtain ⟨n, -, hn⟩ := List.mem_filterMap.1 hk
      split at hn
      · rename_i v hv
        split at hn <;> simp at hn
        rename_i hne
        exact ⟨(n, v), ⟨cell_mem hv, by simpa using hne⟩, by rw [← hn]; rfl, by rw [← hn]; rfl⟩
      · simp at hn
    · rintro ⟨⟨n', v⟩, ⟨h1, h2⟩, rfl, rfl⟩
      refine ⟨.mk n' (some v) [] [], List.mem_filterMap.2 ⟨n', hs n' (List.of_mem_zip h1).1, ?_⟩, rfl, rfl⟩
      rw [cell_some hn h1]
      simp [show v ≠ [] from h2]
  · have := (rowKids_tags o h cells).nodup ho
    rw [List.nodup_iff_pairwise_ne, List.pairwise_map] at this ⊢
    exact this.imp fun hab e => hab (by simp only [Prod.mk.injEq] at e; exact e.1)
  · have h1 := (zn (cells := cells) hn).filter fun p => decide (p.2 ≠ [])
    rw [List.nodup_iff_pairwise_ne, List.pairwise_map]
    refine (List.nodup_iff_pairwise_ne.1 h1).imp ?_
    rintro ⟨a, b⟩ ⟨c, d⟩ hab e
    simp at e
    exact hab (by rw [e.1, e.2])

/-- C18: every row of an accepted file has at most as many cells as columns; if the column names are distinct, its element has exactly the non-blank cells as
    sub-elements, named by the columns, in the order of the schema; the names are allowed for the observation type of the table. -/
theorem C18_rows {tab : Tab} {lx : Lxml} (hw : Tab.WF tab) (hl : Psv.Lxml.Sane lx) (hnd : ∀ t, ((typesOf tab).allowed t).Nodup) {lines : List Str} (hlines : ∀ l ∈ lines, IsLine l)
    {tree : Elem} {g : Globals} (h : psvtoxml tab lx .initial (fileText lines) = .ok (tree, g)) :
    ∃ v gs, IsText (typesOf tab) lines v gs ∧ tree = adesElem (typesOf tab).allowed v gs ∧
      ∀ t hdr cells, (t, hdr, cells) ∈ gs.flatMap Group.rows → cells.length ≤ hdr.length ∧ (∀ n ∈ hdr, n ∈ (typesOf tab).allowed t) ∧
        ∃ kids, rowElem (typesOf tab).allowed t hdr cells = .mk t none [] kids ∧ (kids.map Elem.tag).Sublist ((typesOf tab).allowed t) ∧ (∀ k ∈ kids, Leaf k) ∧
        (hdr.Nodup → (kids.map fun k => (k.tag, k.text)).Perm (((hdr.zip cells).filter fun p => p.2 ≠ []).map fun p => (p.1, some p.2))) := by
  obtain ⟨v, gs, ht, hd, rfl, -⟩ := (psv_meaning hw hl hlines tree).1 ⟨g, h⟩
  refine ⟨v, gs, ht, rfl, ?_⟩
  obtain ⟨first, rest, -, -, he⟩ := ht
  intro t hdr cells hm
  obtain ⟨gr, hg, hm⟩ := List.mem_flatMap.1 hm
  obtain ⟨tb, e1, e2, e3⟩ : ∃ tb : Table, .keyword tb.hdr tb.tag ∈ gr.lines ∧ tb.Fits ∧ ∃ r ∈ tb.rows, (tb.tag, tb.hdr, r) = (t, hdr, cells) := by
    have hf := hd.1 gr hg
    rcases gr with tb | ⟨ctx, _ | tb⟩
    · exact ⟨tb, by simp [Group.lines, Table.lines], hf, by simpa [Spec.Group.rows] using hm⟩
    · simp [Spec.Group.rows] at hm
    · exact ⟨tb, by simp [Group.lines, Table.lines], hf.2, by simpa [Spec.Group.rows] using hm⟩
  obtain ⟨r, hr, e⟩ := e3
  simp at e
  obtain ⟨rfl, rfl, rfl⟩ := e
  obtain ⟨x, -, hx⟩ := Each.exists he _ (List.mem_flatMap.2 ⟨gr, hg, e1⟩)
  obtain ⟨-, -, -, -, -, a, b, ek, hs, -⟩ := hx
  refine ⟨e2 r hr, hs.1, _, rfl, rowKids_tags _ _ _, (row_observation _ tb.tag tb.hdr r).2.2.2.1, fun hn => (row_cells (hnd _) hn hs.1).1⟩

/-- a duplicated column silently loses its first cell -/
theorem C18_duplicate_column {o : List Str} {n x y : Str} (ho : o.Nodup) (hn : n ∈ o) (hy : y ≠ []) : rowKids o [n, n] [x, y] = [.mk n (some y) [] []] := by
  have e : ∀ m, cell [n, n] [x, y] m = if n = m then some y else none := by
    intro m; by_cases h : n = m <;> simp [cell, h]
  obtain ⟨a, b, rfl⟩ := List.append_of_mem hn
  have h1 : ∀ l : List Str, n ∉ l → rowKids l [n, n] [x, y] = [] := by
    intro l hl
    unfold rowKids
    rw [List.filterMap_eq_nil_iff]
    intro m hm
    rw [e, if_neg (by rintro rfl; exact hl hm)]
  rw [List.nodup_append] at ho
  obtain ⟨-, h2, h3⟩ := ho
  rw [List.nodup_cons] at h2
  have ea := h1 a fun h => h3 n h n (by simp) rfl
  have eb := h1 b h2.1
  unfold rowKids at *
  rw [List.filterMap_append, ea, List.filterMap_cons, eb, e]
  simp [hy]

theorem header_kept {t : Str} {h : List Str} : ∀ (rows : List (List Str)) {gs gs' : List Group} {cur cur' : Cur}, cur.header = some (t, h) →
    steps gs cur (rows.map .data) = some (gs', cur') → cur'.header = some (t, h)
  | [], gs, gs', cur, cur', hc, e => by simp [steps] at e; obtain ⟨rfl, rfl⟩ := e; exact hc
  | r :: rows, gs, gs', cur, cur', hc, e => by
    rw [List.map_cons, steps, Option.bind_eq_some_iff] at e
    obtain ⟨⟨g1, c1⟩, h1, h2⟩ := e
    refine header_kept rows ?_ h2
    cases cur <;> simp [step, Cur.header] at h1 hc <;> obtain ⟨-, -, rfl⟩ := h1 <;> simpa [Cur.header] using hc

/-- C18: a row with more cells than columns is refused -/
theorem C18_too_many_cells {tab : Tab} {lx : Lxml} (hw : Tab.WF tab) (hl : Psv.Lxml.Sane lx) {lines : List Str} (hlines : ∀ l ∈ lines, IsLine l)
    {before rows after : List Str} {kw row : Str} (hsplit : nonBlank lines = before ++ kw :: (rows ++ row :: after)) (hfirst : before ≠ [])
    {h : List Str} {t : Str} (hk : LineIs (typesOf tab) kw (.keyword h t)) {rs : List (List Str)} (hrs : Each (LineIs (typesOf tab)) rows (rs.map .data)) {cells : List Str}
    (hr : LineIs (typesOf tab) row (.data cells)) (hlong : h.length < cells.length) (r : Elem × Globals) :
    psvtoxml tab lx .initial (fileText lines) ≠ .ok r := by
  intro hp
  obtain ⟨v, gs, ⟨first, rest, e1, -, he⟩, hd, -⟩ := (psv_meaning hw hl hlines r.1).1 ⟨r.2, hp⟩
  cases before with
  | nil => exact absurd rfl hfirst
  | cons b before =>
    rw [hsplit] at e1
    simp at e1
    obtain ⟨rfl, rfl⟩ := e1
    obtain ⟨gs', cur', hst, -⟩ := steps_groups gs [] .start (.inl rfl) hd
    have app : ∀ {as bs : List Str} {ps : List PLine}, Each (LineIs (typesOf tab)) (as ++ bs) ps → ∃ ps1 ps2, ps = ps1 ++ ps2 ∧ Each (LineIs (typesOf tab)) as ps1 ∧ Each (LineIs (typesOf tab)) bs ps2 := by
      intro as
      induction as with
      | nil => intro bs ps h; exact ⟨[], ps, rfl, .nil, h⟩
      | cons a as ih =>
        intro bs ps h
        cases h with
        | cons h1 h2 =>
          obtain ⟨p1, p2, rfl, h3, h4⟩ := ih h2
          exact ⟨_ :: p1, p2, rfl, .cons h1 h3, h4⟩
    have inj : ∀ {ls : List Str} {ps ps' : List PLine}, Each (LineIs (typesOf tab)) ls ps → Each (LineIs (typesOf tab)) ls ps' → ps = ps' := each_line_inj hw
    obtain ⟨p1, p2, e2, -, h2⟩ := app he
    rw [e2] at hst
    cases h2 with
    | cons h3 h4 =>
      obtain ⟨p3, p4, rfl, h5, h6⟩ := app h4
      cases h6 with
      | cons h7 h8 =>
        have a1 := line_inj hw h3 hk
        have a2 := line_inj hw h7 hr
        have a3 := inj h5 hrs
        subst a1 a2 a3
        rw [steps_append, Option.bind_eq_some_iff] at hst
        obtain ⟨⟨g1, c1⟩, -, hst⟩ := hst
        rw [steps, Option.bind_eq_some_iff] at hst
        obtain ⟨⟨g2, c2⟩, s1, hst⟩ := hst
        have hc2 : c2.header = some (t, h) := by
          cases c1 <;> simp [step] at s1 <;> obtain ⟨-, rfl⟩ := s1 <;> rfl
        simp only at hst
        rw [steps_append, Option.bind_eq_some_iff] at hst
        obtain ⟨⟨g3, c3⟩, s2, hst⟩ := hst
        have hc3 := header_kept rs hc2 s2
        rw [steps, Option.bind_eq_some_iff] at hst
        obtain ⟨⟨g4, c4⟩, s3, -⟩ := hst
        simp only at s3
        cases c3 <;> simp [step, Cur.header] at s3 hc3 <;> obtain ⟨rfl, rfl⟩ := hc3 <;> omega

/-- C20: in an accepted file every non-blank line is the version line or a line of the document, in order; nothing is left over. -/
theorem C20_every_line {tab : Tab} {lx : Lxml} (hw : Tab.WF tab) (hl : Psv.Lxml.Sane lx) {lines : List Str} (hlines : ∀ l ∈ lines, IsLine l)
    {tree : Elem} {g : Globals} (h : psvtoxml tab lx .initial (fileText lines) = .ok (tree, g)) :
    ∃ first rest v gs, nonBlank lines = first :: rest ∧ VersionIs first v ∧ Each (LineIs (typesOf tab)) rest (gs.flatMap Group.lines) ∧ tree = adesElem (typesOf tab).allowed v gs := by
  obtain ⟨v, gs, ⟨first, rest, h1, h2, h3⟩, -, h4, -⟩ := (psv_meaning hw hl hlines tree).1 ⟨g, h⟩
  exact ⟨first, rest, v, gs, h1, h2, h3, h4⟩

/-- C20: a file with a line that is none of the four kinds is refused -/
theorem C20_unknown_line_refused {tab : Tab} {lx : Lxml} (hw : Tab.WF tab) (hl : Psv.Lxml.Sane lx) {lines : List Str} (hlines : ∀ l ∈ lines, IsLine l)
    {first : Str} {rest : List Str} (hs : nonBlank lines = first :: rest) {l : Str} (hm : l ∈ rest) (hn : ∀ p, ¬ LineIs (typesOf tab) l p) (r : Elem × Globals) :
    psvtoxml tab lx .initial (fileText lines) ≠ .ok r := by
  intro hp
  obtain ⟨v, gs, ⟨first', rest', e1, -, he⟩, -⟩ := (psv_meaning hw hl hlines r.1).1 ⟨r.2, hp⟩
  rw [hs] at e1
  simp at e1
  obtain ⟨rfl, rfl⟩ := e1
  have : ∀ {as : List Str} {bs : List PLine}, Each (LineIs (typesOf tab)) as bs → l ∈ as → False := by
    intro as
    induction as with
    | nil => intro bs _ h; simp at h
    | cons a as ih =>
      intro bs h hm
      cases h with
      | cons h1 h2 =>
        simp at hm
        rcases hm with rfl | hm
        · exact hn _ h1
        · exact ih h2 hm
  exact this he hm

/-- C22: with line ends `\r\n` or `\r` the result is the same as with `\n` -/
theorem C22_line_ends {tab : Tab} {lx : Lxml} {g : Globals} {lines : List Str} (h : ∀ l ∈ lines, IsLine l) :
    psvtoxml tab lx g (lines.flatMap (· ++ ['\r', '\n'])) = psvtoxml tab lx g (fileText lines) ∧
    psvtoxml tab lx g (lines.flatMap (· ++ ['\r'])) = psvtoxml tab lx g (fileText lines) := by
  have app : ∀ {l s : Str}, '\r' ∉ l → universalNewlines (l ++ s) = l ++ universalNewlines s := by
    intro l s hl
    induction l with
    | nil => rfl
    | cons c l ih =>
      simp at hl
      rw [List.cons_append, universalNewlines]
      · rw [ih hl.2]; rfl
      · rintro _ rfl; exact absurd rfl hl.1
      · rintro rfl; exact absurd rfl hl.1
  have e0 : universalNewlines (fileText lines) = fileText lines := by
    apply universalNewlines_id
    simp only [fileText, List.mem_flatMap, not_exists, not_and, List.mem_append]
    intro l hl hc
    rcases hc with hc | hc
    · exact (h l hl).2 hc
    · simp at hc
  have e1 : universalNewlines (lines.flatMap (· ++ ['\r', '\n'])) = fileText lines := by
    clear e0
    induction lines with
    | nil => rfl
    | cons l ls ih =>
      have := ih fun x hx => h x (by simp [hx])
      simp only [List.flatMap_cons, List.append_assoc, List.cons_append, List.nil_append, fileText] at this ⊢
      rw [app (h l (by simp)).2, universalNewlines, this]
  have e2 : universalNewlines (lines.flatMap (· ++ ['\r'])) = fileText lines := by
    clear e0 e1
    induction lines with
    | nil => rfl
    | cons l ls ih =>
      have := ih fun x hx => h x (by simp [hx])
      simp only [List.flatMap_cons, List.append_assoc, List.cons_append, List.nil_append, fileText] at this ⊢
      rw [app (h l (by simp)).2]
      congr 1
      rw [universalNewlines]
      · rw [this]
      · intro s hs
        cases ls with
        | nil => simp at hs
        | cons l' ls =>
          have h1 := (h l' (by simp)).1
          cases l' with
          | nil => simp at hs
          | cons c l' => simp at hs h1; exact h1.1 hs.1.symm
  constructor
  · rw [psvtoxml, psvtoxml, e1, e0]
  · rw [psvtoxml, psvtoxml, e2, e0]

/-- C22: without a newline at the end of the file the last line loses its last character -/
theorem C22_last_character_lost {tab : Tab} {lx : Lxml} {g : Globals} {lines : List Str} (h : ∀ l ∈ lines, IsLine l) {x : Str} {c : Char} (hx : IsLine (x ++ [c])) :
    psvtoxml tab lx g (fileText lines ++ (x ++ [c])) = psvtoxml tab lx g (fileText (lines ++ [x])) := by
  have hr : ∀ {ls : List Str}, (∀ l ∈ ls, IsLine l) → '\r' ∉ fileText ls := by
    intro ls h
    simp only [fileText, List.mem_flatMap, not_exists, not_and, List.mem_append]
    intro l hl hc
    rcases hc with hc | hc
    · exact (h l hl).2 hc
    · simp at hc
  have hx' : IsLine x := ⟨fun hm => hx.1 (by simp [hm]), fun hm => hx.2 (by simp [hm])⟩
  have h' : ∀ l ∈ lines ++ [x], IsLine l := by
    intro l hl
    simp at hl
    rcases hl with hl | rfl
    · exact h l hl
    · exact hx'
  have e1 : universalNewlines (fileText lines ++ (x ++ [c])) = fileText lines ++ (x ++ [c]) := by
    apply universalNewlines_id
    rw [List.mem_append]
    rintro (hm | hm)
    · exact hr h hm
    · exact hx.2 hm
  have e2 := fileLines_text (lines ++ [x]) (fun l hl => (h' l hl).1) []
  rw [List.append_nil] at e2
  rw [psvtoxml, psvtoxml, e1, universalNewlines_id (hr h'), e2, fileLines_text lines (fun l hl => (h l hl).1), fileLines_last hx.1 (by simp)]
  have key : ∀ (ls : List Str) (g : Globals), readLines tab lx g (ended ls ++ [x ++ [c]]) = readLines tab lx g (ended (ls ++ [x]) ++ fileLines []) := by
    intro ls
    induction ls with
    | nil => intro g; simp [ended, readLines, fileLines]
    | cons l ls ih =>
      intro g
      simp only [ended, List.map_cons, List.cons_append, readLines]
      cases parsePSV tab lx g (l ++ ['\n']).dropLast with
      | ok g1 => exact ih g1
      | error e => cases e <;> rfl
  rw [key]

/-- C21: after a file with at least one line besides the version line has been converted, no file that can be converted in a fresh process can be converted. -/
theorem C21_second_call_fails {tab : Tab} {lx : Lxml} (hw : Tab.WF tab) (hl : Psv.Lxml.Sane lx) {lines : List Str} (hlines : ∀ l ∈ lines, IsLine l)
    {tree : Elem} {g : Globals} (h : psvtoxml tab lx .initial (fileText lines) = .ok (tree, g)) (hmore : 2 ≤ (nonBlank lines).length)
    {lines' : List Str} (hlines' : ∀ l ∈ lines', IsLine l) {r : Elem × Globals} (_ : psvtoxml tab lx .initial (fileText lines') = .ok r) (r' : Elem × Globals) :
    psvtoxml tab lx g (fileText lines') ≠ .ok r' := by
  rename_i hfresh
  obtain ⟨v, gs, cur, ⟨first, rest, e1, -, e2⟩, -, -, -, hf, hs, ⟨s, hstk, hempty⟩, hstart⟩ := psv_call hw hl hlines h
  obtain ⟨v', gs', ⟨first', rest', e1', e2', -⟩, -⟩ := (psv_meaning hw hl hlines' r.1).1 ⟨r.2, hfresh⟩
  have hcur : g.state ≠ .empty := by
    rw [hs]
    intro hc
    have : cur = .start := by cases cur <;> simp_all [Cur.state]
    subst this
    rw [hstart rfl] at e2
    simp [Cur.groups] at e2
    cases e2
    rw [e1] at hmore
    simp at hmore
  obtain ⟨x, hx⟩ := version_strip e2'
  intro hp
  rw [psvtoxml_text hlines', bind_ok] at hp
  obtain ⟨g1, hp, -⟩ := hp
  have key : ∀ (ls : List Str), nonBlank ls = first' :: rest' → ∀ g1, readLines tab lx g (ended ls) ≠ .ok g1 := by
    intro ls
    induction ls with
    | nil => intro e; simp [nonBlank] at e
    | cons l ls ih =>
      intro e g1 hr
      rw [readLines_cons] at hr
      obtain ⟨g2, hr, hr2⟩ := hr
      rw [parsePSV_later hf] at hr
      by_cases hb : strip l = []
      · rw [nonBlank_blank hb] at e
        rw [parse_blank hb] at hr
        simp [bind, Except.bind] at hr
        subst hr
        exact ih e _ hr2
      · rw [nonBlank_cons hb] at e
        simp at e
        obtain ⟨rfl, -⟩ := e
        have hpl : parsePSVLine tab l = .ok (some (.top, splitWs1 x)) := by simp [parsePSVLine, hx]
        rw [hpl] at hr
        simp only [bind, Except.bind] at hr
        have hpop : s.pop = .error .runtimeError := by simp [Stk.pop, hempty, raiseRT]
        rw [act_eq rfl] at hr
        obtain ⟨g3, h3, -⟩ := bind_ok.1 hr
        have hon : ∀ f : Stk → Py Stk, f s = .error .runtimeError → g.on f = .error .runtimeError := by
          intro f hf; simp [Globals.on, Globals.getStack, hstk, bind, Except.bind, hf]
        cases hst : g.state <;> rw [hst] at h3 <;> simp only [transition, errorAction, reduceCtorEq] at h3
        · exact hcur hst
        · unfold obsContextAction at h3
          split at h3
          · simp at h3
          · rw [hon _ (by simp [Stk.addPopPush, hpop, bind, Except.bind])] at h3; simp at h3
          · rw [hon _ (by simp [Stk.addPopPush, hpop, bind, Except.bind])] at h3; simp at h3
        · rw [closeObsBlockOpenObsBlockAction] at h3
          obtain ⟨g4, h4, -⟩ := bind_ok.1 h3
          obtain ⟨s4, s5, h5, h6, -⟩ := on_inv h4
          simp [hstk] at h5; subst h5
          rw [hpop] at h6; simp at h6
        · rw [closeDataOpenObsBlockAction] at h3
          obtain ⟨g4, h4, -⟩ := bind_ok.1 h3
          rw [hon _ hpop] at h4; simp at h4
  exact key lines' e1' g1 hp

end Verif
