import Verif.Lemmas.Mpc80Doc
import Verif.Props.Mpc80Lines
import Verif.Props.Tables
/-
  C28, C37, C41: the document made of an 80-column file.
-/
namespace Verif
open Verif.Mpc80 Verif.PackUtil Verif.Spec.Mpc80 Verif.Xml

theorem convertItems_eq {lx : Lxml} {al : Allowed} (hn : Names lx) : ∃ s0, convertitPreamble lx = .ok s0 ∧
    Open s0 ⟨c! "ades", none, [(c! "version", c! "2022")], []⟩ [] [] ∧ s0.firstObsBlock = true ∧ s0.inObsBlock = false ∧
    ∀ items, convertItems lx al items = match steps lx al s0 items with
      | (_, some e) => .error e
      | (s, none) => (match s.stack.takeTreeAndClear with | .ok (t, _) => .ok t | .error e => .error e) := by
  obtain ⟨t, h1, h2⟩ := Rep.init hn.ades
  have h0 : convertitPreamble lx = .ok ⟨t, true, true, false, [], [], []⟩ := by simp [convertitPreamble, h1, bind, Except.bind, pure, Except.pure]
  refine ⟨_, h0, (preamble_ok h0).2.1, rfl, rfl, ?_⟩
  intro items
  unfold convertItems
  rw [h0]
  simp only [bind, Except.bind]
  rcases steps lx al _ items with ⟨s, _ | e⟩
  · simp only
    cases s.stack.takeTreeAndClear with
    | ok x => rfl
    | error e => rfl
  · rfl

/-- C37: the document has one obsBlock per run of header lines, in order, with an obsContext made of these header lines and an obsData with the
    elements of the data lines that follow them, each of which is what the converter makes of that line alone.  (Every block must have a data
    line, and every block but the last must yield an element: see `C41`.) -/
theorem C37_document {lx : Lxml} {al : Allowed} (hn : Names lx) {ps : List Part} (hp : ∀ p ∈ ps, p.Ok lx al ∧ p.dataItems ≠ [])
    (hne : ∀ p ∈ ps.dropLast, p.elems.flatten ≠ []) :
    convertItems lx al (ps.flatMap Part.items) = .ok (adesDoc (ps.map fun p => p.block.elem)) := by
  obtain ⟨s0, _, h1, h2, h3, h4⟩ := convertItems_eq (al := al) hn
  rw [h4]
  have hr : Ready s0 ⟨c! "ades", none, [(c! "version", c! "2022")], []⟩ [] := by
    generalize he : ([] : List Elem) = es at h1
    cases h1 with
    | start _ hr => exact .first h3 h2 hr
    | more => simp at he
  obtain ⟨s1, k1, k2⟩ := parts_run hn hp hne hr
  rw [k1]
  simp only [k2]
  simp [closeAll, Frame.add, Frame.close, adesDoc]

/-- C37: without header lines the elements are put directly under the root -/
theorem C37_no_headers {lx : Lxml} {al : Allowed} (hn : Names lx) {items : List Item} {ess : List (List Elem)} (hd : Spec.Each (Gives lx al) items ess) :
    convertItems lx al items = .ok (adesDoc ess.flatten) := by
  obtain ⟨s0, _, h1, h2, h3, h4⟩ := convertItems_eq (al := al) hn
  obtain ⟨s1, k1, k2, k3⟩ := datas_run hd h3 h1
  rw [h4, k1]
  simp only [k2.close]
  simp [closeAll, Frame.add, Frame.close, adesDoc]

/-- C37, a defect: if data lines come before the first header line, all blocks are put inside the last of these observations -/
theorem C37_headers_too_late {lx : Lxml} {al : Allowed} (hn : Names lx) {loose : List Item} {ess : List (List Elem)} (hd : Spec.Each (Gives lx al) loose ess)
    {es : List Elem} {tag : Str} {text : Option Str} {at' : Attrib} {kids : List Elem} (hl : ess.flatten = es ++ [.mk tag text at' kids])
    {ps : List Part} (hp : ∀ p ∈ ps, p.Ok lx al ∧ p.dataItems ≠ []) (hne : ∀ p ∈ ps.dropLast, p.elems.flatten ≠ []) :
    convertItems lx al (loose ++ ps.flatMap Part.items) = .ok (adesDoc (es ++ [.mk tag text at' (kids ++ ps.map fun p => p.block.elem)])) := by
  obtain ⟨s0, _, h1, h2, h3, h4⟩ := convertItems_eq (al := al) hn
  obtain ⟨s1, k1, k2, k3⟩ := datas_run hd h3 h1
  rw [List.nil_append, hl] at k2
  generalize he : es ++ [Elem.mk tag text at' kids] = e at k2
  cases k2 with
  | start => simp at he
  | @more es' g _ hr =>
    have he' := List.append_inj' he rfl
    obtain ⟨rfl, he2⟩ := he'
    obtain ⟨t, x, a, k⟩ := g
    simp only [Frame.close, List.cons.injEq, and_true, Elem.mk.injEq] at he2
    obtain ⟨rfl, rfl, rfl, rfl⟩ := he2
    obtain ⟨s2, l1, l2⟩ := parts_run hn hp hne (.first (k3.inb.trans h3) (k3.fob.trans h2) hr)
    rw [h4, steps_append, k1]
    simp only [l1, l2]
    simp [closeAll, Frame.add, Frame.close, adesDoc]

/-! ### C28 -/

theorem elem_alone {lx : Lxml} {al : Allowed} (hn : Names lx) {item : Item} {code : Str} {b : Bool} (hc : item.get? (c! "code") = some (.str code))
    (hk : kindOfItem item = some (.elem code b)) {doc : Elem} (h : convertItems lx al [item] = .ok doc) : ∃ kids, doc = adesDoc [.mk (tagOfKind b) none [] kids] := by
  obtain ⟨s0, _, h1, h2, h3, h4⟩ := convertItems_eq (al := al) hn
  rw [h4] at h
  have r0 := kind_run (lx := lx) (al := al) hk (s := s0) (by simp [str_ok.2 hc])
  rw [flush_idle h3] at r0
  simp only at r0
  simp only [steps, step, r0] at h
  by_cases ht : lx.Accepts (tagOfKind b) none []
  · cases hw : work al lx item code b with
    | ok cs =>
      obtain ⟨s1, k1, k2, k3⟩ := elem_run ht hw h1
      simp only [runC, k1, reduceCtorEq, if_false, k2.close] at h
      injection h with h
      exact ⟨_, by rw [← h]; simp [closeAll, Frame.add, Frame.close, adesDoc, madeElem]; rfl⟩
    | error e =>
      obtain ⟨s1, k1, k2, k3⟩ := elem_fail ht hw h1
      simp only [runC, k1, k2.close] at h
      by_cases he : e = .runtimeError
      · simp only [he, if_true, k2.close] at h
        injection h with h
        exact ⟨_, by rw [← h]; simp [closeAll, Frame.add, Frame.close, adesDoc, madeElem]; rfl⟩
      · simp [he] at h
  · obtain ⟨s1, k1⟩ := openElement_fail ht h1
    simp [runC, afterFlush, bind, EStateM.bind, k1] at h

/-- the codes that make an optical element -/
def opticalLetters : Str := c! "A PeCBTMcEOHNnSX"

/-- C28: every line whose code is an optical one, other than x and V, that is converted at all is converted to one `optical` element -/
theorem C28_converted {lx : Lxml} {al : Allowed} (hn : Names lx) {item : Item} {c : Char} (hc : item.get? (c! "code") = some (.str [c])) (hk : kindOf c = some .optical)
    (hx : c ≠ 'x') (hV : c = 'V' → ∃ p, item.get? (c! "pos3") = some (.str p) ∧ strip p ≠ []) {doc : Elem} (h : convertItems lx al [item] = .ok doc) :
    ∃ kids, doc = adesDoc [.mk (c! "optical") none [] kids] := by
  refine elem_alone hn (b := false) hc ?_ h
  have hc' : c ∈ c! "A PeCBTMcEOHNnSVXx" := by
    refine Decidable.byContradiction fun hcon => ?_
    have hR : c = 'R' ∨ c = 'r' ∨ c = 's' ∨ c = 'v' ∨ kindOf c = none := by
      by_cases h1 : c = 'R'; · simp [h1]
      by_cases h2 : c = 'r'; · simp [h2]
      by_cases h3 : c = 's'; · simp [h3]
      by_cases h4 : c = 'v'; · simp [h4]
      right; right; right; right
      unfold kindOf
      rw [if_neg h1, if_neg h2, if_neg h3, if_neg h4, if_neg hcon]
    rcases hR with rfl | rfl | rfl | rfl | h
    · simp [kindOf] at hk
    · simp [kindOf] at hk
    · simp [kindOf] at hk
    · simp [kindOf] at hk
    · rw [h] at hk; simp at hk
  unfold kindOfItem
  rw [str_ok.2 hc]
  by_cases hv : c = 'V'
  · subst hv
    obtain ⟨p, hp1, hp2⟩ := hV rfl
    have : codeType (c! "V") = some .rover := by decide
    simp only [this, str_ok.2 hp1, hp2, if_false]
  · have : codeType [c] = some .optical ∨ codeType [c] = some .offset ∨ codeType [c] = some .occultation ∨ codeType [c] = some .satellite := by
      revert hx hv
      have : ∀ c ∈ c! "A PeCBTMcEOHNnSVXx", c ≠ 'x' → c ≠ 'V' →
        codeType [c] = some .optical ∨ codeType [c] = some .offset ∨ codeType [c] = some .occultation ∨ codeType [c] = some .satellite := by decide
      exact this c hc'
    rcases this with h | h | h | h <;> simp [h]

/-- C28: a line with code x is dropped, without an element and without a message -/
theorem C28_x_dropped {lx : Lxml} {al : Allowed} (hn : Names lx) {item : Item} (hc : item.get? (c! "code") = some (.str (c! "x"))) :
    convertItems lx al [item] = .ok (adesDoc []) ∧ ∀ s n, (convertCallback lx al s item n).2.1 = [] := by
  have hk : kindOfItem item = some .skip := by
    unfold kindOfItem
    rw [str_ok.2 hc]
    have : codeType (c! "x") = none := by decide
    simp only [this]
  constructor
  · obtain ⟨s0, _, h1, h2, h3, h4⟩ := convertItems_eq (al := al) hn
    have r0 := kind_run (lx := lx) (al := al) hk (s := s0) (by simp [str_ok.2 hc])
    rw [flush_idle h3] at r0
    rw [h4]
    simp only [steps, step, r0]
    simp only [runC, afterFlush, pure, EStateM.pure, reduceCtorEq, if_false, h1.close]
    simp [closeAll, Frame.add, Frame.close, adesDoc]
  · intro s n
    have : codeType (c! "x") = none := by decide
    unfold convertCallback convertit
    simp only [str_ok.2 hc, lift, bind, EStateM.bind, this]
    cases flushContext lx s with
    | ok u s' => simp [pure, EStateM.pure]
    | error e s' => simp

/-- C28: a rover observation without altitude is dropped with a message -/
theorem C28_no_altitude {lx : Lxml} {al : Allowed} {item : Item} (hc : item.get? (c! "code") = some (.str (c! "V"))) {p : Str} (hp : item.get? (c! "pos3") = some (.str p)) (hb : strip p = [])
    {s : CState} (hi : s.inObsBlock = false) (n : Nat) : convertCallback lx al s item n = (s, [.noAltitude n], none) := by
  have : codeType (c! "V") = some .rover := by decide
  unfold convertCallback convertit
  simp [str_ok.2 hc, lift, bind, EStateM.bind, this, flush_idle hi, str_ok.2 hp, hb, pure, EStateM.pure]

/-! ### C41 -/

/-- more children, all of them observations -/
def Observations (es : List Elem) : Prop := ∀ e ∈ es, e.tag = c! "optical" ∨ e.tag = c! "radar"

/-- the state after a header line has failed: no header line can succeed any more -/
structure Stuck (s : CState) (A : Frame) (es : List Elem) : Prop where
  inb : s.inObsBlock = false
  fob : s.firstObsBlock = false
  obs : Observations es
  rep : Open s A [] es ∨ (s.firstElement = false ∧ Rep s.stack [A.add es])

theorem madeElem_tag (b : Bool) (cs : List Cell) : (madeElem b cs).tag = c! "optical" ∨ (madeElem b cs).tag = c! "radar" := by
  cases b
  · left; rfl
  · right; rfl

theorem Observations.snoc {es : List Elem} (h : Observations es) {e : Elem} (he : e.tag = c! "optical" ∨ e.tag = c! "radar") : Observations (es ++ [e]) := by
  intro x hx
  rcases List.mem_append.1 hx with hx | hx
  · exact h x hx
  · simp at hx; subst hx; exact he

theorem header_refused {lx : Lxml} {al : Allowed} {item : Item} {code : Str} (hc : item.str (c! "code") = .ok code) (ht : codeType code = some .header) {s : CState} (h1 : s.inObsBlock = false)
    (h2 : s.firstObsBlock = false) : (∀ e, s.stack.pop = .error e → runC (convertit lx al item) s = (s, some e)) ∧
      ∀ t e, s.stack.pop = .ok t → t.pop = .error e → runC (convertit lx al item) s = ({ s with stack := t }, some e) := by
  constructor
  · intro e he
    simp [runC, convertit, hc, ht, lift, bind, EStateM.bind, convertHeader, get, getThe, MonadStateOf.get, EStateM.get, h1, h2, onStack, he]
  · intro t e he he'
    simp [runC, convertit, hc, ht, lift, bind, EStateM.bind, convertHeader, get, getThe, MonadStateOf.get, EStateM.get, h1, h2, onStack, he, he']

theorem stuck_step {lx : Lxml} {al : Allowed} {item : Item} {s s' : CState} {A : Frame} {es : List Elem} (h : Stuck s A es) (hs : step lx al s item = (s', none)) :
    ∃ es', Stuck s' A (es ++ es') := by
  cases hc : item.str (c! "code") with
  | error e =>
    have hne := str_err hc
    have : step lx al s item = (s, some e) := by simp [step, runC, convertit, hc, lift, bind, EStateM.bind, hne]
    rw [this] at hs
    simp at hs
  | ok code =>
    cases hk : kindOfItem item with
    | none =>
      have ht : codeType code = some .header := by
        unfold kindOfItem at hk
        rw [hc] at hk
        simp only at hk
        split at hk
        · assumption
        · split at hk
          · simp at hk
          · split at hk <;> simp at hk
        all_goals simp at hk
      obtain ⟨q1, q2⟩ := header_refused (lx := lx) (al := al) hc ht h.inb h.fob
      rcases h.rep with ho | ⟨hf, hr⟩
      · have hobs := h.obs
        have hinb := h.inb
        have hfob := h.fob
        clear h
        cases ho with
        | start hfe hr =>
          have e := q1 _ hr.pop_last
          simp only [step, e, if_true] at hs
          injection hs with hs _
          subst hs
          exact ⟨[], hinb, hfob, by simpa using hobs, Or.inl (.start hfe hr)⟩
        | @more es1 g hfe hr =>
          obtain ⟨t1, k1, r1⟩ := hr.pop
          have e := q2 _ _ k1 r1.pop_last
          simp only [step, e, if_true] at hs
          injection hs with hs _
          subst hs
          refine ⟨[], hinb, hfob, by simpa using hobs, Or.inr ⟨hfe, ?_⟩⟩
          simpa [Frame.add] using r1
      · have e := q1 _ hr.pop_last
        simp only [step, e, if_true] at hs
        injection hs with hs _
        subst hs
        exact ⟨[], by simpa using h⟩
    | some k =>
      have r := kind_run (lx := lx) (al := al) hk (s := s) (by simp [hc])
      rw [flush_idle h.inb] at r
      simp only at r
      simp only [step, r] at hs
      cases k with
      | broken e =>
        simp only [afterFlush, runC, lift] at hs
        injection hs with hs _
        subst hs
        exact ⟨[], by simpa using h⟩
      | skip =>
        simp only [afterFlush, runC, pure, EStateM.pure] at hs
        injection hs with hs _
        subst hs
        exact ⟨[], by simpa using h⟩
      | elem code b =>
        rcases h.rep with ho | ⟨hf, hr⟩
        · by_cases ht : lx.Accepts (tagOfKind b) none []
          · cases hw : work al lx item code b with
            | ok cs =>
              obtain ⟨s1, k1, k2, k3⟩ := elem_run ht hw ho
              simp only [runC, k1] at hs
              injection hs with hs _
              subst hs
              exact ⟨[_], k3.inb.trans h.inb, k3.fob.trans h.fob, h.obs.snoc (madeElem_tag b cs), Or.inl k2⟩
            | error e =>
              obtain ⟨s1, k1, k2, k3⟩ := elem_fail ht hw ho
              simp only [runC, k1] at hs
              injection hs with hs _
              subst hs
              exact ⟨[_], k3.inb.trans h.inb, k3.fob.trans h.fob, h.obs.snoc (madeElem_tag b []), Or.inl k2⟩
          · exfalso
            have : ∃ s1, openElement lx (tagOfKind b) s = .error .valueError s1 := by
              cases ho with
              | start hfe hr => exact openElement_fail ht (.start hfe hr)
              | @more es1 g hfe hr =>
                obtain ⟨t1, k1, r1⟩ := hr.pop
                have hl := r1.length
                cases hst : t1 with | mk hp st =>
                rw [hst] at hl
                rcases st with _ | ⟨a, rr⟩
                · simp at hl
                · refine ⟨s, ?_⟩
                  simp [openElement, bind, EStateM.bind, get, getThe, MonadStateOf.get, EStateM.get, hfe, onStack, Stk.addPopPush, k1, hst, Stk.addPush, newElement_err ht, Except.bind]
            obtain ⟨s1, k1⟩ := this
            simp [runC, afterFlush, bind, EStateM.bind, k1] at hs
        · have : openElement lx (tagOfKind b) s = .error .runtimeError s := by
            simp [openElement, bind, EStateM.bind, get, getThe, MonadStateOf.get, EStateM.get, hf, onStack, Stk.addPopPush, hr.pop_last, Except.bind]
          simp only [runC, afterFlush, bind, EStateM.bind, this] at hs
          injection hs with hs _
          subst hs
          exact ⟨[], by simpa using h⟩

theorem stuck_steps {lx : Lxml} {al : Allowed} : ∀ {items : List Item} {s s' : CState} {A : Frame} {es : List Elem}, Stuck s A es → steps lx al s items = (s', none) →
    ∃ es', Stuck s' A (es ++ es')
  | [], s, s', A, es, h, hs => by
    injection hs with hs _
    subst hs
    exact ⟨[], by simpa using h⟩
  | i :: items, s, s', A, es, h, hs => by
    simp only [steps] at hs
    rcases hst : step lx al s i with ⟨s1, _ | e⟩
    · rw [hst] at hs
      obtain ⟨es1, h1⟩ := stuck_step h hst
      obtain ⟨es2, h2⟩ := stuck_steps h1 hs
      exact ⟨es1 ++ es2, by simpa using h2⟩
    · rw [hst] at hs
      simp at hs

theorem Stuck.close {s : CState} {A : Frame} {es : List Elem} (h : Stuck s A es) : s.stack.takeTreeAndClear = .ok ((A.add es).close, { s.stack with stack := [] }) := by
  rcases h.rep with ho | ⟨_, hr⟩
  · rw [ho.close]; rfl
  · rw [hr.take]; rfl

theorem parts_ready {lx : Lxml} (hn : Names lx) {al : Allowed} : ∀ {ps : List Part}, (∀ p ∈ ps, p.Ok lx al ∧ p.dataItems ≠ []) → (∀ p ∈ ps, p.elems.flatten ≠ []) →
    ∀ {s : CState} {B : Frame} {base : List Frame}, Ready s B base →
    ∃ s', steps lx al s (ps.flatMap Part.items) = (s', none) ∧ Ready s' (B.add (ps.map fun p => p.block.elem)) base
  | [], _, _, s, B, base, hr => ⟨s, rfl, by simpa [Frame.add] using hr⟩
  | p :: ps, h, hne, s, B, base, hr => by
    obtain ⟨s1, k1, k2, k3, k4⟩ := part_run hn (h p (by simp)).1 (h p (by simp)).2 hr
    have hr1 : Ready s1 (B.add [p.block.elem]) base := .next k2 k3 k4 (hne p (by simp)) (by simp [Part.block, Block.elem])
    obtain ⟨s2, l1, l2⟩ := parts_ready hn (ps := ps) (fun r hr => h r (by simp [hr])) (fun r hr => hne r (by simp [hr])) hr1
    refine ⟨s2, ?_, ?_⟩
    · rw [List.flatMap_cons, steps_append, k1]; exact l1
    · simpa [Frame.add] using l2

/-- C41, a defect: if a block's data lines yield no element (for example because all have code x), the next header line fails, and so do all header
    lines after it: whatever follows, the document has no more blocks; what is converted is put directly under the root. -/
theorem C41_blocks_end {lx : Lxml} {al : Allowed} (hn : Names lx) {ps : List Part} (hp : ∀ p ∈ ps, p.Ok lx al ∧ p.dataItems ≠ []) (hne : ∀ p ∈ ps, p.elems.flatten ≠ [])
    {p : Part} (hok : p.Ok lx al) (hd : p.dataItems ≠ []) (hempty : p.elems.flatten = []) {header : Item} {h : Str × Str} (hh : IsHeader header h) {rest : List Item} {doc : Elem}
    (hr : convertItems lx al (ps.flatMap Part.items ++ p.items ++ header :: rest) = .ok doc) :
    ∃ es, Observations es ∧ doc = adesDoc (ps.map (fun p => p.block.elem) ++ [p.block.elem] ++ es) := by
  obtain ⟨s0, _, h1, h2, h3, h4⟩ := convertItems_eq (al := al) hn
  have hr0 : Ready s0 ⟨c! "ades", none, [(c! "version", c! "2022")], []⟩ [] := by
    generalize he : ([] : List Elem) = es at h1
    cases h1 with
    | start _ hr => exact .first h3 h2 hr
    | more => simp at he
  obtain ⟨s1, k1, r1⟩ := parts_ready hn hp hne hr0
  obtain ⟨s2, k2, i2, f2, o2⟩ := part_run hn hok hd r1
  rw [h4, List.append_assoc, steps_append, k1] at hr
  simp only at hr
  rw [steps_append, k2] at hr
  simp only [steps] at hr
  rw [hempty] at o2
  generalize he : ([] : List Elem) = es at o2
  cases o2 with
  | more => simp at he
  | start hfe hrep =>
    obtain ⟨t1, q1, p1⟩ := hrep.pop
    obtain ⟨t2, q2, p2⟩ := p1.pop
    have hstep : step lx al s2 header = ({ s2 with stack := t2 }, none) := by
      simp [step, header_step_eq hh, i2, f2, q1, q2, Stk.addPopPush, p2.pop_last, bind, Except.bind]
    rw [hstep] at hr
    simp only at hr
    have hst : Stuck { s2 with stack := t2 } (⟨c! "ades", none, [(c! "version", c! "2022")], ps.map (fun p => p.block.elem) ++ [p.block.elem]⟩ : Frame) [] :=
      ⟨i2, f2, by intro e he; simp at he, Or.inl (.start hfe (by simpa [Frame.add, Frame.close, noFrame, Part.block, Block.elem, nodeOf, hempty] using p2))⟩
    rcases hss : steps lx al { s2 with stack := t2 } rest with ⟨s3, _ | e⟩
    · rw [hss] at hr
      obtain ⟨es', h5⟩ := stuck_steps hst hss
      simp only [h5.close] at hr
      injection hr with hr
      exact ⟨es', by simpa using h5.obs, by rw [← hr]; simp [Frame.close, Frame.add, adesDoc]⟩
    · rw [hss] at hr
      simp at hr

/-- C37 for whole files: if the file can be read to its end, the document is made of the items read -/
theorem C37_file {lx : Lxml} {al : Allowed} (nosplit : Bool) (content : Str) {st : PState (List (Item × Nat))}
    (hr : parseFile logCallback [] (generator nosplit (Psv.fileLines (Psv.universalNewlines content))) = (st, none)) {doc : Elem}
    (h : convertItems lx al (st.user.map (·.1)) = .ok doc) :
    (mpc80coltoxml lx al nosplit content).doc = some doc ∧ (mpc80coltoxml lx al nosplit content).raised = none := by
  generalize hg : generator nosplit (Psv.fileLines (Psv.universalNewlines content)) = gen at hr
  have key : (attempt lx al gen).1 = .ok doc := by
    unfold attempt
    unfold convertItems at h
    obtain ⟨s0, h0, h⟩ := bindOk.1 h
    rw [h0]
    simp only
    obtain ⟨e1, e2⟩ := C25_callback (convertCallback lx al) s0 gen
    rw [hr, runCalls_eq] at e1 e2
    simp only at e1 e2
    rcases hs : steps lx al s0 (st.user.map (·.1)) with ⟨s1, _ | e⟩
    · rw [hs] at h e1 e2
      simp only at h e1 e2
      rcases hp : parseFile (convertCallback lx al) s0 gen with ⟨st', e'⟩
      rw [hp] at e1 e2
      simp only at e1 e2
      subst e2
      simp only [e1]
      obtain ⟨⟨t, s2⟩, k1, k2⟩ := bindOk.1 h
      rw [k1]
      simpa [pure, Except.pure] using k2
    · rw [hs] at h; simp at h
  unfold mpc80coltoxml
  rw [hg]
  rcases ha : attempt lx al gen with ⟨r, out⟩
  rw [ha] at key
  simp only at key
  subst key
  simp only [ha, and_self]

/-! ### concrete files -/

namespace Sample80
/-- a parser that accepts everything -/
def anyLxml : Lxml := ⟨fun _ => true, fun _ => true⟩
/-- what the tables made from adesmaster.xml allow -/
def realAllowed : Allowed := ⟨adesTypes.allowed (c! "optical"), adesTypes.allowed (c! "radar")⟩
theorem any_names : Names anyLxml := by constructor <;> exact ⟨rfl, by simp [anyLxml], by simp⟩

def first : Str := c! "     K20Q04A* C2020 08 18.33489021 33 58.060+12 13 25.77         22.58wU~44BVF51\n"
def dropped : Str := c! "     K20Q04A  x2020 08 18.33489021 33 58.060+12 13 25.77         22.58wU~44BVF51\n"

def doc (l : List Str) : Option Elem := (mpc80coltoxml anyLxml realAllowed true l.flatten).doc

/-- an observation with these values -/
def obs (l : List (Str × Str)) : Elem := nodeOf (c! "optical") (l.map fun x => leafOf x.1 x.2)
def firstObs : Elem := obs [(c! "provID", c! "2020 QA4"), (c! "mode", c! "CCD"), (c! "stn", c! "F51"), (c! "obsTime", c! "2020-08-18T08:02:14.496Z"), (c! "ra", c! "323.491917"), (c! "dec", c! "12.223825"), (c! "astCat", c! "Gaia1"), (c! "mag", c! "22.58"), (c! "band", c! "w"), (c! "ref", c! "MPS  1229401"), (c! "disc", c! "*"), (c! "subFmt", c! "M92"), (c! "precTime", c! "1"), (c! "precRA", c! "0.001"), (c! "precDec", c! "0.01")]
def satObs : Elem := obs [(c! "provID", c! "2020 QA4"), (c! "mode", c! "CCD"), (c! "stn", c! "C51"), (c! "sys", c! "ICRF_KM"), (c! "ctr", c! "399"), (c! "pos1", c! "+1234.5678"), (c! "pos2", c! "-2345.6789"), (c! "pos3", c! "+3456.7890"), (c! "obsTime", c! "2020-08-19T05:16:37.891Z"), (c! "ra", c! "323.27671"), (c! "dec", c! "11.96953"), (c! "astCat", c! "UCAC3"), (c! "mag", c! "22.2"), (c! "band", c! "V"), (c! "ref", c! "MPS  1229401"), (c! "subFmt", c! "M92"), (c! "precTime", c! "1"), (c! "precRA", c! "0.01"), (c! "precDec", c! "0.1")]

/-- two blocks -/
theorem two_blocks : doc [header, c! "OBS A. B, C. D\n", c! "COM hello\n", first, satFirst, satSecond, header, first] =
    some (adesDoc [
      nodeOf (c! "obsBlock") [
        nodeOf (c! "obsContext") [nodeOf (c! "observatory") [leafOf (c! "mpcCode") (c! "F51")],
          nodeOf (c! "observers") [leafOf (c! "name") (c! "A. B"), leafOf (c! "name") (c! " C. D")], nodeOf (c! "comment") [leafOf (c! "line") (c! "hello")]],
        nodeOf (c! "obsData") [firstObs, satObs]],
      nodeOf (c! "obsBlock") [nodeOf (c! "obsContext") [nodeOf (c! "observatory") [leafOf (c! "mpcCode") (c! "F51")]], nodeOf (c! "obsData") [firstObs]]]) := by kernel_rfl

/-- C41: after a block with a dropped line only, the header line is lost and the observations are in no block -/
theorem lost_block : doc [header, dropped, header, c! "TEL 1.8-m\n", first, satFirst, satSecond] =
    some (adesDoc [nodeOf (c! "obsBlock") [nodeOf (c! "obsContext") [nodeOf (c! "observatory") [leafOf (c! "mpcCode") (c! "F51")]], nodeOf (c! "obsData") []], firstObs, satObs]) := by kernel_rfl

/-- C41: and after that data lines are lost too -/
theorem lost_lines : doc [header, dropped, header, first, header, first, first] =
    some (adesDoc [nodeOf (c! "obsBlock") [nodeOf (c! "obsContext") [nodeOf (c! "observatory") [leafOf (c! "mpcCode") (c! "F51")]], nodeOf (c! "obsData") []], firstObs]) := by kernel_rfl

/-- C37: a header line after data lines -/
theorem nested : doc [first, satFirst, satSecond, header, first] =
    some (adesDoc [firstObs, .mk (c! "optical") none [] (satObs.kids ++ [nodeOf (c! "obsBlock")
      [nodeOf (c! "obsContext") [nodeOf (c! "observatory") [leafOf (c! "mpcCode") (c! "F51")]], nodeOf (c! "obsData") [firstObs]]])]) := by kernel_rfl

/-- the hypotheses of the theorems above are met: what a line gives by itself -/
theorem gives_first : ∃ item, decode80ColumnDataLine first.dropLast = .ok item ∧ Gives anyLxml realAllowed item [firstObs] := by
  have h : (decode80ColumnDataLine first.dropLast).toOption.map (fun i => (i.get? (c! "code"), (convertItems anyLxml realAllowed [i]).toOption)) =
      some (some (.str (c! "C")), some (adesDoc [firstObs])) := by kernel_rfl
  cases hd : decode80ColumnDataLine first.dropLast with
  | error e => rw [hd] at h; simp [Except.toOption] at h
  | ok i =>
    rw [hd] at h
    simp only [Except.toOption, Option.map_some, Option.some.injEq, Prod.mk.injEq] at h
    refine ⟨i, rfl, by rw [h.1]; simp, ?_⟩
    cases hc : convertItems anyLxml realAllowed [i] with
    | error e => rw [hc] at h; simp at h
    | ok d => rw [hc] at h; simp at h; rw [h.2]

theorem is_header : ∃ item, decode80ColumnDataLine header.dropLast = .ok item ∧ IsHeader item (c! "COD", c! "F51") := by
  obtain ⟨item, h1, h2, h3, h4⟩ := C27_header (line := header.dropLast) (by decide) (by decide) (by decide) (by decide)
  exact ⟨item, h1, h4, h2, h3⟩

/-- a block that meets the hypotheses of `C37_document` -/
theorem part_ok : ∃ p : Part, p.Ok anyLxml realAllowed ∧ p.dataItems ≠ [] ∧ p.elems.flatten ≠ [] ∧ p.block.data = [firstObs] := by
  obtain ⟨h, _, h2⟩ := is_header
  obtain ⟨d, _, d2⟩ := gives_first
  refine ⟨⟨[h], [d], [(c! "COD", c! "F51")], [[firstObs]]⟩, ⟨.cons h2 .nil, .cons d2 .nil, by simp, ?_⟩, by simp, by simp, rfl⟩
  intro x hx
  refine ⟨⟨rfl, ?_, fun _ _ _ => rfl⟩, fun y hy => ⟨rfl, ?_, fun _ _ _ => rfl⟩⟩ <;> simp

end Sample80
end Verif
