import Verif.PsvToXml
import Verif.Lemmas.ElementStack
import Verif.Spec.Psv
/-!
  The PSV state machine against the grammar of PSV documents.
-/
namespace Verif.Psv
open Verif Verif.Xml Verif.Spec

/-- the raw form of a classified line -/
def raw : PLine → LineType × List Str
  | .top i => (.top, i.tag :: i.more.toList)
  | .second i => (.second, i.tag :: i.more.toList)
  | .keyword h t => (.keyword, h ++ [t])
  | .data c => (.data, c)

/-- position in the group being read -/
inductive Cur
  | start
  | ctx (d : List (Item × List Item)) (it : Item) (subs : List Item)
  | blockHdr (d : List (Item × List Item)) (it : Item) (subs : List Item) (t : Str) (h : List Str)
  | blockRows (c : List (Item × List Item)) (t : Str) (h : List Str) (rows : List (List Str)) (last : List Str)
  | tblHdr (t : Str) (h : List Str)
  | tblRows (t : Str) (h : List Str) (rows : List (List Str)) (last : List Str)

def Cur.state : Cur → PState
  | .start => .empty
  | .ctx .. => .obsContext
  | .blockHdr .. => .firstObsData
  | .blockRows .. => .obsData
  | .tblHdr .. => .firstData
  | .tblRows .. => .data

/-- the group read so far -/
def Cur.groups : Cur → List Group
  | .start => []
  | .ctx d it s => [.block (d ++ [(it, s)]) none]
  | .blockHdr d it s t h => [.block (d ++ [(it, s)]) (some ⟨t, h, []⟩)]
  | .blockRows c t h rows last => [.block c (some ⟨t, h, rows ++ [last]⟩)]
  | .tblHdr t h => [.table ⟨t, h, []⟩]
  | .tblRows t h rows last => [.table ⟨t, h, rows ++ [last]⟩]

/-- the type and columns of the current table -/
def Cur.header : Cur → Option (Str × List Str)
  | .blockHdr _ _ _ t h => some (t, h)
  | .blockRows _ t h _ _ => some (t, h)
  | .tblHdr t h => some (t, h)
  | .tblRows t h _ _ => some (t, h)
  | _ => none

def step (gs : List Group) : Cur → PLine → Option (List Group × Cur)
  | .start, .top i => some (gs, .ctx [] i [])
  | .start, .keyword h t => some (gs, .tblHdr t h)
  | .start, _ => none
  | .ctx d it s, .top i => some (gs, .ctx (d ++ [(it, s)]) i [])
  | .ctx d it s, .second i => some (gs, .ctx d it (s ++ [i]))
  | .ctx d it s, .keyword h t => some (gs, .blockHdr d it s t h)
  | .ctx .., .data _ => none
  | .blockHdr d it s t h, .data c => if h.length < c.length then none else some (gs, .blockRows (d ++ [(it, s)]) t h [] c)
  | .blockHdr .., _ => none
  | .blockRows c t h rows last, .data x => if h.length < x.length then none else some (gs, .blockRows c t h (rows ++ [last]) x)
  | .blockRows c t h rows last, .top i => some (gs ++ [.block c (some ⟨t, h, rows ++ [last]⟩)], .ctx [] i [])
  | .blockRows c t h rows last, .keyword h' t' => some (gs ++ [.block c (some ⟨t, h, rows ++ [last]⟩)], .tblHdr t' h')
  | .blockRows .., .second _ => none
  | .tblHdr t h, .data c => if h.length < c.length then none else some (gs, .tblRows t h [] c)
  | .tblHdr .., _ => none
  | .tblRows t h rows last, .data x => if h.length < x.length then none else some (gs, .tblRows t h (rows ++ [last]) x)
  | .tblRows t h rows last, .top i => some (gs ++ [.table ⟨t, h, rows ++ [last]⟩], .ctx [] i [])
  | .tblRows t h rows last, .keyword h' t' => some (gs ++ [.table ⟨t, h, rows ++ [last]⟩], .tblHdr t' h')
  | .tblRows .., .second _ => none

section
variable (tab : Tab)

/-- the order of sub-elements according to the tables -/
def order (t : Str) : List Str := (PackUtil.dictGet tab.allowed t).getD []

def adesFrame (v : Str) (kids : List Elem) : Frame := ⟨c! "ades", none, [(c! "version", v)], kids⟩
def itemFrame (i : Item) (subs : List Item) : Frame := ⟨i.tag, normText i.more, [], subs.map fun i => i.elem []⟩
def ctxKids (d : List (Item × List Item)) : List Elem := d.map fun c => c.1.elem (c.2.map fun i => i.elem [])
def rowFrame (t : Str) (h c : List Str) : Frame := ⟨t, none, [], rowKids (order tab t) h c⟩

/-- the open elements -/
def zipper (v : Str) (gs : List Group) : Cur → List Frame
  | .start | .tblHdr .. => [adesFrame v (gs.flatMap (Group.elems (order tab)))]
  | .ctx d it s | .blockHdr d it s _ _ =>
    [itemFrame it s, ⟨c! "obsContext", none, [], ctxKids d⟩, ⟨c! "obsBlock", none, [], []⟩, adesFrame v (gs.flatMap (Group.elems (order tab)))]
  | .blockRows c t h rows last =>
    [rowFrame tab t h last, ⟨c! "obsData", none, [], rows.map (rowElem (order tab) t h)⟩, ⟨c! "obsBlock", none, [], [contextElem c]⟩,
      adesFrame v (gs.flatMap (Group.elems (order tab)))]
  | .tblRows t h rows last => [rowFrame tab t h last, adesFrame v (gs.flatMap (Group.elems (order tab)) ++ rows.map (rowElem (order tab) t h))]

theorem zipper_close (v : Str) (gs : List Group) (cur : Cur) :
    ∃ f fs, zipper tab v gs cur = f :: fs ∧ closeAll f fs = adesElem (order tab) v (gs ++ cur.groups) := by
  cases cur <;> refine ⟨_, _, rfl, ?_⟩ <;>
    simp [closeAll, Frame.close, Frame.add, adesElem, adesFrame, itemFrame, rowFrame, Cur.groups, Group.elems, contextElem, ctxKids, Item.elem, Table.elems, rowElem] <;> rfl

/-- the machine is at position `cur` after the groups `gs` -/
structure Sim (v : Str) (gs : List Group) (cur : Cur) (g : Globals) : Prop where
  first : g.firstLine = false
  state : g.state = cur.state
  stack : ∃ s, g.stack = some s ∧ Rep s (zipper tab v gs cur)
  ctx : (∃ d it s, cur = .ctx d it s) → g.headerType = some none
  hdr : ∀ t h, cur.header = some (t, h) → g.headerType = some (some t) ∧ g.headerVals = h ∧ ∃ o, PackUtil.dictGet tab.allowed t = some o

/-- what lxml must accept for a line to be entered in the tree -/
def LineAccepted (lx : Lxml) (cur : Cur) : PLine → Prop
  | .top i => lx.Accepts i.tag i.more []
  | .second i => lx.Accepts i.tag i.more []
  | .keyword _ _ => True
  | .data c => ∀ t h, cur.header = some (t, h) → lx.Accepts t none [] ∧ ∀ x ∈ rowItems (order tab t) h c, lx.Accepts x.1 (some x.2) []

/-- keyword lines name an observation type of the tables -/
def LineKnown : PLine → Prop
  | .keyword _ t => (∃ o, PackUtil.dictGet tab.allowed t = some o) ∧ t ≠ []
  | _ => True

/-- the fixed element names of ADES documents -/
def Lxml.Sane (lx : Lxml) : Prop := lx.tagOk (c! "obsBlock") = true ∧ lx.tagOk (c! "obsContext") = true ∧ lx.tagOk (c! "obsData") = true

variable {tab} {lx : Lxml}

theorem on_ok {g : Globals} {s s' : Stk} {f : Stk → Py Stk} (h : g.stack = some s) (hf : f s = .ok s') : g.on f = .ok { g with stack := some s' } := by
  simp [Globals.on, Globals.getStack, h, hf, bind, Except.bind, pure, Except.pure]

theorem on_inv {g g' : Globals} {f : Stk → Py Stk} (h : g.on f = .ok g') : ∃ s s', g.stack = some s ∧ f s = .ok s' ∧ g' = { g with stack := some s' } := by
  simp only [Globals.on, Globals.getStack] at h
  cases hs : g.stack with
  | none => rw [hs] at h; simp [bind, Except.bind] at h
  | some s =>
    rw [hs] at h
    cases hf : f s with
    | error e => simp [bind, Except.bind, hf] at h
    | ok s' =>
      simp [bind, Except.bind, hf, pure, Except.pure] at h
      exact ⟨s, s', rfl, hf, h.symm⟩

theorem dictGet_eq_cell (h c : List Str) (n : Str) : PackUtil.dictGet (h.zip c) n = cell h c n := by
  unfold PackUtil.dictGet cell
  congr 1
  rw [List.getLast?_filter]
  congr 1
  funext x
  by_cases e : x.1 = n <;> simp [e]

theorem rowItems_kids (o h c : List Str) : ((rowItems o h c).map fun i => (⟨i.1, normText (some i.2), [], []⟩ : Cell)).map (fun c => Elem.mk c.tag c.text c.attrib []) = rowKids o h c := by
  unfold rowItems rowKids
  simp only [dictGet_eq_cell]
  induction o with
  | nil => rfl
  | cons n o ih =>
    simp only [List.filterMap_cons]
    cases hc : cell h c n with
    | none => simpa using ih
    | some v =>
      cases v with
      | nil => simpa using ih
      | cons x v => simp only [ne_eq, reduceCtorEq, not_false_eq_true, if_true, if_false, List.map_cons]; rw [ih]; rfl

theorem textOf_eq : textOf = normText := by
  funext x; rcases x with _ | _ | ⟨_, _⟩ <;> rfl

/-- run the action of the state table -/
def act (tab : Tab) (lx : Lxml) (g : Globals) (l : LineType × List Str) : Py Globals := do
  let g' ← (transition tab lx g.state l.1).2 g l.2
  return { g' with state := (transition tab lx g.state l.1).1 }

theorem act_eq {g : Globals} {st : PState} (h : g.state = st) (l : LineType × List Str) : act tab lx g l =
    (transition tab lx st l.1).2 g l.2 >>= fun g' => pure { g' with state := (transition tab lx st l.1).1 } := by subst h; rfl

theorem obsContextAction_item {g : Globals} {a : Stk → Str → Option Str → Py Stk} (i : Item) :
    obsContextAction g a (i.tag :: i.more.toList) = g.on fun s => a s i.tag i.more := by
  obtain ⟨t, _ | m⟩ := i <;> rfl

theorem subObsContextAction_item {g : Globals} (i : Item) : subObsContextAction lx g (i.tag :: i.more.toList) = g.on fun s => s.add lx i.tag i.more := by
  obtain ⟨t, _ | m⟩ := i <;> rfl

theorem firstObsBlock_ok (hl : Lxml.Sane lx) {g : Globals} {s : Stk} {f : Frame} {fs : List Frame} (hs : g.stack = some s) (hr : Rep s (f :: fs)) (i : Item)
    (ha : lx.Accepts i.tag i.more []) :
    ∃ s', firstObsBlockAction lx g (i.tag :: i.more.toList) = .ok { g with headerType := some none, stack := some s' } ∧
      Rep s' (itemFrame i [] :: ⟨c! "obsContext", none, [], []⟩ :: ⟨c! "obsBlock", none, [], []⟩ :: f :: fs) := by
  obtain ⟨s1, h1, r1⟩ := hr.addPush (lx := lx) (tag := c! "obsBlock") (text := none) (attrib := []) ⟨hl.1, by simp, by simp⟩
  obtain ⟨s2, h2, r2⟩ := r1.addPush (lx := lx) (tag := c! "obsContext") (text := none) (attrib := []) ⟨hl.2.1, by simp, by simp⟩
  obtain ⟨s3, h3, r3⟩ := r2.addPush ha
  refine ⟨s3, ?_, r3⟩
  rw [firstObsBlockAction]
  have e1 := on_ok (g := { g with headerType := some none }) (f := fun s => s.addPush lx (c! "obsBlock")) hs h1
  have e2 := on_ok (g := { g with headerType := some none, stack := some s1 }) (f := fun s => s.addPush lx (c! "obsContext")) rfl h2
  have e3 := on_ok (g := { g with headerType := some none, stack := some s2 }) (f := fun s => s.addPush lx i.tag i.more) rfl h3
  simp only [e1, bind, Except.bind, e2, obsContextAction_item, e3]

theorem data_ok {g : Globals} {s : Stk} {z : List Frame} (hs : g.stack = some s) {t : Str} {h c : List Str} (hh : g.headerType = some (some t)) (hv : g.headerVals = h)
    (ho : ∃ o, PackUtil.dictGet tab.allowed t = some o) (hc : c.length ≤ h.length) {a : Stk → Str → Py Stk} {s1 : Stk} (ha : a s t = .ok s1)
    (hr : Rep s1 (⟨t, none, [], []⟩ :: z)) (hx : ∀ x ∈ rowItems (order tab t) h c, lx.Accepts x.1 (some x.2) []) :
    ∃ s', dataAction tab lx g a c = .ok { g with stack := some s' } ∧ Rep s' (rowFrame tab t h c :: z) := by
  obtain ⟨gst, gfl, gsk, ght, ghv⟩ := g
  simp only at hs hh hv
  subst hs hh hv
  obtain ⟨o, ho⟩ := ho
  have e : order tab t = o := by simp [order, ho]
  obtain ⟨s2, h2, r2⟩ := hr.addElementList (l := (rowItems (order tab t) ghv c).map fun i => ⟨i.1, normText (some i.2), [], []⟩)
    (by intro c hc; simp only [List.mem_map] at hc; obtain ⟨_, _, rfl⟩ := hc; rfl)
  rw [rowItems_kids] at r2
  refine ⟨s2, ?_, r2⟩
  have e1 := on_ok (g := ⟨gst, gfl, some s, some (some t), ghv⟩) (f := fun s => a s t) rfl ha
  have e2 := on_ok (g := ⟨gst, gfl, some s1, some (some t), ghv⟩) (f := fun s => s.addElementList ((rowItems (order tab t) ghv c).map fun i => ⟨i.1, normText (some i.2), [], []⟩)) rfl h2
  have e3 := makeElementList_ok hx
  rw [e] at e3 e2
  simp only at e1 e2
  simp only [dataAction, if_neg (show ¬ ghv.length < c.length by omega), e1, bind, Except.bind, getItem, ho, e3, e2]

/-- **A**: a line the grammar allows is entered -/
theorem step_ok (hl : Lxml.Sane lx) {v : Str} {gs gs' : List Group} {cur cur' : Cur} {g : Globals} (hsim : Sim tab v gs cur g) {l : PLine}
    (hstep : step gs cur l = some (gs', cur')) (hk : LineKnown tab l) (ha : LineAccepted tab lx cur l) :
    ∃ g', act tab lx g (raw l) = .ok g' ∧ Sim tab v gs' cur' g' := by
  obtain ⟨hfirst, hstate, ⟨s, hs, hr⟩, hctx, hhdr⟩ := hsim
  cases cur with
  | start =>
    cases l with
    | top i =>
      simp only [step, Option.some.injEq, Prod.mk.injEq] at hstep
      obtain ⟨rfl, rfl⟩ := hstep
      obtain ⟨s', h1, r1⟩ := firstObsBlock_ok hl hs hr i ha
      refine ⟨_, by simp only [act_eq hstate, raw, Cur.state, transition, h1, bind, Except.bind, pure, Except.pure]; rfl, ?_⟩
      exact ⟨hfirst, rfl, ⟨s', rfl, r1⟩, fun _ => rfl, by simp [Cur.header]⟩
    | second i => simp [step] at hstep
    | keyword h t =>
      simp only [step, Option.some.injEq, Prod.mk.injEq] at hstep
      obtain ⟨rfl, rfl⟩ := hstep
      refine ⟨_, by simp only [act_eq hstate, raw, Cur.state, transition, openDataKeywordHeaderAction, List.getLast?_append, List.getLast?_singleton, Option.some_or, bind, Except.bind, pure, Except.pure]; rfl, ?_⟩
      exact ⟨hfirst, rfl, ⟨s, hs, hr⟩, by simp, by simp only [Cur.header, Option.some.injEq, Prod.mk.injEq]; rintro _ _ ⟨rfl, rfl⟩; exact ⟨rfl, by simp, hk.1⟩⟩
    | data c => simp [step] at hstep
  | ctx d it sb =>
    cases l with
    | top i =>
      simp only [step, Option.some.injEq, Prod.mk.injEq] at hstep
      obtain ⟨rfl, rfl⟩ := hstep
      obtain ⟨s', h1, r1⟩ := hr.addPopPush ha
      have e := on_ok (f := fun s => s.addPopPush lx i.tag i.more) hs h1
      refine ⟨_, by simp only [act_eq hstate, raw, Cur.state, transition, obsContextAction_item, e, bind, Except.bind, pure, Except.pure]; rfl, ?_⟩
      exact ⟨hfirst, rfl, ⟨s', rfl, by simpa [zipper, itemFrame, ctxKids, Frame.add, Frame.close, Item.elem, textOf_eq] using r1⟩, fun _ => hctx ⟨_, _, _, rfl⟩, by simp [Cur.header]⟩
    | second i =>
      simp only [step, Option.some.injEq, Prod.mk.injEq] at hstep
      obtain ⟨rfl, rfl⟩ := hstep
      obtain ⟨s', h1, r1⟩ := hr.add ha
      have e := on_ok (f := fun s => s.add lx i.tag i.more) hs h1
      refine ⟨_, by simp only [act_eq hstate, raw, Cur.state, transition, subObsContextAction_item, e, bind, Except.bind, pure, Except.pure]; rfl, ?_⟩
      exact ⟨hfirst, rfl, ⟨s', rfl, by simpa [zipper, itemFrame, ctxKids, Frame.add, Frame.close, Item.elem, textOf_eq] using r1⟩, fun _ => hctx ⟨_, _, _, rfl⟩, by simp [Cur.header]⟩
    | keyword h t =>
      simp only [step, Option.some.injEq, Prod.mk.injEq] at hstep
      obtain ⟨rfl, rfl⟩ := hstep
      have hh := hctx ⟨_, _, _, rfl⟩
      refine ⟨_, by simp only [act_eq hstate, raw, Cur.state, transition, keywordHeaderAction, hh, List.getLast?_append, List.getLast?_singleton, Option.some_or, bind, Except.bind, pure, Except.pure, truthy, Bool.false_eq_true, false_and, if_false]; rfl, ?_⟩
      exact ⟨hfirst, rfl, ⟨s, hs, hr⟩, by simp, by simp only [Cur.header, Option.some.injEq, Prod.mk.injEq]; rintro _ _ ⟨rfl, rfl⟩; exact ⟨rfl, by simp, hk.1⟩⟩
    | data c => simp [step] at hstep
  | blockHdr d it sb t h =>
    cases l with
    | top i => simp [step] at hstep
    | second i => simp [step] at hstep
    | keyword h t => simp [step] at hstep
    | data c =>
      simp only [step] at hstep
      split at hstep
      · simp at hstep
      simp only [Option.some.injEq, Prod.mk.injEq] at hstep
      obtain ⟨rfl, rfl⟩ := hstep
      obtain ⟨hh, hv, ho⟩ := hhdr t h rfl
      obtain ⟨hat, hax⟩ := ha t h rfl
      obtain ⟨s1, h1, r1⟩ := hr.pop
      obtain ⟨s2, h2, r2⟩ := r1.pop
      obtain ⟨s3, h3, r3⟩ := r2.addPush (lx := lx) (tag := c! "obsData") (text := none) (attrib := []) ⟨hl.2.2, by simp, by simp⟩
      obtain ⟨s4, h4, r4⟩ := r3.addPush hat
      obtain ⟨s5, h5, r5⟩ := data_ok (g := { g with stack := some s3 }) (lx := lx) rfl hh hv ho (by omega) (a := fun s t => s.addPush lx t) h4 r4 hax
      have e1 := on_ok (f := Stk.pop) hs h1
      have e2 := on_ok (g := { g with stack := some s1 }) (f := Stk.pop) rfl h2
      have e3 := on_ok (g := { g with stack := some s2 }) (f := fun s => s.addPush lx (c! "obsData")) rfl h3
      refine ⟨_, by simp only [act_eq hstate, raw, Cur.state, transition, firstObsDataAction, e1, e2, e3, h5, bind, Except.bind, pure, Except.pure]; rfl, ?_⟩
      exact ⟨hfirst, rfl, ⟨s5, rfl, by simpa [zipper, itemFrame, ctxKids, Frame.add, Frame.close, Item.elem, textOf_eq, contextElem, normText] using r5⟩, by simp,
        by simp only [Cur.header, Option.some.injEq, Prod.mk.injEq]; rintro _ _ ⟨rfl, rfl⟩; exact ⟨hh, hv, ho⟩⟩
  | blockRows c t h rows last =>
    cases l with
    | top i =>
      simp only [step, Option.some.injEq, Prod.mk.injEq] at hstep
      obtain ⟨rfl, rfl⟩ := hstep
      obtain ⟨s1, h1, r1⟩ := hr.pop
      obtain ⟨s2, h2, r2⟩ := r1.pop
      obtain ⟨s3, h3, r3⟩ := r2.pop
      obtain ⟨s', h4, r4⟩ := firstObsBlock_ok (g := { g with headerType := some none, stack := some s3 }) hl rfl r3 i ha
      have e1 := on_ok (g := { g with headerType := some none }) (f := Stk.pop) hs h1
      have e2 := on_ok (g := { g with headerType := some none, stack := some s1 }) (f := Stk.pop) rfl h2
      have e3 := on_ok (g := { g with headerType := some none, stack := some s2 }) (f := Stk.pop) rfl h3
      refine ⟨_, by simp only [act_eq hstate, raw, Cur.state, transition, closeObsBlockOpenObsBlockAction, e1, e2, e3, h4, bind, Except.bind, pure, Except.pure]; rfl, ?_⟩
      exact ⟨hfirst, rfl, ⟨s', rfl, by simpa [zipper, adesFrame, rowFrame, ctxKids, Frame.add, Frame.close, Group.elems, Table.elems, rowElem] using r4⟩, fun _ => rfl, by simp [Cur.header]⟩
    | second i => simp [step] at hstep
    | keyword h' t' =>
      simp only [step, Option.some.injEq, Prod.mk.injEq] at hstep
      obtain ⟨rfl, rfl⟩ := hstep
      obtain ⟨s1, h1, r1⟩ := hr.pop
      obtain ⟨s2, h2, r2⟩ := r1.pop
      obtain ⟨s3, h3, r3⟩ := r2.pop
      have e1 := on_ok (f := Stk.pop) hs h1
      have e2 := on_ok (g := { g with stack := some s1 }) (f := Stk.pop) rfl h2
      have e3 := on_ok (g := { g with stack := some s2 }) (f := Stk.pop) rfl h3
      refine ⟨_, by simp only [act_eq hstate, raw, Cur.state, transition, closeObsBlockKeywordHeaderAction, e1, e2, e3, openDataKeywordHeaderAction, List.getLast?_append, List.getLast?_singleton, Option.some_or, bind, Except.bind, pure, Except.pure]; rfl, ?_⟩
      exact ⟨hfirst, rfl, ⟨s3, rfl, by simpa [zipper, adesFrame, rowFrame, ctxKids, Frame.add, Frame.close, Group.elems, Table.elems, rowElem] using r3⟩, by simp,
        by simp only [Cur.header, Option.some.injEq, Prod.mk.injEq]; rintro _ _ ⟨rfl, rfl⟩; exact ⟨rfl, by simp, hk.1⟩⟩
    | data x =>
      simp only [step] at hstep
      split at hstep
      · simp at hstep
      simp only [Option.some.injEq, Prod.mk.injEq] at hstep
      obtain ⟨rfl, rfl⟩ := hstep
      obtain ⟨hh, hv, ho⟩ := hhdr t h rfl
      obtain ⟨hat, hax⟩ := ha t h rfl
      obtain ⟨s1, h1, r1⟩ := hr.addPopPush hat
      obtain ⟨s2, h2, r2⟩ := data_ok (g := g) (lx := lx) hs hh hv ho (by omega) (a := fun s t => s.addPopPush lx t) h1 r1 hax
      refine ⟨_, by simp only [act_eq hstate, raw, Cur.state, transition, h2, bind, Except.bind, pure, Except.pure]; rfl, ?_⟩
      exact ⟨hfirst, rfl, ⟨s2, rfl, by simpa [zipper, adesFrame, rowFrame, ctxKids, Frame.add, Frame.close, Group.elems, Table.elems, rowElem] using r2⟩, by simp,
        by simp only [Cur.header, Option.some.injEq, Prod.mk.injEq]; rintro _ _ ⟨rfl, rfl⟩; exact ⟨hh, hv, ho⟩⟩
  | tblHdr t h =>
    cases l with
    | top i => simp [step] at hstep
    | second i => simp [step] at hstep
    | keyword h t => simp [step] at hstep
    | data c =>
      simp only [step] at hstep
      split at hstep
      · simp at hstep
      simp only [Option.some.injEq, Prod.mk.injEq] at hstep
      obtain ⟨rfl, rfl⟩ := hstep
      obtain ⟨hh, hv, ho⟩ := hhdr t h rfl
      obtain ⟨hat, hax⟩ := ha t h rfl
      obtain ⟨s4, h4, r4⟩ := hr.addPush hat
      obtain ⟨s5, h5, r5⟩ := data_ok (g := g) (lx := lx) hs hh hv ho (by omega) (a := fun s t => s.addPush lx t) h4 r4 hax
      refine ⟨_, by simp only [act_eq hstate, raw, Cur.state, transition, h5, bind, Except.bind, pure, Except.pure]; rfl, ?_⟩
      exact ⟨hfirst, rfl, ⟨s5, rfl, by simpa [zipper] using r5⟩, by simp,
        by simp only [Cur.header, Option.some.injEq, Prod.mk.injEq]; rintro _ _ ⟨rfl, rfl⟩; exact ⟨hh, hv, ho⟩⟩
  | tblRows t h rows last =>
    cases l with
    | top i =>
      simp only [step, Option.some.injEq, Prod.mk.injEq] at hstep
      obtain ⟨rfl, rfl⟩ := hstep
      obtain ⟨s1, h1, r1⟩ := hr.pop
      obtain ⟨s', h4, r4⟩ := firstObsBlock_ok (g := { g with stack := some s1 }) hl rfl r1 i ha
      have e1 := on_ok (f := Stk.pop) hs h1
      refine ⟨_, by simp only [act_eq hstate, raw, Cur.state, transition, closeDataOpenObsBlockAction, e1, h4, bind, Except.bind, pure, Except.pure]; rfl, ?_⟩
      exact ⟨hfirst, rfl, ⟨s', rfl, by simpa [zipper, adesFrame, rowFrame, ctxKids, Frame.add, Frame.close, Group.elems, Table.elems, rowElem] using r4⟩, fun _ => rfl, by simp [Cur.header]⟩
    | second i => simp [step] at hstep
    | keyword h' t' =>
      simp only [step, Option.some.injEq, Prod.mk.injEq] at hstep
      obtain ⟨rfl, rfl⟩ := hstep
      obtain ⟨s1, h1, r1⟩ := hr.pop
      have e1 := on_ok (f := Stk.pop) hs h1
      refine ⟨_, by simp only [act_eq hstate, raw, Cur.state, transition, closeDataKeywordHeaderAction, e1, openDataKeywordHeaderAction, List.getLast?_append, List.getLast?_singleton, Option.some_or, bind, Except.bind, pure, Except.pure]; rfl, ?_⟩
      exact ⟨hfirst, rfl, ⟨s1, rfl, by simpa [zipper, adesFrame, rowFrame, ctxKids, Frame.add, Frame.close, Group.elems, Table.elems, rowElem] using r1⟩, by simp,
        by simp only [Cur.header, Option.some.injEq, Prod.mk.injEq]; rintro _ _ ⟨rfl, rfl⟩; exact ⟨rfl, by simp, hk.1⟩⟩
    | data x =>
      simp only [step] at hstep
      split at hstep
      · simp at hstep
      simp only [Option.some.injEq, Prod.mk.injEq] at hstep
      obtain ⟨rfl, rfl⟩ := hstep
      obtain ⟨hh, hv, ho⟩ := hhdr t h rfl
      obtain ⟨hat, hax⟩ := ha t h rfl
      obtain ⟨s1, h1, r1⟩ := hr.addPopPush hat
      obtain ⟨s2, h2, r2⟩ := data_ok (g := g) (lx := lx) hs hh hv ho (by omega) (a := fun s t => s.addPopPush lx t) h1 r1 hax
      refine ⟨_, by simp only [act_eq hstate, raw, Cur.state, transition, h2, bind, Except.bind, pure, Except.pure]; rfl, ?_⟩
      exact ⟨hfirst, rfl, ⟨s2, rfl, by simpa [zipper, adesFrame, rowFrame, ctxKids, Frame.add, Frame.close, Group.elems, Table.elems, rowElem] using r2⟩, by simp,
        by simp only [Cur.header, Option.some.injEq, Prod.mk.injEq]; rintro _ _ ⟨rfl, rfl⟩; exact ⟨hh, hv, ho⟩⟩

theorem data_long {g : Globals} {a : Stk → Str → Py Stk} {c : List Str} (h : g.headerVals.length < c.length) :
    dataAction tab lx g a c = .error .nameError := by
  rw [dataAction, if_pos h]

/-- **B**: a line the grammar does not allow raises NameError (meant to be RuntimeError) -/
theorem step_none (hl : Lxml.Sane lx) {v : Str} {gs : List Group} {cur : Cur} {g : Globals} (hsim : Sim tab v gs cur g) {l : PLine} (hstep : step gs cur l = none) :
    act tab lx g (raw l) = .error .nameError := by
  obtain ⟨hfirst, hstate, ⟨s, hs, hr⟩, hctx, hhdr⟩ := hsim
  have long : ∀ {α : Type} {x : Option α} {h c : List Str}, (if h.length < c.length then none else x) = none → x ≠ none → h.length < c.length := by
    intro α x h c h1 h2
    apply Classical.byContradiction; intro hn; rw [if_neg hn] at h1; exact h2 h1
  cases cur <;> cases l <;> simp only [step, reduceCtorEq] at hstep <;>
    try (simp only [act_eq hstate, raw, Cur.state, transition, errorAction, bind, Except.bind]; done)
  · rename_i d it sb t h c
    obtain ⟨hh, hv, ho⟩ := hhdr t h rfl
    have hc := long hstep (by simp)
    obtain ⟨s1, h1, r1⟩ := hr.pop
    obtain ⟨s2, h2, r2⟩ := r1.pop
    obtain ⟨s3, h3, r3⟩ := r2.addPush (lx := lx) (tag := c! "obsData") (text := none) (attrib := []) ⟨hl.2.2, by simp, by simp⟩
    have e1 := on_ok (f := Stk.pop) hs h1
    have e2 := on_ok (g := { g with stack := some s1 }) (f := Stk.pop) rfl h2
    have e3 := on_ok (g := { g with stack := some s2 }) (f := fun s => s.addPush lx (c! "obsData")) rfl h3
    have e4 : dataAction tab lx { g with stack := some s3 } (fun s t => s.addPush lx t) c = .error .nameError := data_long (by rw [hv]; exact hc)
    simp only [act_eq hstate, raw, Cur.state, transition, firstObsDataAction, e1, e2, e3, e4, bind, Except.bind]
  · rename_i _ t h _ _ c
    obtain ⟨hh, hv, ho⟩ := hhdr t h rfl
    have hc := long hstep (by simp)
    simp only [act_eq hstate, raw, Cur.state, transition, data_long (show g.headerVals.length < _ by rw [hv]; exact hc), bind, Except.bind]
  · rename_i t h c
    obtain ⟨hh, hv, ho⟩ := hhdr t h rfl
    have hc := long hstep (by simp)
    simp only [act_eq hstate, raw, Cur.state, transition, data_long (show g.headerVals.length < _ by rw [hv]; exact hc), bind, Except.bind]
  · rename_i t h _ _ c
    obtain ⟨hh, hv, ho⟩ := hhdr t h rfl
    have hc := long hstep (by simp)
    simp only [act_eq hstate, raw, Cur.state, transition, data_long (show g.headerVals.length < _ by rw [hv]; exact hc), bind, Except.bind]

theorem bind_ok {α β : Type} {x : Py α} {f : α → Py β} {b : β} : (x >>= f) = .ok b ↔ ∃ a, x = .ok a ∧ f a = .ok b := by
  cases x <;> simp [bind, Except.bind]

theorem firstObsBlock_inv {g g' : Globals} {i : Item} (h : firstObsBlockAction lx g (i.tag :: i.more.toList) = .ok g') : lx.Accepts i.tag i.more [] := by
  rw [firstObsBlockAction] at h
  simp only [bind_ok] at h
  obtain ⟨g1, -, g2, -, h3⟩ := h
  rw [obsContextAction_item] at h3
  obtain ⟨s, s', -, h4, -⟩ := on_inv h3
  exact addPush_inv h4

theorem data_inv {g g' : Globals} {a : Stk → Str → Py Stk} {t : Str} {h c : List Str} (hh : g.headerType = some (some t)) (hv : g.headerVals = h)
    (hd : dataAction tab lx g a c = .ok g') : (∃ s s1, g.stack = some s ∧ a s t = .ok s1) ∧ ∀ x ∈ rowItems (order tab t) h c, lx.Accepts x.1 (some x.2) [] := by
  obtain ⟨gst, gfl, gsk, ght, ghv⟩ := g
  simp only at hh hv
  subst hh hv
  rw [dataAction] at hd
  split at hd
  · simp at hd
  simp only [bind_ok] at hd
  obtain ⟨g1, h1, o, h2, es, h3, h4⟩ := hd
  obtain ⟨s, s', h5, h6, rfl⟩ := on_inv h1
  refine ⟨⟨s, s', h5, h6⟩, ?_⟩
  rw [getItem] at h2
  split at h2
  · rename_i o' ho
    simp at h2; subst h2
    have e : order tab t = o' := by simp [order, ho]
    rw [e]
    exact makeElementList_inv h3
  · simp at h2

/-- **C**: a line that was entered was accepted by lxml -/
theorem step_accepted {v : Str} {gs gs' : List Group} {cur cur' : Cur} {g g' : Globals} (hsim : Sim tab v gs cur g) {l : PLine}
    (hstep : step gs cur l = some (gs', cur')) (h : act tab lx g (raw l) = .ok g') : LineAccepted tab lx cur l := by
  obtain ⟨hfirst, hstate, ⟨s, hs, hr⟩, hctx, hhdr⟩ := hsim
  rw [act_eq hstate] at h
  obtain ⟨g1, h, -⟩ := bind_ok.1 h
  cases l with
  | keyword h t => trivial
  | top i =>
    cases cur <;> simp only [step, reduceCtorEq] at hstep <;> simp only [raw, Cur.state, transition] at h
    · exact firstObsBlock_inv h
    · rw [obsContextAction_item] at h
      obtain ⟨_, _, -, h, -⟩ := on_inv h
      exact addPopPush_inv h
    · simp only [closeObsBlockOpenObsBlockAction, bind_ok] at h
      obtain ⟨_, _, _, _, _, _, h⟩ := h
      exact firstObsBlock_inv h
    · simp only [closeDataOpenObsBlockAction, bind_ok] at h
      obtain ⟨_, _, h⟩ := h
      exact firstObsBlock_inv h
  | second i =>
    cases cur <;> simp only [step, reduceCtorEq] at hstep <;> simp only [raw, Cur.state, transition] at h
    rw [subObsContextAction_item] at h
    obtain ⟨_, _, -, h, -⟩ := on_inv h
    exact add_inv h
  | data c =>
    intro t hd hc
    obtain ⟨hh, hv, ho⟩ := hhdr t hd hc
    cases cur <;> simp only [step, reduceCtorEq] at hstep <;> simp only [raw, Cur.state, transition] at h
    · simp only [firstObsDataAction, bind_ok] at h
      obtain ⟨g1, h1, g2, h2, g3, h3, h⟩ := h
      obtain ⟨_, _, -, -, rfl⟩ := on_inv h1
      obtain ⟨_, _, -, -, rfl⟩ := on_inv h2
      obtain ⟨_, _, -, -, rfl⟩ := on_inv h3
      obtain ⟨⟨_, _, -, h⟩, hx⟩ := data_inv (tab := tab) (t := t) (h := hd) (by simpa using hh) (by simpa using hv) h
      exact ⟨addPush_inv h, hx⟩
    · obtain ⟨⟨_, _, -, h⟩, hx⟩ := data_inv hh hv h
      exact ⟨addPopPush_inv h, hx⟩
    · obtain ⟨⟨_, _, -, h⟩, hx⟩ := data_inv hh hv h
      exact ⟨addPush_inv h, hx⟩
    · obtain ⟨⟨_, _, -, h⟩, hx⟩ := data_inv hh hv h
      exact ⟨addPopPush_inv h, hx⟩

/-! ### runs -/

/-- run the state table over classified lines -/
def acts (tab : Tab) (lx : Lxml) : Globals → List PLine → Py Globals
  | g, [] => .ok g
  | g, l :: ls => act tab lx g (raw l) >>= fun g => acts tab lx g ls

def steps : List Group → Cur → List PLine → Option (List Group × Cur)
  | gs, cur, [] => some (gs, cur)
  | gs, cur, l :: ls => (step gs cur l).bind fun p => steps p.1 p.2 ls

/-- lxml accepts all lines of a run -/
def RunAccepted (tab : Tab) (lx : Lxml) : List Group → Cur → List PLine → Prop
  | _, _, [] => True
  | gs, cur, l :: ls => LineAccepted tab lx cur l ∧ ∀ gs' cur', step gs cur l = some (gs', cur') → RunAccepted tab lx gs' cur' ls

theorem acts_ok (hl : Lxml.Sane lx) {v : Str} : ∀ (ls : List PLine) {gs gs' : List Group} {cur cur' : Cur} {g : Globals}, Sim tab v gs cur g →
    (∀ l ∈ ls, LineKnown tab l) → steps gs cur ls = some (gs', cur') → RunAccepted tab lx gs cur ls → ∃ g', acts tab lx g ls = .ok g' ∧ Sim tab v gs' cur' g'
  | [], gs, gs', cur, cur', g, hsim, _, hst, _ => by
    simp [steps] at hst; obtain ⟨rfl, rfl⟩ := hst
    exact ⟨g, rfl, hsim⟩
  | l :: ls, gs, gs', cur, cur', g, hsim, hk, hst, ha => by
    rw [steps, Option.bind_eq_some_iff] at hst
    obtain ⟨⟨gs1, cur1⟩, h1, h2⟩ := hst
    obtain ⟨g1, h3, h4⟩ := step_ok hl hsim h1 (hk l (by simp)) ha.1
    obtain ⟨g2, h5, h6⟩ := acts_ok hl ls h4 (fun l h => hk l (by simp [h])) h2 (ha.2 _ _ h1)
    exact ⟨g2, by rw [acts, h3]; exact h5, h6⟩

theorem acts_inv (hl : Lxml.Sane lx) {v : Str} : ∀ (ls : List PLine) {gs : List Group} {cur : Cur} {g g' : Globals}, Sim tab v gs cur g →
    (∀ l ∈ ls, LineKnown tab l) → acts tab lx g ls = .ok g' → ∃ gs' cur', steps gs cur ls = some (gs', cur') ∧ Sim tab v gs' cur' g' ∧ RunAccepted tab lx gs cur ls
  | [], gs, cur, g, g', hsim, _, h => by
    simp [acts] at h; subst h
    exact ⟨gs, cur, rfl, hsim, trivial⟩
  | l :: ls, gs, cur, g, g', hsim, hk, h => by
    rw [acts, bind_ok] at h
    obtain ⟨g1, h1, h2⟩ := h
    cases hst : step gs cur l with
    | none => rw [step_none hl hsim hst] at h1; simp at h1
    | some p =>
      obtain ⟨gs1, cur1⟩ := p
      have ha := step_accepted hsim hst h1
      obtain ⟨g1', h3, h4⟩ := step_ok hl hsim hst (hk l (by simp)) ha
      rw [h1] at h3
      obtain rfl := Except.ok.inj h3
      obtain ⟨gs', cur', h5, h6, h7⟩ := acts_inv hl ls h4 (fun l h => hk l (by simp [h])) h2
      exact ⟨gs', cur', by rw [steps, hst]; exact h5, h6, ha, fun _ _ he => by rw [hst] at he; obtain ⟨rfl, rfl⟩ := Prod.mk.inj (Option.some.inj he); exact h7⟩

/-! ### the parser against the grammar -/

/-- the position invariant: completed groups have rows, everything fits -/
def Good (gs : List Group) (cur : Cur) : Prop := (∀ g ∈ gs ++ cur.groups, g.Fits) ∧ (∀ g ∈ gs, g.HasRows)

theorem step_lines {gs gs' : List Group} {cur cur' : Cur} {l : PLine} (h : step gs cur l = some (gs', cur')) (hg : Good gs cur) :
    (gs' ++ cur'.groups).flatMap Group.lines = (gs ++ cur.groups).flatMap Group.lines ++ [l] ∧ Good gs' cur' := by
  unfold Good at *
  cases cur <;> cases l <;> simp only [step, reduceCtorEq, Option.some.injEq, Prod.mk.injEq] at h <;>
    first
    | (obtain ⟨rfl, rfl⟩ := h
       simp [Cur.groups, Group.lines, ctxLines, Table.lines, Group.Fits, Group.HasRows, Table.Fits, or_imp, forall_and] at hg ⊢
       try simp_all)
    | (split at h
       · simp at h
       · simp only [Option.some.injEq, Prod.mk.injEq] at h
         obtain ⟨rfl, rfl⟩ := h
         simp [Cur.groups, Group.lines, ctxLines, Table.lines, Group.Fits, Group.HasRows, Table.Fits, or_imp, forall_and] at hg ⊢
         try simp_all)

theorem steps_lines : ∀ (ls : List PLine) {gs gs' : List Group} {cur cur' : Cur}, steps gs cur ls = some (gs', cur') → Good gs cur →
    (gs' ++ cur'.groups).flatMap Group.lines = (gs ++ cur.groups).flatMap Group.lines ++ ls ∧ Good gs' cur'
  | [], gs, gs', cur, cur', h, hg => by simp [steps] at h; obtain ⟨rfl, rfl⟩ := h; simp [hg]
  | l :: ls, gs, gs', cur, cur', h, hg => by
    rw [steps, Option.bind_eq_some_iff] at h
    obtain ⟨⟨gs1, cur1⟩, h1, h2⟩ := h
    obtain ⟨e1, g1⟩ := step_lines h1 hg
    obtain ⟨e2, g2⟩ := steps_lines ls h2 g1
    exact ⟨by rw [e2, e1]; simp, g2⟩

theorem Good.document {gs : List Group} {cur : Cur} (h : Good gs cur) : Document (gs ++ cur.groups) := by
  refine ⟨h.1, ?_⟩
  intro g hg
  cases cur <;> simp [Cur.groups] at hg
  · exact h.2 g (List.dropLast_subset _ hg)
  all_goals exact h.2 g hg

theorem steps_append : ∀ (ls ms : List PLine) (gs : List Group) (cur : Cur), steps gs cur (ls ++ ms) = (steps gs cur ls).bind fun p => steps p.1 p.2 ms
  | [], ms, gs, cur => by simp [steps]
  | l :: ls, ms, gs, cur => by
    simp only [List.cons_append, steps]
    cases step gs cur l with
    | none => rfl
    | some p => simpa using steps_append ls ms p.1 p.2

theorem steps_tblRows {gs : List Group} {t : Str} {h : List Str} : ∀ (more : List (List Str)) (r : List (List Str)) (last : List Str), (∀ x ∈ more, x.length ≤ h.length) →
    ∃ cur', steps gs (.tblRows t h r last) (more.map .data) = some (gs, cur') ∧ cur'.groups = [.table ⟨t, h, r ++ last :: more⟩]
  | [], r, last, _ => ⟨_, rfl, rfl⟩
  | x :: more, r, last, hx => by
    obtain ⟨cur', h1, h2⟩ := steps_tblRows (gs := gs) (t := t) more (r ++ [last]) x fun y hy => hx y (by simp [hy])
    refine ⟨cur', ?_, by rw [h2]; simp⟩
    simp only [List.map_cons, steps, step, if_neg (show ¬ h.length < x.length by have := hx x (by simp); omega), Option.bind_some]
    exact h1

theorem steps_blockRows {gs : List Group} {c : List (Item × List Item)} {t : Str} {h : List Str} : ∀ (more : List (List Str)) (r : List (List Str)) (last : List Str),
    (∀ x ∈ more, x.length ≤ h.length) →
    ∃ cur', steps gs (.blockRows c t h r last) (more.map .data) = some (gs, cur') ∧ cur'.groups = [.block c (some ⟨t, h, r ++ last :: more⟩)]
  | [], r, last, _ => ⟨_, rfl, rfl⟩
  | x :: more, r, last, hx => by
    obtain ⟨cur', h1, h2⟩ := steps_blockRows (gs := gs) (c := c) (t := t) more (r ++ [last]) x fun y hy => hx y (by simp [hy])
    refine ⟨cur', ?_, by rw [h2]; simp⟩
    simp only [List.map_cons, steps, step, if_neg (show ¬ h.length < x.length by have := hx x (by simp); omega), Option.bind_some]
    exact h1

theorem steps_subs {gs : List Group} {d : List (Item × List Item)} {it : Item} : ∀ (more subs : List Item),
    steps gs (.ctx d it subs) (more.map .second) = some (gs, .ctx d it (subs ++ more))
  | [], subs => by simp [steps]
  | x :: more, subs => by
    simp only [List.map_cons, steps, step, Option.bind_some]
    rw [steps_subs more (subs ++ [x])]; simp

theorem steps_ctx {gs : List Group} : ∀ (more d : List (Item × List Item)) (it : Item) (subs : List Item),
    ∃ d' it' s', steps gs (.ctx d it subs) (more.flatMap ctxLines) = some (gs, .ctx d' it' s') ∧ d' ++ [(it', s')] = d ++ (it, subs) :: more
  | [], d, it, subs => ⟨d, it, subs, rfl, rfl⟩
  | (i, ss) :: more, d, it, subs => by
    obtain ⟨d', it', s', h1, h2⟩ := steps_ctx (gs := gs) more (d ++ [(it, subs)]) i ss
    refine ⟨d', it', s', ?_, by rw [h2]; simp⟩
    simp only [List.flatMap_cons, ctxLines, List.cons_append, steps, step, Option.bind_some]
    rw [steps_append, steps_subs]
    simpa using h1

/-- between two groups -/
def Boundary (_gs : List Group) (cur : Cur) : Prop := cur = .start ∨ ∃ g, cur.groups = [g] ∧ g.HasRows

theorem boundary_top {gs : List Group} {cur : Cur} (h : Boundary gs cur) (i : Item) : step gs cur (.top i) = some (gs ++ cur.groups, .ctx [] i []) := by
  rcases h with rfl | ⟨g, h1, h2⟩
  · simp [step, Cur.groups]
  · cases cur <;> simp [Cur.groups] at h1 <;> subst h1 <;> simp [Group.HasRows] at h2 <;> simp [step, Cur.groups]

theorem boundary_keyword {gs : List Group} {cur : Cur} (h : Boundary gs cur) (hd : List Str) (t : Str) : step gs cur (.keyword hd t) = some (gs ++ cur.groups, .tblHdr t hd) := by
  rcases h with rfl | ⟨g, h1, h2⟩
  · simp [step, Cur.groups]
  · cases cur <;> simp [Cur.groups] at h1 <;> subst h1 <;> simp [Group.HasRows] at h2 <;> simp [step, Cur.groups]

theorem steps_group {gs : List Group} {cur : Cur} (h : Boundary gs cur) (g : Group) (hf : g.Fits) :
    ∃ cur', steps gs cur g.lines = some (gs ++ cur.groups, cur') ∧ cur'.groups = [g] := by
  have blk : ∀ ctx : List (Item × List Item), ctx ≠ [] → ∃ d it s, steps gs cur (ctx.flatMap ctxLines) = some (gs ++ cur.groups, .ctx d it s) ∧ d ++ [(it, s)] = ctx := by
    intro ctx hne
    cases ctx with
    | nil => exact absurd rfl hne
    | cons c ctx =>
      obtain ⟨i, ss⟩ := c
      obtain ⟨d, it, s, h1, h2⟩ := steps_ctx (gs := gs ++ cur.groups) ctx [] i ss
      refine ⟨d, it, s, ?_, by simpa using h2⟩
      simp only [List.flatMap_cons, ctxLines, List.cons_append, steps, boundary_top h, Option.bind_some]
      rw [steps_append, steps_subs]
      simpa using h1
  cases g with
  | table t =>
    obtain ⟨t, hd, rows⟩ := t
    simp only [Group.lines, Table.lines, steps, boundary_keyword h, Option.bind_some]
    cases rows with
    | nil => exact ⟨_, rfl, rfl⟩
    | cons r rows =>
      have hf : ∀ x ∈ r :: rows, x.length ≤ hd.length := hf
      obtain ⟨cur', h1, h2⟩ := steps_tblRows (gs := gs ++ cur.groups) (t := t) rows [] r fun x hx => hf x (by simp [hx])
      refine ⟨cur', ?_, h2⟩
      simp only [List.map_cons, steps, step, if_neg (show ¬ hd.length < r.length by have := hf r (by simp); omega), Option.bind_some]
      exact h1
  | block ctx t =>
    cases t with
    | none =>
      obtain ⟨d, it, s, h1, h2⟩ := blk ctx hf
      exact ⟨_, h1, by rw [Cur.groups, h2]⟩
    | some t =>
      obtain ⟨t, hd, rows⟩ := t
      obtain ⟨d, it, s, h1, h2⟩ := blk ctx hf.1
      simp only [Group.lines, Table.lines]
      rw [steps_append, h1]
      simp only [Option.bind_some, steps, step]
      cases rows with
      | nil => exact ⟨_, rfl, by rw [Cur.groups, h2]⟩
      | cons r rows =>
        have hf : ∀ x ∈ r :: rows, x.length ≤ hd.length := hf.2
        obtain ⟨cur', h3, h4⟩ := steps_blockRows (gs := gs ++ cur.groups) (c := d ++ [(it, s)]) (t := t) rows [] r fun x hx => hf x (by simp [hx])
        refine ⟨cur', ?_, by rw [h4, h2]; rfl⟩
        simp only [List.map_cons, steps, step, if_neg (show ¬ hd.length < r.length by have := hf r (by simp); omega), Option.bind_some]
        exact h3

theorem steps_groups : ∀ (more : List Group) (gs : List Group) (cur : Cur), Boundary gs cur → Document more →
    ∃ gs' cur', steps gs cur (more.flatMap Group.lines) = some (gs', cur') ∧ gs' ++ cur'.groups = gs ++ cur.groups ++ more
  | [], gs, cur, _, _ => ⟨gs, cur, rfl, by simp⟩
  | [g], gs, cur, hb, hd => by
    obtain ⟨cur', h1, h2⟩ := steps_group hb g (hd.1 g (by simp))
    exact ⟨_, cur', by simpa using h1, by rw [h2]⟩
  | g :: g2 :: more, gs, cur, hb, hd => by
    obtain ⟨cur', h1, h2⟩ := steps_group hb g (hd.1 g (by simp))
    have hb' : Boundary (gs ++ cur.groups) cur' := .inr ⟨g, h2, hd.2 g (by simp)⟩
    obtain ⟨gs2, cur2, h3, h4⟩ := steps_groups (g2 :: more) _ _ hb' ⟨fun x hx => hd.1 x (by simp at hx ⊢; simp [hx]), fun x hx => hd.2 x (by simp at hx ⊢; simp [hx])⟩
    refine ⟨gs2, cur2, ?_, by rw [h4, h2]; simp⟩
    rw [List.flatMap_cons, steps_append, h1]; exact h3
end
end Verif.Psv
