import Verif.Props.Psv
import Verif.Spec.PsvErrors
/-!
  Lemmas.PsvErrors : the exceptions of the PSV state machine.
-/
namespace Verif.Psv
open Verif Verif.Xml Verif.Spec

/-- it raises nothing but ValueError -/
def Only {α : Type} (x : Py α) : Prop := ∀ e, x = .error e → e = .valueError

theorem Only.ok {α : Type} (a : α) : Only (.ok a : Py α) := fun _ h => by cases h
theorem Only.bind {α β : Type} {x : Py α} {f : α → Py β} (hx : Only x) (hf : ∀ a, x = .ok a → Only (f a)) : Only (x >>= f) := by
  intro e h
  cases hc : x with
  | error e' => rw [hc] at h; exact hx e (by rw [hc]; cases h; rfl)
  | ok a => rw [hc] at h; exact hf a hc e h

section
variable {tab : Tab} {lx : Lxml}

theorem only_new {tag : Str} {text : Option Str} {attrib : Attrib} : Only (newElement lx tag text attrib) := by
  intro e h
  unfold newElement at h
  repeat' split at h
  all_goals cases h; try rfl

theorem only_list : ∀ {l : List (Str × Str)}, Only (makeElementList lx l)
  | [] => .ok _
  | (_, _) :: _ => only_new.bind fun _ _ => only_list.bind fun _ _ => .ok _

theorem only_push {s : Stk} {tag : Str} {text : Option Str} {attrib : Attrib} : Only (s.addPush lx tag text attrib) := by
  unfold Stk.addPush
  split
  · exact only_new.bind fun _ _ => .ok _
  · exact only_new.bind fun _ _ => .ok _

theorem only_add {s : Stk} {f : Frame} {fs : List Frame} (hr : Rep s (f :: fs)) {tag : Str} {text : Option Str} {attrib : Attrib} : Only (s.add lx tag text attrib) := by
  unfold Stk.add
  have : s.stack ≠ [] := by
    intro h0
    have := hr.length
    rw [h0] at this; simp at this
  split
  · rename_i h; exact absurd h this
  · exact only_new.bind fun _ _ => .ok _

theorem only_pop {s s' : Stk} (h : s.pop = .ok s') : Only s.pop := by rw [h]; exact .ok _

theorem only_on {g : Globals} {s : Stk} {f : Stk → Py Stk} (h : g.stack = some s) (hf : Only (f s)) : Only (g.on f) := by
  unfold Globals.on Globals.getStack
  rw [h]
  exact Only.bind (.ok _) fun a ha => by cases ha; exact hf.bind fun _ _ => .ok _

theorem only_first {g : Globals} {s : Stk} (hs : g.stack = some s) (i : Item) : Only (firstObsBlockAction lx g (i.tag :: i.more.toList)) := by
  unfold firstObsBlockAction
  refine Only.bind (only_on (s := s) hs only_push) fun g1 h1 => ?_
  obtain ⟨_, s1, -, -, rfl⟩ := on_inv h1
  refine Only.bind (only_on (s := s1) rfl only_push) fun g2 h2 => ?_
  obtain ⟨_, s2, -, -, rfl⟩ := on_inv h2
  rw [obsContextAction_item]
  exact only_on (s := s2) rfl only_push


theorem only_data {g : Globals} {s : Stk} {t : Str} {h c : List Str} (hs : g.stack = some s) (hh : g.headerType = some (some t)) (hv : g.headerVals = h)
    (ho : ∃ o, PackUtil.dictGet tab.allowed t = some o) (hc : c.length ≤ h.length) {a : Stk → Str → Py Stk} (ha : Only (a s t)) (hn : ∀ s1, a s t = .ok s1 → s1.stack ≠ []) :
    Only (dataAction tab lx g a c) := by
  unfold dataAction
  rw [if_neg (by rw [hv]; omega), hh]
  obtain ⟨o, ho⟩ := ho
  refine Only.bind (only_on hs ha) fun g1 h1 => Only.bind ?_ fun o' _ => only_list.bind fun es _ => ?_
  · unfold getItem; rw [ho]; exact .ok _
  · obtain ⟨s0, s1, e0, e1, rfl⟩ := on_inv h1
    rw [hs] at e0
    cases e0
    refine only_on (s := s1) rfl ?_
    unfold Stk.addElementList
    split
    · rename_i h0; exact absurd h0 (hn s1 e1)
    · exact .ok _

theorem push_some {s s1 : Stk} {tag : Str} {text : Option Str} {attrib : Attrib} (h : s.addPush lx tag text attrib = .ok s1) : s1.stack ≠ [] := by
  unfold Stk.addPush at h
  split at h <;> (obtain ⟨c, -, h⟩ := bind_ok.1 h; cases h; simp)

theorem only_popPush {s : Stk} {f f' : Frame} {fs : List Frame} (hr : Rep s (f :: f' :: fs)) {tag : Str} {text : Option Str} {attrib : Attrib} : Only (s.addPopPush lx tag text attrib) := by
  obtain ⟨s1, h1, -⟩ := hr.pop
  exact (only_pop h1).bind fun _ _ => only_push

theorem popPush_some {s s1 : Stk} {tag : Str} {text : Option Str} {attrib : Attrib} (h : s.addPopPush lx tag text attrib = .ok s1) : s1.stack ≠ [] := by
  obtain ⟨_, -, h⟩ := bind_ok.1 h
  exact push_some h

/-- a line the grammar allows gives no other exception than lxml's -/
theorem step_only (hl : Lxml.Sane lx) {v : Str} {gs gs' : List Group} {cur cur' : Cur} {g : Globals} (hsim : Sim tab v gs cur g) {l : PLine}
    (hstep : step gs cur l = some (gs', cur')) (hk : LineKnown tab l) : Only (act tab lx g (raw l)) := by
  have key : LineAccepted tab lx cur l → Only (act tab lx g (raw l)) := fun ha => by
    obtain ⟨g', h, -⟩ := step_ok hl hsim hstep hk ha
    rw [h]; exact .ok _
  obtain ⟨hfirst, hstate, ⟨s, hs, hr⟩, hctx, hhdr⟩ := hsim
  cases l with
  | keyword h t => exact key trivial
  | top i =>
    rw [act_eq hstate]
    refine Only.bind ?_ fun _ _ => .ok _
    cases cur <;> simp only [step, reduceCtorEq] at hstep <;> simp only [raw, Cur.state, transition]
    · exact only_first hs i
    · rw [obsContextAction_item]
      exact only_on hs (only_popPush hr)
    · obtain ⟨s1, h1, r1⟩ := hr.pop
      obtain ⟨s2, h2, r2⟩ := r1.pop
      obtain ⟨s3, h3, r3⟩ := r2.pop
      have e1 := on_ok (g := { g with headerType := some none }) (f := Stk.pop) hs h1
      have e2 := on_ok (g := { g with headerType := some none, stack := some s1 }) (f := Stk.pop) rfl h2
      have e3 := on_ok (g := { g with headerType := some none, stack := some s2 }) (f := Stk.pop) rfl h3
      simp only [closeObsBlockOpenObsBlockAction, e1, e2, e3, bind, Except.bind]
      exact only_first rfl i
    · obtain ⟨s1, h1, r1⟩ := hr.pop
      have e1 := on_ok (f := Stk.pop) hs h1
      simp only [closeDataOpenObsBlockAction, e1, bind, Except.bind]
      exact only_first rfl i
  | second i =>
    rw [act_eq hstate]
    refine Only.bind ?_ fun _ _ => .ok _
    cases cur <;> simp only [step, reduceCtorEq] at hstep <;> simp only [raw, Cur.state, transition]
    rw [subObsContextAction_item]
    exact only_on hs (only_add hr)
  | data c =>
    rw [act_eq hstate]
    refine Only.bind ?_ fun _ _ => .ok _
    cases cur <;> simp only [step, reduceCtorEq] at hstep <;> simp only [raw, Cur.state, transition]
    · rename_i d it sb t h
      split at hstep
      · cases hstep
      obtain ⟨hh, hv, ho⟩ := hhdr t h rfl
      obtain ⟨s1, h1, r1⟩ := hr.pop
      obtain ⟨s2, h2, r2⟩ := r1.pop
      obtain ⟨s3, h3, r3⟩ := r2.addPush (lx := lx) (tag := c! "obsData") (text := none) (attrib := []) ⟨hl.2.2, by simp, by simp⟩
      have e1 := on_ok (f := Stk.pop) hs h1
      have e2 := on_ok (g := { g with stack := some s1 }) (f := Stk.pop) rfl h2
      have e3 := on_ok (g := { g with stack := some s2 }) (f := fun s => s.addPush lx (c! "obsData")) rfl h3
      simp only [firstObsDataAction, e1, e2, e3, bind, Except.bind]
      exact only_data (s := s3) (t := t) (h := h) rfl (by simpa using hh) (by simpa using hv) ho (by omega) only_push fun _ => push_some
    · rename_i cc t h rows last
      split at hstep
      · cases hstep
      obtain ⟨hh, hv, ho⟩ := hhdr t h rfl
      exact only_data (s := s) (t := t) (h := h) hs hh hv ho (by omega) (only_popPush hr) fun _ => popPush_some
    · rename_i t h
      split at hstep
      · cases hstep
      obtain ⟨hh, hv, ho⟩ := hhdr t h rfl
      exact only_data (s := s) (t := t) (h := h) hs hh hv ho (by omega) only_push fun _ => push_some
    · rename_i t h rows last
      split at hstep
      · cases hstep
      obtain ⟨hh, hv, ho⟩ := hhdr t h rfl
      exact only_data (s := s) (t := t) (h := h) hs hh hv ho (by omega) (only_popPush hr) fun _ => popPush_some

/-- a line the grammar allows but lxml does not -/
theorem step_refused (hl : Lxml.Sane lx) {v : Str} {gs gs' : List Group} {cur cur' : Cur} {g : Globals} (hsim : Sim tab v gs cur g) {l : PLine}
    (hstep : step gs cur l = some (gs', cur')) (hk : LineKnown tab l) (ha : ¬ LineAccepted tab lx cur l) : act tab lx g (raw l) = .error .valueError := by
  cases h : act tab lx g (raw l) with
  | ok g' => exact absurd (step_accepted hsim hstep h) ha
  | error e => rw [step_only hl hsim hstep hk e h]

/-- `#` or `!` alone -/
theorem lone_error (hl : Lxml.Sane lx) {v : Str} {gs : List Group} {cur : Cur} {g : Globals} (hsim : Sim tab v gs cur g) (ty : LineType) {mk : Item → PLine}
    (hm : (ty, mk) ∈ [(LineType.top, PLine.top), (.second, .second)]) (i : Item) :
    act tab lx g (ty, []) = .error (if (step gs cur (mk i)).isSome then .indexError else .nameError) := by
  obtain ⟨hfirst, hstate, ⟨s, hs, hr⟩, hctx, hhdr⟩ := hsim
  rw [act_eq hstate]
  have first : ∀ {g : Globals} {s : Stk} {f : Frame} {fs : List Frame}, g.stack = some s → Rep s (f :: fs) → firstObsBlockAction lx g [] = .error .indexError := by
    intro g s f fs hs hr
    obtain ⟨s1, h1, r1⟩ := hr.addPush (lx := lx) (tag := c! "obsBlock") (text := none) (attrib := []) ⟨hl.1, by simp, by simp⟩
    obtain ⟨s2, h2, r2⟩ := r1.addPush (lx := lx) (tag := c! "obsContext") (text := none) (attrib := []) ⟨hl.2.1, by simp, by simp⟩
    have e1 := on_ok (g := { g with headerType := some none }) (f := fun s => s.addPush lx (c! "obsBlock")) hs h1
    have e2 := on_ok (g := { g with headerType := some none, stack := some s1 }) (f := fun s => s.addPush lx (c! "obsContext")) rfl h2
    simp only [firstObsBlockAction, e1, bind, Except.bind, e2, obsContextAction]
  simp only [List.mem_cons, List.not_mem_nil, or_false, Prod.mk.injEq] at hm
  rcases hm with ⟨rfl, rfl⟩ | ⟨rfl, rfl⟩
  · cases cur <;> simp only [Cur.state, transition, step, Option.isSome_some, Option.isSome_none, if_true, Bool.false_eq_true, if_false, errorAction]
    · rw [first hs hr]; rfl
    · rfl
    · rfl
    · obtain ⟨s1, h1, r1⟩ := hr.pop
      obtain ⟨s2, h2, r2⟩ := r1.pop
      obtain ⟨s3, h3, r3⟩ := r2.pop
      have e1 := on_ok (g := { g with headerType := some none }) (f := Stk.pop) hs h1
      have e2 := on_ok (g := { g with headerType := some none, stack := some s1 }) (f := Stk.pop) rfl h2
      have e3 := on_ok (g := { g with headerType := some none, stack := some s2 }) (f := Stk.pop) rfl h3
      have e4 := first (g := { g with headerType := some none, stack := some s3 }) rfl r3
      simp only [closeObsBlockOpenObsBlockAction, e1, e2, e3, e4, bind, Except.bind]
    · rfl
    · obtain ⟨s1, h1, r1⟩ := hr.pop
      have e1 := on_ok (f := Stk.pop) hs h1
      have e4 := first (g := { g with stack := some s1 }) rfl r1
      simp only [closeDataOpenObsBlockAction, e1, e4, bind, Except.bind]
  · cases cur <;> simp only [Cur.state, transition, step, Option.isSome_some, Option.isSome_none, if_true, Bool.false_eq_true, if_false, errorAction] <;> rfl


/-! ### lines -/

theorem parse_error (hw : Tab.WF tab) {text : Str} {e : PyErr} :
    parsePSVLine tab text = .error e ↔ e = .runtimeError ∧ ∃ h, NamesLine text h ∧ ∀ t, ¬ (typesOf tab).Is h t := by
  constructor
  · intro h
    unfold parsePSVLine at h
    simp only at h
    split at h
    · cases h
    rename_i c rest ec
    split at h
    · cases h
    split at h
    · cases h
    rename_i hc1 hc2
    split at h
    · rename_i hall
      rw [getItem_ades hw] at h
      obtain ⟨r, h1, h2⟩ := typesOf_is hw (h := (splitChar '|' (strip text)).map strip)
      simp only [bind, Except.bind, h1] at h
      rcases h2 with ⟨t, h3, rfl, h4⟩ | ⟨h3, rfl⟩
      · have : t.isEmpty = false := by cases t <;> simp_all
        simp [this, pure, Except.pure] at h
      · simp only [raiseRT, Except.error.injEq] at h
        exact ⟨h.symm, _, ⟨by rw [ec]; simp, by rw [ec]; simp [hc1], by rw [ec]; simp [hc2], (isCells_iff _ _).2 rfl, (firstChars_all _).1 hall⟩, h3⟩
    · cases h
  · rintro ⟨rfl, hd, ⟨h1, h2, h3, h4, h5⟩, h6⟩
    rw [isCells_iff] at h4
    unfold parsePSVLine
    cases e : strip text with
    | nil => exact absurd e h1
    | cons c rest =>
      rw [e] at h2 h3
      simp at h2 h3
      simp only
      rw [if_neg h2, if_neg h3, ← e, ← h4, if_pos ((firstChars_all _).2 h5), getItem_ades hw]
      obtain ⟨r, h7, h8⟩ := typesOf_is hw (h := hd)
      rcases h8 with ⟨t', h9, rfl, h10⟩ | ⟨h9, rfl⟩
      · exact absurd h9 (h6 t')
      · simp [h7, bind, Except.bind, raiseRT]

theorem splitWs1_nil {s : Str} (hlast : ∀ c ∈ s.getLast?, isSpace c = false) (h : splitWs1 s = []) : s = [] := by
  cases hl : lstrip s with
  | nil =>
    cases hg : s.getLast? with
    | none => exact List.getLast?_eq_none_iff.1 hg
    | some c =>
      have hc := hlast c (by simp [hg])
      have key : ∀ l : Str, l.dropWhile isSpace = [] → ∀ x ∈ l, isSpace x = true := by
        intro l
        induction l with
        | nil => simp
        | cons a l ih =>
          intro h x hx
          rw [List.dropWhile_cons] at h
          split at h
          · rename_i ha
            rcases List.mem_cons.1 hx with rfl | hx
            · exact ha
            · exact ih h x hx
          · cases h
      rw [key s hl c (List.mem_of_getLast? hg)] at hc
      cases hc
  | cons c t =>
    unfold splitWs1 at h
    simp only [hl, List.isEmpty_cons, Bool.false_eq_true, if_false] at h
    split at h <;> cases h

theorem lone_parse {text : Str} {ty : LineType} {mk : Item → PLine} :
    (parsePSVLine tab text = .ok (some (ty, [])) ∧ (ty, mk) ∈ [(LineType.top, PLine.top), (.second, .second)]) ↔
      (strip text, ty, mk) ∈ [(['#'], LineType.top, PLine.top), (['!'], .second, .second)] := by
  constructor
  · rintro ⟨h, hm⟩
    unfold parsePSVLine at h
    simp only at h
    split at h
    · cases h
    rename_i c rest e
    have hlast : ∀ x ∈ rest.getLast?, isSpace x = false := by
      intro x hx
      refine (strip_ends text).2 x ?_
      rw [e, List.getLast?_cons]
      cases hr : rest.getLast? with
      | none => rw [hr] at hx; simp at hx
      | some y => rw [hr] at hx; simpa using hx
    simp only [List.mem_cons, List.not_mem_nil, or_false, Prod.mk.injEq] at hm ⊢
    split at h
    · rename_i hc; subst hc
      simp only [Except.ok.injEq, Option.some.injEq, Prod.mk.injEq] at h
      obtain ⟨rfl, h⟩ := h
      have := splitWs1_nil hlast h
      subst this
      left
      exact ⟨e, rfl, by simpa using hm⟩
    split at h
    · rename_i hc; subst hc
      simp only [Except.ok.injEq, Option.some.injEq, Prod.mk.injEq] at h
      obtain ⟨rfl, h⟩ := h
      have := splitWs1_nil hlast h
      subst this
      right
      exact ⟨e, rfl, by simpa using hm⟩
    exfalso
    have : ty = .top ∨ ty = .second := by rcases hm with h | h <;> simp [h.1]
    split at h
    · obtain ⟨_, -, h⟩ := bind_ok.1 h
      obtain ⟨t, -, h⟩ := bind_ok.1 h
      cases t with
      | none => simp [raiseRT] at h
      | some t =>
        simp only at h
        split at h
        · simp [raiseRT] at h
        · simp [pure, Except.pure] at h
    · simp only [Except.ok.injEq, Option.some.injEq, Prod.mk.injEq] at h
      rw [← h.1] at this
      simp at this
  · intro h
    simp only [List.mem_cons, List.not_mem_nil, or_false, Prod.mk.injEq] at h
    rcases h with ⟨h, rfl, rfl⟩ | ⟨h, rfl, rfl⟩
    · exact ⟨by simp [parsePSVLine, h]; rfl, by simp⟩
    · exact ⟨by simp [parsePSVLine, h]; rfl, by simp⟩

/-- the exception of a wrong line at position `cur` -/
def BadAt (tab : Tab) (lx : Lxml) (gs : List Group) (cur : Cur) (line : Str) (e : PyErr) : Prop :=
  (∃ h, NamesLine line h ∧ (∀ t, ¬ (typesOf tab).Is h t) ∧ e = .systemExit) ∨
  (∃ ty, ∃ mk : Item → PLine, (strip line, ty, mk) ∈ [(['#'], LineType.top, PLine.top), (['!'], .second, .second)] ∧ e = if (step gs cur (mk ⟨[], none⟩)).isSome then .indexError else .nameError) ∨
  (∃ l, LineIs (typesOf tab) line l ∧ step gs cur l = none ∧ e = .nameError) ∨
  (∃ l p, LineIs (typesOf tab) line l ∧ step gs cur l = some p ∧ ¬ LineAccepted tab lx cur l ∧ e = .valueError)

/-- `readLines` turns RuntimeError into the end of the process -/
def exit : PyErr → PyErr
  | .runtimeError => .systemExit
  | e => e

theorem readLines_step {g : Globals} {l : Str} {ls : List Str} :
    readLines tab lx g (ended (l :: ls)) = match parsePSV tab lx g l with
      | .ok g1 => readLines tab lx g1 (ended ls)
      | .error e => .error (exit e) := by
  simp only [ended, List.map_cons, readLines, List.dropLast_concat]
  cases parsePSV tab lx g l with
  | ok g1 => rfl
  | error e => cases e <;> rfl

theorem bad_error (hw : Tab.WF tab) (hl : Lxml.Sane lx) {v : Str} {gs : List Group} {cur : Cur} {g : Globals} (hsim : Sim tab v gs cur g) {l : Str} {e : PyErr} (h : BadAt tab lx gs cur l e) :
    ∃ e0, parsePSV tab lx g l = .error e0 ∧ exit e0 = e := by
  rw [parsePSV_later hsim.first]
  rcases h with ⟨h, h1, h2, rfl⟩ | ⟨ty, mk, h1, rfl⟩ | ⟨p, h1, h2, rfl⟩ | ⟨p, q, h1, h2, h3, rfl⟩
  · rw [(parse_error hw).2 ⟨rfl, h, h1, h2⟩]
    exact ⟨_, rfl, rfl⟩
  · obtain ⟨h2, h3⟩ := (lone_parse (tab := tab)).2 h1
    rw [h2]
    refine ⟨_, lone_error hl hsim ty h3 ⟨[], none⟩, ?_⟩
    split <;> rfl
  · rw [parse_complete hw h1]
    exact ⟨_, step_none hl hsim h2, rfl⟩
  · rw [parse_complete hw h1]
    obtain ⟨q1, q2⟩ := q
    exact ⟨_, step_refused hl hsim h2 (lineIs_known hw h1) h3, rfl⟩

/-- a line that is not blank is entered, or wrong -/
theorem line_cases (hw : Tab.WF tab) (hl : Lxml.Sane lx) {v : Str} {gs : List Group} {cur : Cur} {g : Globals} (hsim : Sim tab v gs cur g) {l : Str} (hb : strip l ≠ []) :
    (∃ pl g1 gs1 cur1, LineIs (typesOf tab) l pl ∧ step gs cur pl = some (gs1, cur1) ∧ LineAccepted tab lx cur pl ∧ parsePSV tab lx g l = .ok g1 ∧ Sim tab v gs1 cur1 g1) ∨
      ∃ e, BadAt tab lx gs cur l e := by
  cases hp : parsePSVLine tab l with
  | error e =>
    obtain ⟨-, h, h1, h2⟩ := (parse_error hw).1 hp
    exact .inr ⟨_, .inl ⟨h, h1, h2, rfl⟩⟩
  | ok p =>
    cases p with
    | none => exact absurd (parse_none hp) hb
    | some p =>
      obtain ⟨-, h5⟩ := parse_sound hw hp
      rcases h5 with h5 | ⟨pl, rfl, h5⟩
      · obtain ⟨ty, f⟩ := p
        obtain ⟨h6, h7⟩ := h5
        simp only at h6 h7
        subst h6
        rcases h7 with rfl | rfl
        · exact .inr ⟨_, .inr (.inl ⟨_, _, (lone_parse (tab := tab)).1 ⟨hp, List.mem_cons_self⟩, rfl⟩)⟩
        · exact .inr ⟨_, .inr (.inl ⟨_, _, (lone_parse (tab := tab)).1 ⟨hp, List.mem_cons_of_mem _ List.mem_cons_self⟩, rfl⟩)⟩
      · cases hst : step gs cur pl with
        | none => exact .inr ⟨_, .inr (.inr (.inl ⟨pl, h5, hst, rfl⟩))⟩
        | some q =>
          by_cases ha : LineAccepted tab lx cur pl
          · obtain ⟨q1, q2⟩ := q
            obtain ⟨g1, h6, h7⟩ := step_ok hl hsim hst (lineIs_known hw h5) ha
            exact .inl ⟨pl, g1, q1, q2, h5, hst, ha, by rw [parsePSV_later hsim.first, hp]; exact h6, h7⟩
          · exact .inr ⟨_, .inr (.inr (.inr ⟨pl, q, h5, hst, ha, rfl⟩))⟩

theorem read_error (hw : Tab.WF tab) (hl : Lxml.Sane lx) {v : Str} {e : PyErr} : ∀ (lines : List Str) {gs : List Group} {cur : Cur} {g : Globals}, Sim tab v gs cur g →
    (readLines tab lx g (ended lines) = .error e ↔ ∃ good bad rest pls gs' cur', nonBlank lines = good ++ bad :: rest ∧ Each (LineIs (typesOf tab)) good pls ∧
      steps gs cur pls = some (gs', cur') ∧ RunAccepted tab lx gs cur pls ∧ BadAt tab lx gs' cur' bad e)
  | [], gs, cur, g, hsim => by
    simp [ended, readLines, nonBlank]
  | l :: ls, gs, cur, g, hsim => by
    by_cases hb : strip l = []
    · rw [nonBlank_blank hb, readLines_step, parsePSV_later hsim.first, parse_blank hb]
      exact read_error hw hl ls hsim
    rw [nonBlank_cons hb, readLines_step]
    rcases line_cases hw hl hsim hb with ⟨pl, g1, gs1, cur1, h1, h2, h3, h4, h5⟩ | ⟨e', he'⟩
    · rw [h4]
      simp only
      rw [read_error hw hl ls h5]
      constructor
      · rintro ⟨good, bad, rest, pls, gs', cur', k1, k2, k3, k4, k5⟩
        refine ⟨l :: good, bad, rest, pl :: pls, gs', cur', by rw [k1]; rfl, .cons h1 k2, by rw [steps, h2]; exact k3, ⟨h3, ?_⟩, k5⟩
        intro gs2 cur2 e2
        rw [h2] at e2
        cases e2
        exact k4
      · rintro ⟨good, bad, rest, pls, gs', cur', k1, k2, k3, k4, k5⟩
        cases k2 with
        | nil =>
          simp only [List.nil_append, List.cons.injEq] at k1
          obtain ⟨rfl, rfl⟩ := k1
          simp [steps] at k3
          obtain ⟨rfl, rfl⟩ := k3
          obtain ⟨e0, k6, -⟩ := bad_error hw hl hsim k5
          rw [h4] at k6
          cases k6
        | cons k6 k7 =>
          simp only [List.cons_append, List.cons.injEq] at k1
          obtain ⟨rfl, k1⟩ := k1
          rename_i pl2 _ _
          have hpl : pl = pl2 := by
            refine raw_inj ?_
            have := (parse_complete hw h1).symm.trans (parse_complete hw k6)
            simpa using this
          subst hpl
          rw [steps, h2] at k3
          exact ⟨_, _, _, _, gs', cur', k1, k7, k3, k4.2 _ _ h2, k5⟩
    · obtain ⟨e0, k1, k2⟩ := bad_error hw hl hsim he'
      rw [k1]
      simp only [k2, Except.error.injEq]
      constructor
      · rintro rfl
        exact ⟨[], l, nonBlank ls, [], gs, cur, rfl, .nil, rfl, trivial, he'⟩
      · rintro ⟨good, bad, rest, pls, gs', cur', m1, m2, m3, m4, m5⟩
        cases m2 with
        | nil =>
          simp only [List.nil_append, List.cons.injEq] at m1
          obtain ⟨rfl, rfl⟩ := m1
          simp [steps] at m3
          obtain ⟨rfl, rfl⟩ := m3
          obtain ⟨e1, n1, n2⟩ := bad_error hw hl hsim m5
          rw [k1] at n1
          cases n1
          rw [← n2, k2]
        | cons k6 k7 =>
          simp only [List.cons_append, List.cons.injEq] at m1
          obtain ⟨rfl, m1⟩ := m1
          rw [steps, Option.bind_eq_some_iff] at m3
          obtain ⟨⟨a, b⟩, m3, -⟩ := m3
          obtain ⟨g1, n1, -⟩ := step_ok hl hsim m3 (lineIs_known hw k6) m4.1
          rw [parsePSV_later hsim.first, parse_complete hw k6] at k1
          have : act tab lx g (raw _) = .error e0 := k1
          rw [n1] at this
          cases this

/-- the first line that is not blank -/
theorem first_error (hw : Tab.WF tab) {g : Globals} (hf : g.firstLine = true) {text : Str} (hb : strip text ≠ []) {e : PyErr} :
    (∃ e0, parsePSV tab lx g text = .error e0 ∧ exit e0 = e) ↔ ((∀ v, ¬ VersionIs text v) ∧ e = .systemExit) ∨
      ∃ v, VersionIs text v ∧ ¬ lx.Accepts (c! "ades") none [(c! "version", v)] ∧ e = .valueError := by
  by_cases hv : ∃ v, VersionIs text v
  · obtain ⟨v, hv⟩ := hv
    have one : ∀ v', VersionIs text v' → v' = v := by
      rintro v' hv'
      obtain ⟨a, b, h1, h2, h3, h4, h5⟩ := hv
      obtain ⟨a', b', h1', h2', h3', h4', h5'⟩ := hv'
      have := splitChar_two.2 ⟨h1, h2, h3⟩
      rw [splitChar_two.2 ⟨h1', h2', h3'⟩] at this
      simp at this
      rw [h5, h5', this.2]
    by_cases ha : lx.Accepts (c! "ades") none [(c! "version", v)]
    · obtain ⟨s, h1, -⟩ := Rep.init ha
      have := (parsePSV_first (tab := tab) (lx := lx) hf hb).2 ⟨v, s, hv, h1, rfl⟩
      rw [this]
      constructor
      · rintro ⟨e0, h, -⟩; cases h
      · rintro (⟨h, -⟩ | ⟨v', h, h', -⟩)
        · exact absurd hv (h v)
        · rw [one v' h] at h'; exact absurd ha h'
    · have e1 : parsePSV tab lx g text = .error .valueError := by
        obtain ⟨r, e⟩ := version_strip hv
        unfold parsePSV
        have : parsePSVLine tab text = .ok (some (.top, splitWs1 r)) := by simp [parsePSVLine, e]
        rw [this]
        simp only [bind, Except.bind, hf, if_true]
        obtain ⟨a, b, h1, h2, h3, h4, h5⟩ := hv
        unfold versionLine
        rw [splitChar_two.2 ⟨h1, h2, h3⟩]
        have h6 : (splitWs a).flatten = c! "#version" := by rw [splitWs_flatten]; exact h4
        simp only [h6, ne_eq, not_true, if_false]
        cases hi : Stk.init lx (c! "ades") none [(c! "version", (splitWs b).flatten)] with
        | ok s =>
          refine absurd (init_inv hi) ?_
          have : (splitWs b).flatten = v := by rw [h5, splitWs_flatten]
          rw [this]; exact ha
        | error e0 =>
          have : Only (Stk.init lx (c! "ades") none [(c! "version", (splitWs b).flatten)]) := only_new.bind fun _ _ => .ok _
          rw [this e0 hi]
          rfl
      rw [e1]
      constructor
      · rintro ⟨e0, h, h'⟩
        cases h
        exact .inr ⟨v, hv, ha, h'.symm⟩
      · rintro (⟨h, -⟩ | ⟨v', h, h', rfl⟩)
        · exact absurd hv (h v)
        · exact ⟨_, rfl, rfl⟩
  · have e1 : parsePSV tab lx g text = .error .runtimeError := by
      unfold parsePSV
      cases hp : parsePSVLine tab text with
      | error e => rw [((parse_error hw).1 hp).1]; rfl
      | ok p =>
        cases p with
        | none => exact absurd (parse_none hp) hb
        | some p =>
          simp only [bind, Except.bind, hf, if_true]
          cases hx : versionLine lx g text with
          | ok g' =>
            obtain ⟨v, -, h, -⟩ := versionLine_iff.1 hx
            exact absurd ⟨v, h⟩ hv
          | error e0 =>
            unfold versionLine at hx
            split at hx
            · rename_i a b hs
              split at hx
              · cases hx; rfl
              · rename_i h6
                exfalso
                obtain ⟨h1, h2, h3⟩ := splitChar_two.1 hs
                exact hv ⟨_, a, b, h1, h2, h3, by rw [← splitWs_flatten]; simpa using h6, rfl⟩
            · cases hx; rfl
    rw [e1]
    constructor
    · rintro ⟨e0, h, h'⟩
      cases h
      exact .inl ⟨fun v h => hv ⟨v, h⟩, h'.symm⟩
    · rintro (⟨-, rfl⟩ | ⟨v, h, -⟩)
      · exact ⟨_, rfl, rfl⟩
      · exact absurd ⟨v, h⟩ hv

/-! ### positions and groups -/

theorem start_groups : Cur.start.groups = [] := rfl

theorem continues_iff {pls : List PLine} {gs' : List Group} {cur' : Cur} (h : steps [] .start pls = some (gs', cur')) {p : PLine} {gs2 : List Group} :
    Continues (gs' ++ cur'.groups) p gs2 ↔ ∃ a b, step gs' cur' p = some (a, b) ∧ gs2 = a ++ b.groups := by
  obtain ⟨h1, h2⟩ := steps_lines pls h ⟨by simp [Cur.groups], by simp⟩
  simp only [start_groups, List.append_nil, List.flatMap_nil, List.nil_append] at h1
  constructor
  · rintro ⟨h3, h4⟩
    obtain ⟨g2, c2, h5, h6⟩ := steps_groups gs2 [] .start (.inl rfl) h3
    rw [h4, h1, steps_append, h] at h5
    simp only [Option.bind_some, steps] at h5
    cases hs : step gs' cur' p with
    | none => rw [hs] at h5; cases h5
    | some q =>
      rw [hs] at h5
      simp only [Option.bind_some, Option.some.injEq] at h5
      cases h5
      exact ⟨_, _, rfl, by simpa [start_groups] using h6.symm⟩
  · rintro ⟨a, b, h3, rfl⟩
    obtain ⟨h4, h5⟩ := step_lines h3 h2
    exact ⟨h5.document, h4⟩

theorem top_any {gs : List Group} {cur : Cur} {mk : Item → PLine} (hm : mk = .top ∨ mk = .second) (i j : Item) : (step gs cur (mk i)).isSome = (step gs cur (mk j)).isSome := by
  rcases hm with rfl | rfl <;> cases cur <;> rfl

theorem wrong_iff (hl : Lxml.Sane lx) {v : Str} (hv : lx.Accepts (c! "ades") none [(c! "version", v)]) {pls : List PLine} {gs' : List Group} {cur' : Cur}
    (h : steps [] .start pls = some (gs', cur')) (ha : ∀ g ∈ gs' ++ cur'.groups, GAcc tab lx g) {line : Str} {e : PyErr} :
    Wrong (typesOf tab) lx v (gs' ++ cur'.groups) line e ↔ BadAt tab lx gs' cur' line e := by
  have ci := fun {p : PLine} {gs2 : List Group} => continues_iff h (p := p) (gs2 := gs2)
  have acc : ∀ {p : PLine} {a : List Group} {b : Cur}, step gs' cur' p = some (a, b) → (Accepted lx (adesElem (typesOf tab).allowed v (a ++ b.groups)) ↔ LineAccepted tab lx cur' p) := by
    intro p a b hs
    have := accepted_ades (tab := tab) hl (v := v) (gs := a ++ b.groups)
    refine this.trans ?_
    rw [step_acc hs]
    exact ⟨fun x => x.2.2, fun x => ⟨hv, ha, x⟩⟩
  constructor
  · intro hw
    cases hw with
    | names h1 h2 => exact .inl ⟨_, h1, h2, rfl⟩
    | misplaced h1 h2 =>
      rename_i p
      refine .inr (.inr (.inl ⟨p, h1, ?_, rfl⟩))
      cases hs : step gs' cur' p with
      | none => rfl
      | some q => exact absurd (ci.2 ⟨_, _, hs, rfl⟩) (h2 _)
    | mark h1 h2 =>
      rename_i mk
      have hn : step gs' cur' (mk ⟨[], none⟩) = none := by
        cases hs : step gs' cur' (mk ⟨[], none⟩) with
        | none => rfl
        | some q => exact absurd (ci.2 ⟨_, _, hs, rfl⟩) (h2 _ _)
      simp only [List.mem_cons, List.not_mem_nil, or_false, Prod.mk.injEq] at h1
      rcases h1 with ⟨h1, rfl⟩ | ⟨h1, rfl⟩
      · exact .inr (.inl ⟨.top, .top, by simp [h1], by rw [hn]; rfl⟩)
      · exact .inr (.inl ⟨.second, .second, by simp [h1], by rw [hn]; rfl⟩)
    | blank h1 h2 =>
      rename_i mk i gs2
      obtain ⟨a, b, hs, -⟩ := ci.1 h2
      simp only [List.mem_cons, List.not_mem_nil, or_false, Prod.mk.injEq] at h1
      have hn : (step gs' cur' (mk ⟨[], none⟩)).isSome = true := by
        rw [top_any (by rcases h1 with h1 | h1 <;> simp [h1.2]) _ i, hs]; rfl
      rcases h1 with ⟨h1, rfl⟩ | ⟨h1, rfl⟩
      · exact .inr (.inl ⟨.top, .top, by simp [h1], by rw [hn]; rfl⟩)
      · exact .inr (.inl ⟨.second, .second, by simp [h1], by rw [hn]; rfl⟩)
    | refused h1 h2 h3 =>
      rename_i p gs2
      obtain ⟨a, b, hs, rfl⟩ := ci.1 h2
      exact .inr (.inr (.inr ⟨p, (a, b), h1, hs, fun x => h3 ((acc hs).2 x), rfl⟩))
  · rintro (⟨hd, h1, h2, rfl⟩ | ⟨ty, mk, h1, rfl⟩ | ⟨p, h1, h2, rfl⟩ | ⟨p, ⟨a, b⟩, h1, h2, h3, rfl⟩)
    · exact .names h1 h2
    · have hm : (strip line, mk) ∈ [(['#'], PLine.top), (['!'], PLine.second)] := by
        simp only [List.mem_cons, List.not_mem_nil, or_false, Prod.mk.injEq] at h1 ⊢
        rcases h1 with ⟨h1, -, rfl⟩ | ⟨h1, -, rfl⟩ <;> simp [h1]
      have hm2 : mk = .top ∨ mk = .second := by
        simp only [List.mem_cons, List.not_mem_nil, or_false, Prod.mk.injEq] at hm
        rcases hm with hm | hm <;> simp [hm.2]
      cases hs : step gs' cur' (mk ⟨[], none⟩) with
      | none =>
        refine .mark hm ?_
        intro i gs2 hc
        obtain ⟨a, b, hs2, -⟩ := ci.1 hc
        have := top_any (gs := gs') (cur := cur') hm2 i ⟨[], none⟩
        rw [hs, hs2] at this
        cases this
      | some q => exact .blank hm (ci.2 ⟨q.1, q.2, hs, rfl⟩)
    · refine .misplaced h1 ?_
      intro gs2 hc
      obtain ⟨a, b, hs, -⟩ := ci.1 hc
      rw [h2] at hs
      cases hs
    · exact .refused h1 (ci.2 ⟨a, b, h2, rfl⟩) fun x => h3 ((acc h2).1 x)

end
end Verif.Psv
