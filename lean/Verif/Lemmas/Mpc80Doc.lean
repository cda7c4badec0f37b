import Verif.Spec.Mpc80Doc
import Verif.Spec.Psv
import Verif.Lemmas.Mpc80Lines
import Verif.Lemmas.ElementStack
/-
  The document made by `convertit`: invariants of its state.
-/
namespace Verif.Mpc80
open Verif Verif.Xml Verif.Spec.Mpc80

/-! ### running -/

/-- run in a state: the state after, and the exception -/
def runC {α : Type} (x : C α) (s : CState) : CState × Option PyErr :=
  match x s with
  | .ok _ s => (s, none)
  | .error e s => (s, some e)

theorem cb_eq (lx : Lxml) (al : Allowed) (s : CState) (item : Item) (n : Nat) :
    ((convertCallback lx al s item n).1, (convertCallback lx al s item n).2.2) = runC (convertit lx al item) s := by
  unfold convertCallback runC
  cases convertit lx al item s <;> rfl

/-- one item: RuntimeErrors are caught -/
def step (lx : Lxml) (al : Allowed) (s : CState) (item : Item) : CState × Option PyErr :=
  match runC (convertit lx al item) s with
  | (s, e) => (s, if e = some .runtimeError then none else e)

/-- the items one after the other -/
def steps (lx : Lxml) (al : Allowed) : CState → List Item → CState × Option PyErr
  | s, [] => (s, none)
  | s, i :: is =>
    match step lx al s i with
    | (s, none) => steps lx al s is
    | (s, some e) => (s, some e)

theorem runCalls_eq (lx : Lxml) (al : Allowed) : ∀ (l : List (Item × Nat)) (s : CState), runCalls (convertCallback lx al) s l = steps lx al s (l.map (·.1))
  | [], s => rfl
  | (item, n) :: l, s => by
    have e := cb_eq lx al s item n
    have ih := runCalls_eq lx al l
    simp only [runCalls, List.map_cons, steps, step]
    cases hr : runC (convertit lx al item) s with
    | mk s' e' =>
      rw [hr] at e
      injection e with e1 e2
      rw [e1, e2]
      cases e' with
      | none => simp [ih]
      | some e' => by_cases h : e' = .runtimeError <;> simp [h, ih]

theorem steps_append (lx : Lxml) (al : Allowed) : ∀ (a b : List Item) (s : CState), steps lx al s (a ++ b) =
    match steps lx al s a with
    | (s, none) => steps lx al s b
    | (s, some e) => (s, some e)
  | [], b, s => rfl
  | i :: a, b, s => by
    simp only [List.cons_append, steps]
    rcases step lx al s i with ⟨s', _ | e⟩
    · exact steps_append lx al a b s'
    · rfl

/-! ### data lines -/

/-- elements `es` have been put into the open element `F`; the last of them is still open -/
inductive Open (s : CState) (F : Frame) (rest : List Frame) : List Elem → Prop
  | start : s.firstElement = true → Rep s.stack (F :: rest) → Open s F rest []
  | more {es : List Elem} {g : Frame} : s.firstElement = false → Rep s.stack (g :: F.add es :: rest) → Open s F rest (es ++ [g.close])

/-- what stays the same while data lines are converted -/
structure Same (s s' : CState) : Prop where
  fob : s'.firstObsBlock = s.firstObsBlock
  inb : s'.inObsBlock = s.inObsBlock
  com : s'.commentList = s.commentList
  ctx : s'.obsContextList = s.obsContextList
  seen : s'.obsContextSeen = s.obsContextSeen

theorem Same.refl (s : CState) : Same s s := ⟨rfl, rfl, rfl, rfl, rfl⟩
theorem Same.trans {a b c : CState} (h : Same a b) (h' : Same b c) : Same a c :=
  ⟨h'.fob.trans h.fob, h'.inb.trans h.inb, h'.com.trans h.com, h'.ctx.trans h.ctx, h'.seen.trans h.seen⟩

/-- a data item that is not skipped: its element's name, and what comes after opening it -/
def work (al : Allowed) (lx : Lxml) (item : Item) (code : Str) (isRadar : Bool) : Py (List Cell) :=
  if isRadar then makeElementList lx (itemElements al.radar item)
  else do
    let item ← opticalItem item code
    makeElementList lx (itemElements al.optical item)

/-- what `convertit` does with an item that is not a header -/
inductive Kind (item : Item) : Type
  /-- fails before anything is done -/
  | broken (e : PyErr)
  /-- nothing is done -/
  | skip
  | elem (code : Str) (isRadar : Bool)

def kindOfItem (item : Item) : Option (Kind item) :=
  match item.str (c! "code") with
  | .error e => some (.broken e)
  | .ok code =>
    match codeType code with
    | some .header => none
    | some .rover =>
      match item.str (c! "pos3") with
      | .error e => some (.broken e)
      | .ok p => if strip p = [] then some .skip else some (.elem code false)
    | some .radar => some (.elem code true)
    | some _ => some (.elem code false)
    | none => some .skip

def tagOfKind (isRadar : Bool) : Str := if isRadar then c! "radar" else c! "optical"

theorem flush_idle {lx : Lxml} {s : CState} (h : s.inObsBlock = false) : flushContext lx s = .ok () s := by
  simp [flushContext, bind, EStateM.bind, get, getThe, MonadStateOf.get, EStateM.get, h, pure, EStateM.pure]

/-- the part of `convertit` after the flush -/
def afterFlush (lx : Lxml) (al : Allowed) (item : Item) : Kind item → C Unit
  | .broken e => lift (.error e)
  | .skip => pure ()
  | .elem code isRadar => do
    openElement lx (tagOfKind isRadar)
    let cells ← lift (work al lx item code isRadar)
    onStack fun t => t.addElementList cells

theorem openElement_run {lx : Lxml} {tag : Str} {s : CState} (ht : lx.Accepts tag none []) {F : Frame} {rest : List Frame} {es : List Elem} (h : Open s F rest es) :
    ∃ s', openElement lx tag s = .ok () s' ∧ s'.firstElement = false ∧ Rep s'.stack (⟨tag, none, [], []⟩ :: F.add es :: rest) ∧ Same s s' := by
  cases h with
  | start h1 h2 =>
    obtain ⟨t, k1, k2⟩ := h2.addPush ht
    refine ⟨{ s with stack := t, firstElement := false }, ?_, rfl, ?_, ⟨rfl, rfl, rfl, rfl, rfl⟩⟩
    · simp [openElement, bind, EStateM.bind, get, getThe, MonadStateOf.get, EStateM.get, h1, onStack, k1, modify, modifyGet, MonadStateOf.modifyGet, EStateM.modifyGet]
    · simpa [normText, Frame.add] using k2
  | @more es g h1 h2 =>
    obtain ⟨t, k1, k2⟩ := h2.addPopPush ht
    refine ⟨{ s with stack := t }, ?_, h1, ?_, ⟨rfl, rfl, rfl, rfl, rfl⟩⟩
    · simp [openElement, bind, EStateM.bind, get, getThe, MonadStateOf.get, EStateM.get, h1, onStack, k1]
    · simpa [normText, Frame.add] using k2

theorem cells_nokids {lx : Lxml} : ∀ {l : List (Str × Str)} {cs : List Cell}, makeElementList lx l = .ok cs → ∀ c ∈ cs, c.kids = [] := by
  intro l cs h
  rw [makeElementList_ok (makeElementList_inv h)] at h
  injection h with h
  subst h
  intro c hc
  obtain ⟨i, _, rfl⟩ := List.mem_map.1 hc
  rfl

theorem work_nokids {al : Allowed} {lx : Lxml} {item : Item} {code : Str} {b : Bool} {cs : List Cell} (h : work al lx item code b = .ok cs) : ∀ c ∈ cs, c.kids = [] := by
  unfold work at h
  split at h
  · exact cells_nokids h
  · obtain ⟨i, _, h⟩ := bindOk.1 h
    exact cells_nokids h

/-- the element made -/
def madeElem (isRadar : Bool) (cs : List Cell) : Elem := .mk (tagOfKind isRadar) none [] (cs.map fun c => .mk c.tag c.text c.attrib [])

/-- an element with its values -/
theorem elem_run {lx : Lxml} {al : Allowed} {item : Item} {code : Str} {b : Bool} {cs : List Cell} (ht : lx.Accepts (tagOfKind b) none [])
    (hw : work al lx item code b = .ok cs) {s : CState} {F : Frame} {rest : List Frame} {es : List Elem} (h : Open s F rest es) :
    ∃ s', afterFlush lx al item (.elem code b) s = .ok () s' ∧ Open s' F rest (es ++ [madeElem b cs]) ∧ Same s s' := by
  obtain ⟨s1, h1, h2, h3, h4⟩ := openElement_run ht h
  obtain ⟨t, h5, h6⟩ := h3.addElementList (work_nokids hw)
  refine ⟨{ s1 with stack := t }, ?_, ?_, h4.trans ⟨rfl, rfl, rfl, rfl, rfl⟩⟩
  · simp [afterFlush, bind, EStateM.bind, h1, lift, hw, onStack, h5]
  · have := Open.more (s := { s1 with stack := t }) (es := es) (F := F) (rest := rest) h2 h6
    simpa [Frame.close, Frame.add, madeElem] using this

/-- an element without values, because of an exception -/
theorem elem_fail {lx : Lxml} {al : Allowed} {item : Item} {code : Str} {b : Bool} {e : PyErr} (ht : lx.Accepts (tagOfKind b) none [])
    (hw : work al lx item code b = .error e) {s : CState} {F : Frame} {rest : List Frame} {es : List Elem} (h : Open s F rest es) :
    ∃ s', afterFlush lx al item (.elem code b) s = .error e s' ∧ Open s' F rest (es ++ [madeElem b []]) ∧ Same s s' := by
  obtain ⟨s1, h1, h2, h3, h4⟩ := openElement_run ht h
  refine ⟨s1, ?_, ?_, h4⟩
  · simp [afterFlush, bind, EStateM.bind, h1, lift, hw]
  · have := Open.more (s := s1) (es := es) (F := F) (rest := rest) h2 h3
    simpa [Frame.close, madeElem] using this

theorem kind_run {lx : Lxml} {al : Allowed} {item : Item} {k : Kind item} (hk : kindOfItem item = some k) {s : CState} (hb : ∀ e, item.str (c! "code") ≠ .error e) :
    runC (convertit lx al item) s = match flushContext lx s with
      | .error e s' => (s', some e)
      | .ok _ s' => runC (afterFlush lx al item k) s' := by
  unfold kindOfItem at hk
  unfold convertit
  cases hc : item.str (c! "code") with
  | error e => exact absurd hc (hb e)
  | ok code =>
    rw [hc] at hk
    simp only at hk
    have hl : ∀ (f : Str → C Bool), (lift (.ok code : Py Str) >>= f) s = f code s := fun f => rfl
    simp only [runC, hl]
    cases ht : codeType code with
    | none =>
      simp only [ht] at hk ⊢
      injection hk with hk
      subst hk
      simp only [bind, EStateM.bind]
      cases flushContext lx s <;> rfl
    | some ty =>
      cases ty with
      | header => simp [ht] at hk
      | rover =>
        simp only [ht] at hk ⊢
        simp only [bind, EStateM.bind]
        cases flushContext lx s with
        | error e s' => rfl
        | ok u s' =>
          simp only
          cases hp : item.str (c! "pos3") with
          | error e => rw [hp] at hk; injection hk with hk; subst hk; rfl
          | ok p =>
            rw [hp] at hk
            simp only [lift] at hk ⊢
            by_cases hs : strip p = []
            · simp only [hs, if_true] at hk ⊢; injection hk with hk; subst hk; rfl
            · simp only [hs, if_false] at hk ⊢; injection hk with hk; subst hk
              simp only [convertOptical, afterFlush, tagOfKind, work, bind, EStateM.bind, lift, Bool.false_eq_true, if_false, Except.bind]
              cases openElement lx (c! "optical") s' with
              | error e s'' => rfl
              | ok u s'' =>
                simp only
                cases opticalItem item code with
                | error e => rfl
                | ok it =>
                  simp only
                  cases makeElementList lx (itemElements al.optical it) with
                  | error e => rfl
                  | ok cs => simp only; cases onStack (fun t => t.addElementList cs) s'' <;> rfl
      | radar =>
        simp only [ht] at hk ⊢
        injection hk with hk
        subst hk
        simp only [bind, EStateM.bind]
        cases flushContext lx s with
        | error e s' => rfl
        | ok u s' =>
          simp only [convertRadar, afterFlush, tagOfKind, work, bind, EStateM.bind, lift, if_true]
          cases openElement lx (c! "radar") s' with
          | error e s'' => rfl
          | ok u s'' =>
            simp only
            cases makeElementList lx (itemElements al.radar item) with
            | error e => rfl
            | ok cs => simp only; cases onStack (fun t => t.addElementList cs) s'' <;> rfl
      | optical | offset | occultation | satellite =>
        simp only [ht] at hk ⊢
        injection hk with hk
        subst hk
        simp only [bind, EStateM.bind]
        cases flushContext lx s with
        | error e s' => rfl
        | ok u s' =>
          simp only [convertOptical, afterFlush, tagOfKind, work, bind, EStateM.bind, lift, Bool.false_eq_true, if_false, Except.bind]
          cases openElement lx (c! "optical") s' with
          | error e s'' => rfl
          | ok u s'' =>
            simp only
            cases opticalItem item code with
            | error e => rfl
            | ok it =>
              simp only
              cases makeElementList lx (itemElements al.optical it) with
              | error e => rfl
              | ok cs => simp only; cases onStack (fun t => t.addElementList cs) s'' <;> rfl

/-! ### an item by itself -/

/-- the document made of these items -/
def convertItems (lx : Lxml) (al : Allowed) (items : List Item) : Py Elem := do
  let s ← convertitPreamble lx
  match steps lx al s items with
  | (_, some e) => .error e
  | (s, none) => do
    let (t, _) ← s.stack.takeTreeAndClear
    pure t

theorem preamble_ok {lx : Lxml} {s : CState} (h : convertitPreamble lx = .ok s) :
    lx.Accepts (c! "ades") none [(c! "version", c! "2022")] ∧ Open s ⟨c! "ades", none, [(c! "version", c! "2022")], []⟩ [] [] ∧ s.firstObsBlock = true ∧ s.inObsBlock = false := by
  unfold convertitPreamble at h
  obtain ⟨t, h1, h2⟩ := bindOk.1 h
  injection h2 with h2
  subst h2
  have ha : lx.Accepts (c! "ades") none [(c! "version", c! "2022")] := by
    unfold Stk.init at h1
    obtain ⟨c, h3, _⟩ := bindOk.1 h1
    exact (newElement_inv h3).1
  obtain ⟨t', k1, k2⟩ := Rep.init ha
  rw [h1] at k1
  injection k1 with k1
  subst k1
  exact ⟨ha, .start rfl k2, rfl, rfl⟩

theorem newElement_err {lx : Lxml} {tag : Str} {text : Option Str} {attrib : Attrib} (h : ¬ lx.Accepts tag text attrib) : newElement lx tag text attrib = .error .valueError := by
  cases hn : newElement lx tag text attrib with
  | ok c => exact absurd (newElement_inv hn).1 h
  | error e =>
    unfold newElement at hn
    split at hn
    · split at hn
      · simp at hn
      · split at hn
        · simp at hn
        · split at hn
          · simp at hn
          · exact hn.symm
    · exact hn.symm

theorem openElement_fail {lx : Lxml} {tag : Str} {s : CState} (ht : ¬ lx.Accepts tag none []) {F : Frame} {rest : List Frame} (h : Open s F rest []) :
    ∃ s', openElement lx tag s = .error .valueError s' := by
  generalize hes : ([] : List Elem) = es at h
  cases h with
  | start h1 h2 =>
    have hl := h2.length
    cases hs : s.stack with | mk h st =>
    rw [hs] at hl
    rcases st with _ | ⟨a, r⟩
    · simp at hl
    · refine ⟨s, ?_⟩
      simp [openElement, bind, EStateM.bind, get, getThe, MonadStateOf.get, EStateM.get, h1, onStack, hs, Stk.addPush, newElement_err ht, Except.bind]
  | more => simp at hes

theorem str_err {i : Item} {k : Str} {e : PyErr} (h : i.str k = .error e) : e ≠ .runtimeError := by
  unfold Item.str at h
  split at h <;> simp at h <;> subst h <;> simp

/-- the effect of an item whose conversion alone gives the elements `new` -/
theorem data_step {lx : Lxml} {al : Allowed} {item : Item} {new : List Elem} (h : convertItems lx al [item] = .ok (adesDoc new)) (hd : item.get? (c! "code") ≠ some (.str (c! "0")))
    {s : CState} {F : Frame} {rest : List Frame} {es : List Elem} (hi : s.inObsBlock = false) (ho : Open s F rest es) :
    ∃ s', step lx al s item = (s', none) ∧ Open s' F rest (es ++ new) ∧ Same s s' := by
  unfold convertItems at h
  obtain ⟨s0, h0, h⟩ := bindOk.1 h
  obtain ⟨ha, o0, _, i0⟩ := preamble_ok h0
  cases hc : item.str (c! "code") with
  | error e =>
    have : step lx al s0 item = (s0, some e) := by
      have hne := str_err hc
      simp [step, runC, convertit, hc, lift, bind, EStateM.bind, hne]
    simp [steps, this] at h
  | ok code =>
    have hb : ∀ e, item.str (c! "code") ≠ .error e := by simp [hc]
    cases hk : kindOfItem item with
    | none =>
      exfalso
      unfold kindOfItem at hk
      rw [hc] at hk
      simp only at hk
      have : codeType code = some .header := by
        split at hk
        · assumption
        · split at hk
          · simp at hk
          · split at hk <;> simp at hk
        all_goals simp at hk
      apply hd
      rw [str_ok.1 hc]
      unfold codeType at this
      split at this
      · rename_i c
        by_cases h0 : c = '0'
        · rw [h0]
        · simp only [h0, if_false] at this
          repeat' split at this
          all_goals simp at this
      · simp at this
    | some k =>
      have r0 := kind_run (lx := lx) (al := al) hk (s := s0) hb
      have r1 := kind_run (lx := lx) (al := al) hk (s := s) hb
      rw [flush_idle i0] at r0
      rw [flush_idle hi] at r1
      simp only at r0 r1
      have take : ∀ {s1 : CState} {es1 : List Elem}, Open s1 ⟨c! "ades", none, [(c! "version", c! "2022")], []⟩ [] es1 →
          (do let (t, _) ← s1.stack.takeTreeAndClear; pure t : Py Elem) = .ok (adesDoc es1) := by
        intro s1 es1 ho
        cases ho with
        | start _ hr => rw [hr.take]; rfl
        | more _ hr => rw [hr.take]; simp [closeAll, Frame.close, Frame.add, adesDoc, bind, Except.bind, pure, Except.pure]
      have conv : ∀ {a b : List Elem}, (Except.ok (adesDoc a) : Py Elem) = .ok (adesDoc b) → a = b := by
        intro a b h; simpa [adesDoc] using h
      simp only [steps, step, r0] at h
      simp only [step, r1]
      cases k with
      | broken e =>
        simp only [afterFlush, runC, lift] at h ⊢
        by_cases he : e = .runtimeError
        · subst he
          simp only [if_true] at h ⊢
          rw [take o0] at h
          obtain rfl := conv h
          exact ⟨s, rfl, by simpa using ho, .refl s⟩
        · simp [he] at h
      | skip =>
        simp only [afterFlush, runC, pure, EStateM.pure, reduceCtorEq, if_false] at h ⊢
        have e := take o0
        simp only [pure, Except.pure] at e h
        rw [e] at h
        obtain rfl := conv h
        exact ⟨s, rfl, by simpa using ho, .refl s⟩
      | elem code b =>
        by_cases hacc : lx.Accepts (tagOfKind b) none []
        · cases hw : work al lx item code b with
          | ok cs =>
            obtain ⟨s1, k1, k2, k3⟩ := elem_run hacc hw o0
            obtain ⟨s2, l1, l2, l3⟩ := elem_run hacc hw ho
            simp only [runC, k1, l1, reduceCtorEq, if_false] at h ⊢
            rw [take k2] at h
            obtain rfl := conv h
            exact ⟨s2, rfl, by simpa using l2, l3⟩
          | error e =>
            obtain ⟨s1, k1, k2, k3⟩ := elem_fail hacc hw o0
            obtain ⟨s2, l1, l2, l3⟩ := elem_fail hacc hw ho
            simp only [runC, k1, l1] at h ⊢
            by_cases he : e = .runtimeError
            · subst he
              simp only [if_true] at h ⊢
              rw [take k2] at h
              obtain rfl := conv h
              exact ⟨s2, rfl, by simpa using l2, l3⟩
            · simp [he] at h
        · obtain ⟨s1, k1⟩ := openElement_fail hacc o0
          simp [runC, afterFlush, bind, EStateM.bind, k1] at h

/-! ### header lines -/

/-- the element an entry of `obsContextList` becomes -/
def entryElem (x : Str × List (Str × Str)) : Elem := nodeOf x.1 (x.2.map fun y => leafOf y.1 y.2)

theorem splitChar_ne (s : Str) : splitChar ',' s ≠ [] := by
  cases s with
  | nil => simp [splitChar]
  | cons c s =>
    simp only [splitChar]
    split
    · simp
    · split <;> simp

theorem commaNames_eq : ∀ s : Str, commaNames s = splitChar ',' s
  | [] => rfl
  | c :: s => by
    simp only [commaNames, splitChar, commaNames_eq s]
    cases h : splitChar ',' s with
    | nil => exact absurd h (splitChar_ne s)
    | cons w ws => by_cases hc : c = ',' <;> simp [hc]

theorem takeWhile_all (s : Str) : (s.takeWhile (fun c => c ≠ ',')).length = s.length ↔ ',' ∉ s := by
  induction s with
  | nil => simp
  | cons c s ih =>
    by_cases hc : c = ','
    · subst hc; simp
    · simp only [List.takeWhile_cons, decide_not, hc, decide_false, Bool.not_false, if_true, List.length_cons, List.mem_cons, Ne.symm hc, false_or] at ih ⊢
      rw [← ih]; omega

theorem dropWhile_drop (s : Str) : s.drop ((s.takeWhile (fun c => c ≠ ',')).length + 1) = (s.dropWhile (fun c => c ≠ ',')).tail := by
  induction s with
  | nil => simp
  | cons c s ih =>
    by_cases hc : c = ','
    · subst hc; simp
    · simp only [List.takeWhile_cons, List.dropWhile_cons, decide_not, hc, decide_false, Bool.not_false, if_true, List.length_cons, List.drop_succ_cons] at ih ⊢
      rw [← ih]

theorem headerElement_eq (k v : Str) : (headerElement k v).toList.map entryElem = (headerElem k v).toList := by
  unfold headerElement headerElem
  by_cases h1 : k = c! "COD"
  · simp [h1, entryElem]
  by_cases h2 : k = c! "CON"
  · by_cases hc : ',' ∈ v
    · have := mt (takeWhile_all v).1 (by simpa using hc)
      have e : splitComma1 v = [v.takeWhile (fun c => c ≠ ','), (v.dropWhile (fun c => c ≠ ',')).tail] := by
        unfold splitComma1; rw [if_neg this, dropWhile_drop]
      simp [hc, h2, e, entryElem]
    · have e : splitComma1 v = [v] := by unfold splitComma1; rw [if_pos ((takeWhile_all v).2 hc)]
      simp [hc, h2, e, entryElem]
  by_cases h3 : k = c! "OBS"
  · simp [h3, entryElem, commaNames_eq, Function.comp_def]
  by_cases h4 : k = c! "MEA"
  · simp [h4, entryElem, commaNames_eq, Function.comp_def]
  by_cases h5 : k = c! "TEL"
  · simp [h5, entryElem]
  · simp [h1, h2, h3, h4, h5]

theorem headerElems_snoc (k v : Str) : ∀ (hs : List (Str × Str)) (seen : List Str), headerElems seen (hs ++ [(k, v)]) =
    headerElems seen hs ++ if k = c! "COM" ∨ k ∈ seen ∨ k ∈ hs.map (·.1) then [] else (headerElem k v).toList
  | [], seen => by
    by_cases h1 : k = c! "COM" <;> by_cases h2 : k ∈ seen <;> simp [headerElems, h1, h2]
  | (k', v') :: hs, seen => by
    simp only [List.cons_append, headerElems, List.map_cons, List.mem_cons]
    split
    · rename_i h
      rw [headerElems_snoc k v hs seen]
      congr 1
      by_cases h1 : k = k'
      · subst h1
        have : k = c! "COM" ∨ k ∈ seen ∨ k ∈ hs.map (·.1) := by rcases h with h | h <;> simp [h]
        rw [if_pos this, if_pos (by simp)]
      · refine ite_congr (propext ?_) (fun _ => rfl) (fun _ => rfl)
        simp only [h1, false_or]
    · rename_i h
      rw [headerElems_snoc k v hs (k' :: seen), List.append_assoc]
      congr 2
      refine ite_congr (propext ?_) (fun _ => rfl) (fun _ => rfl)
      simp only [List.mem_cons]
      constructor
      · rintro (h | (h | h) | h) <;> simp [h]
      · rintro (h | h | h | h) <;> simp [h]

/-- header lines `hs` of a new block have been read; `base` is open below the block -/
structure Heads (s : CState) (base : List Frame) (hs : List (Str × Str)) : Prop where
  inb : s.inObsBlock = true
  fe : s.firstElement = true
  fob : s.firstObsBlock = false
  rep : Rep s.stack (⟨c! "obsContext", none, [], []⟩ :: ⟨c! "obsBlock", none, [], []⟩ :: base)
  com : s.commentList = commentLines hs
  ctx : s.obsContextList.map entryElem = headerElems [] hs
  seen : ∀ k, k ∈ s.obsContextSeen ↔ k ≠ c! "COM" ∧ k ∈ hs.map (·.1)

/-- the item is a header line -/
def IsHeader (item : Item) (h : Str × Str) : Prop :=
  item.get? (c! "code") = some (.str (c! "0")) ∧ item.get? (c! "headerKeyword") = some (.str h.1) ∧ item.get? (c! "headerValue") = some (.str h.2)

/-- the last part of `convertHeader` -/
def noteHeader (hkey hval : Str) (s : CState) : CState :=
  if hkey = c! "COM" then { s with commentList := s.commentList ++ [hval] }
  else if s.obsContextSeen.contains hkey then s
  else { s with obsContextSeen := s.obsContextSeen ++ [hkey], obsContextList := s.obsContextList ++ (headerElement hkey hval).toList }

theorem header_step_eq {lx : Lxml} {al : Allowed} {item : Item} {h : Str × Str} (hh : IsHeader item h) (s : CState) :
    runC (convertit lx al item) s =
      match (if s.inObsBlock then .ok s else
        match (if s.firstObsBlock then
            (match s.stack.addPush lx (c! "obsBlock") with
              | .ok t => .ok { s with firstObsBlock := false, stack := t }
              | .error e => .error (e, { s with firstObsBlock := false }))
          else (match s.stack.pop with
            | .error e => .error (e, s)
            | .ok t1 =>
              match t1.pop with
              | .error e => .error (e, { s with stack := t1 })
              | .ok t2 =>
                match t2.addPopPush lx (c! "obsBlock") with
                | .error e => .error (e, { s with stack := t2 })
                | .ok t3 => .ok { s with stack := t3 }) : Except (PyErr × CState) CState) with
        | .error x => .error x
        | .ok s1 =>
          match s1.stack.addPush lx (c! "obsContext") with
          | .error e => .error (e, s1)
          | .ok t => .ok { s1 with stack := t, commentList := [], obsContextList := [], obsContextSeen := [] } : Except (PyErr × CState) CState) with
      | .error (e, s1) => (s1, some e)
      | .ok s1 => (noteHeader h.1 h.2 { s1 with inObsBlock := true, firstElement := true }, none) := by
  obtain ⟨h1, h2, h3⟩ := hh
  have hc : codeType (c! "0") = some .header := by decide
  simp only [runC, convertit, str_ok.2 h1, lift, bind, EStateM.bind, hc, convertHeader, get, getThe, MonadStateOf.get, EStateM.get]
  by_cases hi : s.inObsBlock = true
  · simp only [hi, Bool.not_true, Bool.false_eq_true, if_false, pure, EStateM.pure, modify, modifyGet, MonadStateOf.modifyGet, EStateM.modifyGet, str_ok.2 h2, str_ok.2 h3, if_true]
    rfl
  · simp only [Bool.not_eq_true] at hi
    by_cases hf : s.firstObsBlock = true
    · simp only [hi, Bool.not_false, if_true, Bool.false_eq_true, if_false, hf, EStateM.bind, modify, modifyGet, MonadStateOf.modifyGet, EStateM.modifyGet, onStack]
      cases s.stack.addPush lx (c! "obsBlock") with
      | error e => simp
      | ok t =>
        simp only
        cases t.addPush lx (c! "obsContext") with
        | error e => simp
        | ok t' => simp only [str_ok.2 h2, str_ok.2 h3, lift]; rfl
    · simp only [Bool.not_eq_true] at hf
      simp only [hi, Bool.not_false, if_true, Bool.false_eq_true, if_false, hf, EStateM.bind, modify, modifyGet, MonadStateOf.modifyGet, EStateM.modifyGet, onStack]
      cases s.stack.pop with
      | error e => simp
      | ok t1 =>
        simp only
        cases t1.pop with
        | error e => simp
        | ok t2 =>
          simp only
          cases t2.addPopPush lx (c! "obsBlock") with
          | error e => simp
          | ok t3 =>
            simp only
            cases t3.addPush lx (c! "obsContext") with
            | error e => simp
            | ok t' => simp only [str_ok.2 h2, str_ok.2 h3, lift]; rfl

/-- lxml accepts the names of the fixed elements -/
structure Names (lx : Lxml) : Prop where
  ades : lx.Accepts (c! "ades") none [(c! "version", c! "2022")]
  block : lx.Accepts (c! "obsBlock") none []
  context : lx.Accepts (c! "obsContext") none []
  data : lx.Accepts (c! "obsData") none []

/-- lxml accepts the names and texts of the header elements -/
def HeadersOk (lx : Lxml) (hs : List (Str × Str)) : Prop :=
  ∀ x ∈ (contextElem hs).kids, lx.Accepts x.tag x.text [] ∧ ∀ y ∈ x.kids, lx.Accepts y.tag y.text []

def noFrame (tag : Str) : Frame := ⟨tag, none, [], []⟩

theorem noteHeader_heads {s : CState} {base : List Frame} {hs : List (Str × Str)} (h : Heads s base hs) (k v : Str) : Heads (noteHeader k v s) base (hs ++ [(k, v)]) := by
  unfold noteHeader
  by_cases h1 : k = c! "COM"
  · rw [if_pos h1]
    refine ⟨h.inb, h.fe, h.fob, h.rep, ?_, ?_, ?_⟩
    · simp [h.com, commentLines, h1]
    · rw [headerElems_snoc, if_pos (Or.inl h1), List.append_nil]; exact h.ctx
    · intro k'
      simp only [h.seen k', List.map_append, List.mem_append, List.map_cons, List.map_nil, List.mem_singleton]
      constructor
      · rintro ⟨a, b⟩; exact ⟨a, Or.inl b⟩
      · rintro ⟨a, b | b⟩
        · exact ⟨a, b⟩
        · exact absurd (b.trans h1) a
  · rw [if_neg h1]
    by_cases h2 : k ∈ s.obsContextSeen
    · rw [if_pos (by simpa using h2)]
      have h3 := (h.seen k).1 h2
      refine ⟨h.inb, h.fe, h.fob, h.rep, ?_, ?_, ?_⟩
      · rw [h.com]; simp [commentLines, h1]
      · rw [headerElems_snoc, if_pos (Or.inr (Or.inr h3.2)), List.append_nil]; exact h.ctx
      · intro k'
        simp only [h.seen k', List.map_append, List.mem_append, List.map_cons, List.map_nil, List.mem_singleton]
        constructor
        · rintro ⟨a, b⟩; exact ⟨a, Or.inl b⟩
        · rintro ⟨a, b | b⟩
          · exact ⟨a, b⟩
          · rw [b]; exact h3
    · rw [if_neg (by simpa using h2)]
      have h3 : k ∉ hs.map (·.1) := fun e => h2 ((h.seen k).2 ⟨h1, e⟩)
      refine ⟨h.inb, h.fe, h.fob, h.rep, ?_, ?_, ?_⟩
      · simp only [h.com]; simp [commentLines, h1]
      · rw [headerElems_snoc, if_neg (by simp [h1]; simpa using h3)]
        simp only [List.map_append, h.ctx, headerElement_eq]
      · intro k'
        simp only [h.seen k', List.map_append, List.mem_append, List.map_cons, List.map_nil, List.mem_singleton]
        constructor
        · rintro (⟨a, b⟩ | a)
          · exact ⟨a, Or.inl b⟩
          · exact ⟨by rw [a]; exact h1, Or.inr a⟩
        · rintro ⟨a, b | b⟩
          · exact Or.inl ⟨a, b⟩
          · exact Or.inr b

/-- one header line more -/
theorem header_more {lx : Lxml} {al : Allowed} {item : Item} {h : Str × Str} (hh : IsHeader item h) {s : CState} {base : List Frame} {hs : List (Str × Str)} (hd : Heads s base hs) :
    ∃ s', step lx al s item = (s', none) ∧ Heads s' base (hs ++ [h]) := by
  refine ⟨noteHeader h.1 h.2 { s with inObsBlock := true, firstElement := true }, ?_, ?_⟩
  · simp [step, header_step_eq hh, hd.inb]
  · exact noteHeader_heads (s := { s with inObsBlock := true, firstElement := true }) ⟨rfl, rfl, hd.fob, hd.rep, hd.com, hd.ctx, hd.seen⟩ _ _

/-- header lines may come: the next block goes into `B`, which is open in `base` -/
inductive Ready (s : CState) (B : Frame) (base : List Frame) : Prop
  | first : s.inObsBlock = false → s.firstObsBlock = true → Rep s.stack (B :: base) → Ready s B base
  | next {B0 : Frame} {ctx : List Elem} {es : List Elem} : s.inObsBlock = false → s.firstObsBlock = false →
      Open s (noFrame (c! "obsData")) ((noFrame (c! "obsBlock")).add ctx :: B0 :: base) es → es ≠ [] →
      B = B0.add [nodeOf (c! "obsBlock") (ctx ++ [nodeOf (c! "obsData") es])] → Ready s B base

theorem header_new {lx : Lxml} (hn : Names lx) {al : Allowed} {item : Item} {h : Str × Str} (hh : IsHeader item h) {s : CState} {B : Frame} {base : List Frame} (hr : Ready s B base) :
    ∃ s', step lx al s item = (s', none) ∧ Heads s' (B :: base) [h] := by
  cases hr with
  | first h1 h2 h3 =>
    obtain ⟨t, k1, k2⟩ := h3.addPush hn.block
    obtain ⟨t', k3, k4⟩ := k2.addPush hn.context
    refine ⟨noteHeader h.1 h.2 { s with firstObsBlock := false, stack := t', commentList := [], obsContextList := [], obsContextSeen := [], inObsBlock := true, firstElement := true }, ?_, ?_⟩
    · simp [step, header_step_eq hh, h1, h2, k1, k3]
    · exact noteHeader_heads (hs := []) ⟨rfl, rfl, rfl, k4, rfl, rfl, by simp⟩ h.1 h.2
  | @next B0 ctx es h1 h2 h3 h4 h5 =>
    cases h3 with
    | start => exact absurd rfl h4
    | @more es g _ h3 =>
      obtain ⟨t1, k1, r1⟩ := h3.pop
      obtain ⟨t2, k2, r2⟩ := r1.pop
      obtain ⟨t3, k3, r3⟩ := r2.addPopPush hn.block
      obtain ⟨t4, k4, r4⟩ := r3.addPush hn.context
      refine ⟨noteHeader h.1 h.2 { s with stack := t4, commentList := [], obsContextList := [], obsContextSeen := [], inObsBlock := true, firstElement := true }, ?_, ?_⟩
      · simp [step, header_step_eq hh, h1, h2, k1, k2, k3, k4]
      · refine noteHeader_heads (s := { s with stack := t4, commentList := [], obsContextList := [], obsContextSeen := [], inObsBlock := true, firstElement := true }) (hs := []) ⟨rfl, rfl, h2, ?_, rfl, rfl, by simp⟩ h.1 h.2
        subst h5
        simpa [Frame.close, Frame.add, noFrame, nodeOf, normText] using r4

theorem headers_more {lx : Lxml} {al : Allowed} : ∀ {items : List Item} {hs' : List (Str × Str)}, Spec.Each IsHeader items hs' → ∀ {s : CState} {base : List Frame} {hs : List (Str × Str)},
    Heads s base hs → ∃ s', steps lx al s items = (s', none) ∧ Heads s' base (hs ++ hs')
  | _, _, .nil, s, base, hs, h => ⟨s, rfl, by simpa using h⟩
  | _, _, .cons (a := item) (b := x) h1 h2, s, base, hs, h => by
    obtain ⟨s1, k1, k2⟩ := header_more (lx := lx) (al := al) h1 h
    obtain ⟨s2, k3, k4⟩ := headers_more (lx := lx) (al := al) h2 k2
    exact ⟨s2, by simp [steps, k1, k3], by simpa using k4⟩

theorem headers_run {lx : Lxml} (hn : Names lx) {al : Allowed} {items : List Item} {hs : List (Str × Str)} (h : Spec.Each IsHeader items hs) (hne : hs ≠ [])
    {s : CState} {B : Frame} {base : List Frame} (hr : Ready s B base) : ∃ s', steps lx al s items = (s', none) ∧ Heads s' (B :: base) hs := by
  cases h with
  | nil => exact absurd rfl hne
  | cons h1 h2 =>
    obtain ⟨s1, k1, k2⟩ := header_new hn (al := al) h1 hr
    obtain ⟨s2, k3, k4⟩ := headers_more (lx := lx) (al := al) h2 k2
    exact ⟨s2, by simp [steps, k1, k3], by simpa using k4⟩

/-! ### writing the context -/

theorem onStack_ok {f : Stk → Py Stk} {s : CState} {t : Stk} (h : f s.stack = .ok t) : onStack f s = .ok () { s with stack := t } := by
  simp [onStack, h]

theorem leaf_text (v : Str) : normText (some v) = if v = [] then none else some v := by cases v <;> simp [normText]

/-- only the stack has changed -/
def Only (s s' : CState) : Prop := s' = { s with stack := s'.stack }

theorem adds {lx : Lxml} : ∀ (l : List (Str × Str)) {s : CState} {f : Frame} {rest : List Frame}, Rep s.stack (f :: rest) →
    (∀ y ∈ l.map (fun y => leafOf y.1 y.2), lx.Accepts y.tag y.text []) →
    ∃ s', each (fun sub => onStack fun t => t.add lx sub.1 (some sub.2)) l s = .ok () s' ∧ Only s s' ∧ Rep s'.stack (f.add (l.map fun y => leafOf y.1 y.2) :: rest)
  | [], s, f, rest, hr, _ => ⟨s, rfl, rfl, by simpa [Frame.add] using hr⟩
  | y :: l, s, f, rest, hr, ha => by
    have hy : lx.Accepts y.1 (some y.2) [] := by
      have := ha _ (by simp; exact Or.inl rfl)
      refine ⟨this.1, this.2.1, ?_⟩
      intro t ht hne
      injection ht with ht
      subst ht
      exact this.2.2 y.2 (by simp [leafOf, Elem.text, hne]) hne
    obtain ⟨t, k1, k2⟩ := hr.add hy
    obtain ⟨s', k3, k4, k5⟩ := adds l (s := { s with stack := t }) k2 (fun z hz => ha z (by simp only [List.map_cons, List.mem_cons]; exact Or.inr hz))
    refine ⟨s', ?_, ?_, ?_⟩
    · simp only [each, bind, EStateM.bind, onStack_ok (f := fun t => t.add lx y.1 (some y.2)) k1, k3]
    · unfold Only at k4 ⊢; rw [k4]
    · simpa [Frame.add, leafOf, leaf_text] using k5

theorem entries {lx : Lxml} : ∀ (l : List (Str × List (Str × Str))) {s : CState} {f : Frame} {rest : List Frame}, Rep s.stack (f :: rest) →
    (∀ x ∈ l.map entryElem, lx.Accepts x.tag x.text [] ∧ ∀ y ∈ x.kids, lx.Accepts y.tag y.text []) →
    ∃ s', each (fun x => do
      onStack fun t => t.addPush lx x.1
      each (fun sub => onStack fun t => t.add lx sub.1 (some sub.2)) x.2
      onStack Stk.pop) l s = .ok () s' ∧ Only s s' ∧ Rep s'.stack (f.add (l.map entryElem) :: rest)
  | [], s, f, rest, hr, _ => ⟨s, rfl, rfl, by simpa [Frame.add] using hr⟩
  | x :: l, s, f, rest, hr, ha => by
    have hx := ha (entryElem x) (by simp)
    obtain ⟨t1, k1, r1⟩ := hr.addPush (tag := x.1) (text := none) (attrib := []) hx.1
    obtain ⟨s2, k2, o2, r2⟩ := adds x.2 (s := { s with stack := t1 }) r1 hx.2
    obtain ⟨t3, k3, r3⟩ := r2.pop
    obtain ⟨s', k4, o4, r4⟩ := entries l (s := { s2 with stack := t3 }) r3 (fun z hz => ha z (by simp only [List.map_cons, List.mem_cons]; exact Or.inr hz))
    refine ⟨s', ?_, ?_, ?_⟩
    · simp only [each, bind, EStateM.bind, onStack_ok (f := fun t => t.addPush lx x.1) k1, k2, onStack_ok (f := Stk.pop) k3] at k4 ⊢
      exact k4
    · unfold Only at o2 o4 ⊢; rw [o4, o2]
    · simpa [Frame.add, Frame.close, entryElem, nodeOf, normText] using r4

theorem flush_run {lx : Lxml} (hn : Names lx) {s : CState} {base : List Frame} {hs : List (Str × Str)} (h : Heads s base hs) (hok : HeadersOk lx hs) :
    ∃ s', flushContext lx s = .ok () s' ∧ s'.inObsBlock = false ∧ s'.firstObsBlock = false ∧
      Open s' (noFrame (c! "obsData")) ((noFrame (c! "obsBlock")).add [contextElem hs] :: base) [] := by
  have hok' : ∀ x ∈ s.obsContextList.map entryElem, lx.Accepts x.tag x.text [] ∧ ∀ y ∈ x.kids, lx.Accepts y.tag y.text [] := by
    rw [h.ctx]; intro x hx; exact hok x (by simp [contextElem, nodeOf, Elem.kids, hx])
  obtain ⟨s1, k1, o1, r1⟩ := entries s.obsContextList h.rep hok'
  have hc1 : s1.commentList = commentLines hs := by rw [o1]; exact h.com
  have key : ∃ s2, (if s.commentList ≠ [] then (do
      onStack fun t => t.addPush lx (c! "comment")
      each (fun l => onStack fun t => t.add lx (c! "line") (some l)) s.commentList
      onStack Stk.pop : C Unit) else pure ()) s1 = .ok () s2 ∧ Only s1 s2 ∧ Rep s2.stack (⟨c! "obsContext", none, [], (contextElem hs).kids⟩ :: noFrame (c! "obsBlock") :: base) := by
    by_cases hc : commentLines hs = []
    · refine ⟨s1, ?_, rfl, ?_⟩
      · rw [if_neg (by simp [h.com, hc])]; rfl
      · simpa [Frame.add, h.ctx, contextElem, hc, nodeOf, Elem.kids, noFrame] using r1
    · have hcom := hok (nodeOf (c! "comment") ((commentLines hs).map (leafOf (c! "line")))) (by simp [contextElem, nodeOf, Elem.kids, hc])
      obtain ⟨t1, k2, r2⟩ := r1.addPush (tag := c! "comment") (text := none) (attrib := []) hcom.1
      have hl : ∀ y ∈ ((commentLines hs).map fun v => (c! "line", v)).map (fun y => leafOf y.1 y.2), lx.Accepts y.tag y.text [] := by
        intro y hy
        apply hcom.2
        simpa [nodeOf, Elem.kids] using hy
      obtain ⟨s2, k3, o3, r3⟩ := adds ((commentLines hs).map fun v => (c! "line", v)) (s := { s1 with stack := t1 }) r2 hl
      obtain ⟨t4, k4, r4⟩ := r3.pop
      refine ⟨{ s2 with stack := t4 }, ?_, ?_, ?_⟩
      · rw [if_pos (by simpa [h.com] using hc)]
        have hmap : ∀ (l : List Str) (s : CState), each (fun l => onStack fun t => t.add lx (c! "line") (some l)) l s =
            each (fun sub => onStack fun t => t.add lx sub.1 (some sub.2)) (l.map fun v => (c! "line", v)) s := by
          intro l
          induction l with
          | nil => intro s; rfl
          | cons v l ih =>
            intro s
            simp only [each, bind, EStateM.bind, List.map_cons]
            cases (onStack (fun t => t.add lx (c! "line") (some v)) s : EStateM.Result PyErr CState Unit) with
            | error e s => rfl
            | ok u s => exact ih s
        simp only [bind, EStateM.bind, onStack_ok (f := fun t => t.addPush lx (c! "comment")) k2, hmap, h.com, k3, onStack_ok (f := Stk.pop) k4]
      · unfold Only at o3 ⊢; rw [o3]
      · simpa [Frame.add, Frame.close, h.ctx, contextElem, hc, nodeOf, Elem.kids, noFrame, normText, Function.comp_def] using r4
  obtain ⟨s2, k2, o2, r2⟩ := key
  obtain ⟨t3, k3, r3⟩ := r2.addPopPush hn.data
  refine ⟨{ s2 with stack := t3, inObsBlock := false }, ?_, rfl, ?_, .start ?_ ?_⟩
  · simp only [flushContext, bind, EStateM.bind, get, getThe, MonadStateOf.get, EStateM.get, h.inb, if_true] at k1 k2 ⊢
    rw [k1]
    simp only
    by_cases hc : s.commentList = []
    · rw [if_neg (by simpa using hc)] at k2 ⊢
      injection k2 with _ k2
      subst k2
      simp [EStateM.bind, onStack, k3, modify, modifyGet, MonadStateOf.modifyGet, EStateM.modifyGet]
    · rw [if_pos hc] at k2 ⊢
      simp only [EStateM.bind] at k2 ⊢
      split at k2
      · split at k2
        · rename_i s4 _ _ _
          simp only [k2, onStack_ok (f := fun t => t.addPopPush lx (c! "obsData")) k3]
          simp [modify, modifyGet, MonadStateOf.modifyGet, EStateM.modifyGet]
        · simp at k2
      · simp at k2
  · rw [o2, o1]; exact h.fob
  · rw [o2, o1]; exact h.fe
  · simpa [noFrame, Frame.add, Frame.close, contextElem, nodeOf, Elem.kids, normText] using r3

/-! ### blocks -/

/-- the data item, by itself, is converted to the elements `es` (at most one) -/
def Gives (lx : Lxml) (al : Allowed) (item : Item) (es : List Elem) : Prop :=
  item.get? (c! "code") ≠ some (.str (c! "0")) ∧ convertItems lx al [item] = .ok (adesDoc es)

theorem datas_run {lx : Lxml} {al : Allowed} : ∀ {items : List Item} {ess : List (List Elem)}, Spec.Each (Gives lx al) items ess →
    ∀ {s : CState} {F : Frame} {rest : List Frame} {es : List Elem}, s.inObsBlock = false → Open s F rest es →
    ∃ s', steps lx al s items = (s', none) ∧ Open s' F rest (es ++ ess.flatten) ∧ Same s s'
  | _, _, .nil, s, F, rest, es, _, h => ⟨s, rfl, by simpa using h, .refl s⟩
  | _, _, .cons h1 h2, s, F, rest, es, hi, h => by
    obtain ⟨s1, k1, k2, k3⟩ := data_step h1.2 h1.1 hi h
    obtain ⟨s2, k4, k5, k6⟩ := datas_run h2 (k3.inb.trans hi) k2
    exact ⟨s2, by simp [steps, k1, k4], by simpa using k5, k3.trans k6⟩

theorem data_kind {lx : Lxml} {al : Allowed} {item : Item} {es : List Elem} (h : Gives lx al item es) :
    (∀ e, item.str (c! "code") ≠ .error e) ∧ ∃ k, kindOfItem item = some k := by
  obtain ⟨hd, h⟩ := h
  unfold convertItems at h
  obtain ⟨s0, h0, h⟩ := bindOk.1 h
  cases hc : item.str (c! "code") with
  | error e =>
    have : step lx al s0 item = (s0, some e) := by
      have hne := str_err hc
      simp [step, runC, convertit, hc, lift, bind, EStateM.bind, hne]
    simp [steps, this] at h
  | ok code =>
    refine ⟨by simp, ?_⟩
    cases hk : kindOfItem item with
    | some k => exact ⟨k, rfl⟩
    | none =>
      exfalso
      unfold kindOfItem at hk
      rw [hc] at hk
      simp only at hk
      have : codeType code = some .header := by
        split at hk
        · assumption
        · split at hk
          · simp at hk
          · split at hk <;> simp at hk
        all_goals simp at hk
      apply hd
      rw [str_ok.1 hc]
      unfold codeType at this
      split at this
      · rename_i c
        by_cases h0 : c = '0'
        · rw [h0]
        · simp only [h0, if_false] at this
          repeat' split at this
          all_goals simp at this
      · simp at this

theorem step_flush {lx : Lxml} {al : Allowed} {item : Item} {es : List Elem} (h : Gives lx al item es) {s s' : CState} (hf : flushContext lx s = .ok () s') (hi : s'.inObsBlock = false) :
    step lx al s item = step lx al s' item := by
  obtain ⟨hb, k, hk⟩ := data_kind h
  unfold step
  rw [kind_run hk hb, kind_run hk hb, hf, flush_idle hi]

/-- the data lines after header lines -/
theorem datas_first {lx : Lxml} (hn : Names lx) {al : Allowed} {items : List Item} {ess : List (List Elem)} (hd : Spec.Each (Gives lx al) items ess) (hne : items ≠ [])
    {s : CState} {base : List Frame} {hs : List (Str × Str)} (h : Heads s base hs) (hok : HeadersOk lx hs) :
    ∃ s', steps lx al s items = (s', none) ∧ s'.inObsBlock = false ∧ s'.firstObsBlock = false ∧
      Open s' (noFrame (c! "obsData")) ((noFrame (c! "obsBlock")).add [contextElem hs] :: base) ess.flatten := by
  obtain ⟨s1, k1, k2, k3, k4⟩ := flush_run hn h hok
  obtain ⟨s2, l1, l2, l3⟩ := datas_run hd k2 k4
  refine ⟨s2, ?_, l3.inb.trans k2, l3.fob.trans k3, by simpa using l2⟩
  cases hd with
  | nil => exact absurd rfl hne
  | cons h1 h2 =>
    rw [steps] at l1 ⊢
    rw [step_flush h1 k1 k2]
    exact l1

/-- a block as read: the items of the header lines and of the data lines, and what they stand for -/
structure Part where
  headItems : List Item
  dataItems : List Item
  headers : List (Str × Str)
  elems : List (List Elem)

def Part.items (p : Part) : List Item := p.headItems ++ p.dataItems
/-- the block it stands for -/
def Part.block (p : Part) : Block := ⟨p.headers, p.elems.flatten⟩

/-- header lines and data lines stand for these headers and elements -/
structure Part.Ok (lx : Lxml) (al : Allowed) (p : Part) : Prop where
  heads : Spec.Each IsHeader p.headItems p.headers
  datas : Spec.Each (Gives lx al) p.dataItems p.elems
  headed : p.headers ≠ []
  texts : HeadersOk lx p.headers

theorem part_run {lx : Lxml} (hn : Names lx) {al : Allowed} {p : Part} (hp : p.Ok lx al) (hd : p.dataItems ≠ []) {s : CState} {B : Frame} {base : List Frame} (hr : Ready s B base) :
    ∃ s', steps lx al s p.items = (s', none) ∧ s'.inObsBlock = false ∧ s'.firstObsBlock = false ∧
      Open s' (noFrame (c! "obsData")) ((noFrame (c! "obsBlock")).add [contextElem p.headers] :: B :: base) p.elems.flatten := by
  obtain ⟨s1, k1, k2⟩ := headers_run hn (al := al) hp.heads hp.headed hr
  obtain ⟨s2, l1, l2⟩ := datas_first hn hp.datas hd k2 hp.texts
  exact ⟨s2, by rw [Part.items, steps_append, k1]; exact l1, l2⟩

theorem Open.close {s : CState} {F : Frame} {rest : List Frame} {es : List Elem} (h : Open s F rest es) :
    s.stack.takeTreeAndClear = .ok (closeAll (F.add es) rest, { s.stack with stack := [] }) := by
  cases h with
  | start _ hr => rw [hr.take]; simp [Frame.add]
  | more _ hr => rw [hr.take]; simp [closeAll, Frame.add]

theorem Ready.close {s : CState} {B : Frame} {base : List Frame} (h : Ready s B base) :
    s.stack.takeTreeAndClear = .ok (closeAll B base, { s.stack with stack := [] }) := by
  cases h with
  | first _ _ hr => exact hr.take
  | next _ _ ho _ e => rw [ho.close, e]; simp [closeAll, Frame.add, Frame.close, noFrame, nodeOf]

theorem parts_run {lx : Lxml} (hn : Names lx) {al : Allowed} : ∀ {ps : List Part}, (∀ p ∈ ps, p.Ok lx al ∧ p.dataItems ≠ []) → (∀ p ∈ ps.dropLast, p.elems.flatten ≠ []) →
    ∀ {s : CState} {B : Frame} {base : List Frame}, Ready s B base →
    ∃ s', steps lx al s (ps.flatMap Part.items) = (s', none) ∧
      s'.stack.takeTreeAndClear = .ok (closeAll (B.add (ps.map fun p => p.block.elem)) base, { s'.stack with stack := [] })
  | [], _, _, s, B, base, hr => ⟨s, rfl, by simpa [Frame.add] using hr.close⟩
  | [p], h, _, s, B, base, hr => by
    obtain ⟨s1, k1, k2, k3, k4⟩ := part_run hn (h p (by simp)).1 (h p (by simp)).2 hr
    refine ⟨s1, by simpa using k1, ?_⟩
    rw [k4.close]
    simp [closeAll, Frame.add, Frame.close, noFrame, Part.block, Block.elem, nodeOf]
  | p :: q :: ps, h, hne, s, B, base, hr => by
    obtain ⟨s1, k1, k2, k3, k4⟩ := part_run hn (h p (by simp)).1 (h p (by simp)).2 hr
    have hr1 : Ready s1 (B.add [p.block.elem]) base := .next k2 k3 k4 (hne p (by simp)) (by simp [Part.block, Block.elem])
    obtain ⟨s2, l1, l2⟩ := parts_run hn (ps := q :: ps) (fun r hr => h r (by simp only [List.mem_cons] at hr ⊢; exact Or.inr hr))
      (fun r hr => hne r (by simp only [List.dropLast_cons_cons, List.mem_cons] at hr ⊢; exact Or.inr hr)) hr1
    refine ⟨s2, ?_, ?_⟩
    · rw [List.flatMap_cons, steps_append, k1]; exact l1
    · rw [l2]; simp [Frame.add]

end Verif.Mpc80
