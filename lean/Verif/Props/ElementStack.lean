import Verif.Lemmas.ElementStack
import Verif.Spec.Events
/-!
  C36: the element stack is a stack.
-/
namespace Verif
open Verif.Xml Verif.Spec

/-- run one operation -/
def runOp (lx : Lxml) (s : Stk) : Op → Py Stk
  | .add t x a => s.add lx t x a
  | .addPush t x a => s.addPush lx t x a
  | .addPopPush t x a => s.addPopPush lx t x a
  | .addList l => do
    let cs ← makeElementList lx l
    s.addElementList cs
  | .pop => s.pop

/-- run a sequence of operations -/
def runOps (lx : Lxml) : Stk → List Op → Py Stk
  | s, [] => .ok s
  | s, o :: os => do
    let s ← runOp lx s o
    runOps lx s os

theorem text?_eq : text? = normText := by
  funext x; rcases x with _ | _ | ⟨_, _⟩ <;> rfl

theorem eventsL_append (a b : List Elem) : eventsL (a ++ b) = eventsL a ++ eventsL b := by
  induction a with
  | nil => rfl
  | cons e a ih => simp [eventsL, ih]

/-- the tags read so far of a zipper -/
def zEvents : List Frame → List Ev
  | [] => []
  | f :: fs => zEvents fs ++ .start f.tag f.text f.attrib :: eventsL f.kids

theorem zEvents_closeAll : ∀ (fs : List Frame) (f : Frame), events (closeAll f fs) = zEvents (f :: fs) ++ List.replicate (fs.length + 1) .stop := by
  intro fs
  induction fs with
  | nil => intro f; simp [closeAll, Frame.close, events, zEvents]
  | cons g fs ih =>
    intro f
    rw [closeAll, ih]
    simp only [zEvents, Frame.add, Frame.close, eventsL_append, eventsL, events, List.length_cons, List.append_assoc, List.cons_append, List.nil_append]
    simp [List.replicate_succ]

def zOpen (z : List Frame) : List (Str × Option Str × Attrib) := z.map fun f => (f.tag, f.text, f.attrib)

/-- lxml accepts what the operation creates -/
def OpAccepted (lx : Lxml) : Op → Prop
  | .add t x a => lx.Accepts t x a
  | .addPush t x a => lx.Accepts t x a
  | .addPopPush t x a => lx.Accepts t x a
  | .addList l => ∀ i ∈ l, lx.Accepts i.1 (some i.2) []
  | .pop => True

theorem unclosed_leaves (l : List (Str × Str)) (o : List (Str × Option Str × Attrib)) (ho : o ≠ []) :
    unclosed (l.flatMap fun i => [Ev.start i.1 (text? (some i.2)) [], .stop]) o = some o := by
  induction l with
  | nil => rfl
  | cons i l ih =>
    cases o with
    | nil => exact absurd rfl ho
    | cons m o => simpa [unclosed] using ih

theorem eventsL_leaves (l : List (Str × Str)) :
    eventsL ((l.map fun i => (⟨i.1, normText (some i.2), [], []⟩ : Cell)).map fun c => Elem.mk c.tag c.text c.attrib []) =
      l.flatMap fun i => [Ev.start i.1 (text? (some i.2)) [], .stop] := by
  induction l with
  | nil => rfl
  | cons i l ih => simp [eventsL, events, text?_eq] at ih ⊢; exact ih

/-- one step: success exactly if lxml accepts and the tags do not close the root -/
theorem runOp_rep {lx : Lxml} {s : Stk} {f : Frame} {fs : List Frame} (hr : Rep s (f :: fs)) (o : Op) (ha : OpAccepted lx o) :
    match unclosed o.tags (zOpen (f :: fs)) with
    | some op => ∃ s' f' fs', runOp lx s o = .ok s' ∧ Rep s' (f' :: fs') ∧ zOpen (f' :: fs') = op ∧ zEvents (f' :: fs') = zEvents (f :: fs) ++ o.tags
    | none => runOp lx s o = .error .runtimeError := by
  cases o with
  | add t x a =>
    obtain ⟨s', h, hr'⟩ := hr.add ha
    exact ⟨s', _, _, h, hr', rfl, by simp [zEvents, Frame.add, eventsL_append, eventsL, events, Op.tags, text?_eq]⟩
  | addPush t x a =>
    obtain ⟨s', h, hr'⟩ := hr.addPush ha
    exact ⟨s', _, _, h, hr', by simp [zOpen, text?_eq], by simp [zEvents, eventsL, Op.tags, text?_eq]⟩
  | addPopPush t x a =>
    cases fs with
    | nil =>
      simp [zOpen, Op.tags, unclosed, runOp, Stk.addPopPush, hr.pop_last, bind, Except.bind]
    | cons g fs =>
      obtain ⟨s', h, hr'⟩ := hr.addPopPush ha
      exact ⟨s', _, _, h, hr', by simp [zOpen, text?_eq, Frame.add],
        by simp [zEvents, Frame.add, Frame.close, eventsL_append, eventsL, events, Op.tags, text?_eq]⟩
  | addList l =>
    rw [Op.tags, unclosed_leaves l _ (by simp [zOpen])]
    obtain ⟨s', h, hr'⟩ := hr.addElementList (l := l.map fun i => ⟨i.1, normText (some i.2), [], []⟩) (by intro c hc; simp only [List.mem_map] at hc; obtain ⟨_, _, rfl⟩ := hc; rfl)
    refine ⟨s', _, _, ?_, hr', rfl, ?_⟩
    · simp only [runOp, makeElementList_ok ha, bind, Except.bind, h]
    · simp only [zEvents, Frame.add, eventsL_append, eventsL_leaves]; simp
  | pop =>
    cases fs with
    | nil => simp [zOpen, Op.tags, unclosed, runOp, hr.pop_last]
    | cons g fs =>
      obtain ⟨s', h, hr'⟩ := hr.pop
      exact ⟨s', _, _, h, hr', rfl, by simp [zEvents, Frame.add, Frame.close, eventsL_append, eventsL, events, Op.tags]⟩

theorem unclosed_append (a b : List Ev) (o : List (Str × Option Str × Attrib)) : unclosed (a ++ b) o = (unclosed a o).bind (unclosed b) := by
  induction a generalizing o with
  | nil => rfl
  | cons e a ih =>
    cases e with
    | start t x at' => exact ih _
    | stop =>
      rcases o with _ | ⟨p, _ | ⟨q, o⟩⟩
      · rfl
      · rfl
      · exact ih _

theorem runOps_rep {lx : Lxml} : ∀ (os : List Op) {s : Stk} {f : Frame} {fs : List Frame}, Rep s (f :: fs) → (∀ o ∈ os, OpAccepted lx o) →
    match unclosed (os.flatMap Op.tags) (zOpen (f :: fs)) with
    | some op => ∃ s' f' fs', runOps lx s os = .ok s' ∧ Rep s' (f' :: fs') ∧ zOpen (f' :: fs') = op ∧
        zEvents (f' :: fs') = zEvents (f :: fs) ++ os.flatMap Op.tags
    | none => runOps lx s os = .error .runtimeError
  | [], s, f, fs, hr, _ => ⟨s, f, fs, rfl, hr, rfl, by simp⟩
  | o :: os, s, f, fs, hr, ha => by
    have h1 := runOp_rep hr o (ha o (by simp))
    rw [List.flatMap_cons, unclosed_append]
    cases hu : unclosed o.tags (zOpen (f :: fs)) with
    | none =>
      rw [hu] at h1
      simp only [Option.bind_none, runOps, h1, bind, Except.bind]
    | some op =>
      rw [hu] at h1
      obtain ⟨s', f', fs', h2, h3, h4, h5⟩ := h1
      have h6 := runOps_rep os h3 fun o ho => ha o (by simp [ho])
      rw [h4] at h6
      simp only [Option.bind_some, runOps, h2, bind, Except.bind]
      cases hu' : unclosed (os.flatMap Op.tags) op with
      | none => rw [hu'] at h6; exact h6
      | some op' =>
        rw [hu'] at h6
        obtain ⟨s'', f'', fs'', h7, h8, h9, h10⟩ := h6
        exact ⟨s'', f'', fs'', h7, h8, h9, by rw [h10, h5, List.append_assoc]⟩

/-- **C36.** For every sequence of operations that lxml accepts: if the stream of tags they stand for closes the root or more than was
    opened, the sequence fails with RuntimeError; otherwise it succeeds and the finished tree reads, in document order, as exactly that
    stream, with every open element closed at the end. -/
theorem C36_tree (lx : Lxml) (tag : Str) (text : Option Str) (attrib : Attrib) (os : List Op) (h0 : lx.Accepts tag text attrib) (ha : ∀ o ∈ os, OpAccepted lx o) :
    match unclosed (os.flatMap Op.tags) [(tag, text? text, attrib)] with
    | none => (do let s ← Stk.init lx tag text attrib; runOps lx s os) = .error .runtimeError
    | some op => ∃ s tree, (do let s ← Stk.init lx tag text attrib; runOps lx s os) = .ok s ∧ s.takeTreeAndClear = .ok (tree, { s with stack := [] }) ∧
        s.stack.length = op.length ∧ events tree = .start tag (text? text) attrib :: os.flatMap Op.tags ++ List.replicate op.length .stop := by
  obtain ⟨s0, hs0, hr⟩ := Rep.init h0
  have h := runOps_rep os hr ha
  have e0 : zOpen [⟨tag, normText text, attrib, []⟩] = [(tag, text? text, attrib)] := by simp [zOpen, text?_eq]
  rw [e0] at h
  simp only [hs0, bind, Except.bind]
  cases hu : unclosed (os.flatMap Op.tags) [(tag, text? text, attrib)] with
  | none => rw [hu] at h; exact h
  | some op =>
    rw [hu] at h
    obtain ⟨s, f, fs, h1, h2, h3, h4⟩ := h
    refine ⟨s, _, h1, h2.take, ?_, ?_⟩
    · rw [h2.length, ← h3]; simp [zOpen]
    · rw [zEvents_closeAll, h4, ← h3]
      simp [zOpen, zEvents, eventsL, text?_eq]

/-- **C36.** The current element (the one `add` extends) is the most recent unclosed one: its tag, text and attributes are those of the
    last start tag without end tag. -/
theorem C36_top (lx : Lxml) (tag : Str) (text : Option Str) (attrib : Attrib) (os : List Op) (s : Stk)
    (h : (do let s ← Stk.init lx tag text attrib; runOps lx s os) = .ok s) (h0 : lx.Accepts tag text attrib) (ha : ∀ o ∈ os, OpAccepted lx o) :
    ∃ i c m l, s.stack.head? = some i ∧ s.heap[i]? = some c ∧ unclosed (os.flatMap Op.tags) [(tag, text? text, attrib)] = some (m :: l) ∧
      m = (c.tag, c.text, c.attrib) := by
  obtain ⟨s0, hs0, hr⟩ := Rep.init h0
  have h' := runOps_rep os hr ha
  have e0 : zOpen [⟨tag, normText text, attrib, []⟩] = [(tag, text? text, attrib)] := by simp [zOpen, text?_eq]
  rw [e0] at h'
  simp only [hs0, bind, Except.bind] at h
  cases hu : unclosed (os.flatMap Op.tags) [(tag, text? text, attrib)] with
  | none => rw [hu] at h'; rw [h'] at h; simp at h
  | some op =>
    rw [hu] at h'
    obtain ⟨s', f, fs, h1, h2, h3, h4⟩ := h'
    rw [h1] at h
    obtain rfl := Except.ok.inj h
    obtain ⟨hp, st⟩ := s'
    rcases st with _ | ⟨i, is⟩
    · have := h2.length; simp at this
    · obtain ⟨h5, ks, h6, -, -⟩ := h2
      exact ⟨i, _, (f.tag, f.text, f.attrib), zOpen fs, rfl, h6, by rw [← h3]; rfl, rfl⟩

mutual
theorem events_inj : ∀ (e e' : Elem) (r r' : List Ev), events e ++ r = events e' ++ r' → e = e' ∧ r = r'
  | .mk t x a ks, .mk t' x' a' ks', r, r', h => by
    simp only [events, List.cons_append, List.cons.injEq, Ev.start.injEq, List.append_assoc, List.nil_append] at h
    obtain ⟨⟨rfl, rfl, rfl⟩, h⟩ := h
    obtain ⟨e1, e2⟩ := eventsL_inj ks ks' r r' h
    exact ⟨by rw [e1], e2⟩
theorem eventsL_inj : ∀ (es es' : List Elem) (r r' : List Ev), eventsL es ++ .stop :: r = eventsL es' ++ .stop :: r' → es = es' ∧ r = r'
  | [], [], r, r', h => by simpa [eventsL] using h
  | [], .mk _ _ _ _ :: _, r, r', h => by simp [eventsL, events] at h
  | .mk _ _ _ _ :: _, [], r, r', h => by simp [eventsL, events] at h
  | e :: es, e' :: es', r, r', h => by
    simp only [eventsL, List.append_assoc] at h
    obtain ⟨e1, h1⟩ := events_inj e e' _ _ h
    obtain ⟨e2, h2⟩ := eventsL_inj es es' r r' h1
    exact ⟨by rw [e1, e2], h2⟩
end

/-- **C36.** The stream of tags determines the tree. -/
theorem C36_events_determine (e e' : Elem) (h : events e = events e') : e = e' := (events_inj e e' [] [] (by simp [h])).1

/-- **C36.** An operation on something lxml refuses fails with ValueError (or, on an exhausted stack, RuntimeError) and never succeeds. -/
theorem C36_refused (lx : Lxml) (s s' : Stk) (o : Op) (h : runOp lx s o = .ok s') : OpAccepted lx o := by
  cases o with
  | add t x a => exact add_inv h
  | addPush t x a => exact addPush_inv h
  | addPopPush t x a => exact addPopPush_inv h
  | addList l =>
    simp only [runOp] at h
    cases hm : makeElementList lx l with
    | error e => rw [hm] at h; simp [bind, Except.bind] at h
    | ok cs => exact makeElementList_inv hm
  | pop => trivial

/-- a concrete non-trivial case of the hypotheses: two blocks under a root, the second left open -/
def C36_ops : List Op := [.addPush (c! "b") none [], .add (c! "x") (some (c! "1")) [], .addPopPush (c! "b") (some []) [], .addList [(c! "y", c! "2"), (c! "z", c! "3")]]
example : (∀ o ∈ C36_ops, OpAccepted ⟨fun _ => true, fun _ => true⟩ o) ∧ unclosed (C36_ops.flatMap Op.tags) [(c! "r", none, [])] ≠ none := by
  simp [C36_ops, OpAccepted, Lxml.Accepts, unclosed, Op.tags]
def C36_tree_of (os : List Op) : Py Elem := do
  let s ← Stk.init ⟨fun _ => true, fun _ => true⟩ (c! "r") none []
  let s ← runOps ⟨fun _ => true, fun _ => true⟩ s os
  let r ← s.takeTreeAndClear
  return r.1
example : C36_tree_of C36_ops = .ok (.mk (c! "r") none [] [.mk (c! "b") none [] [.mk (c! "x") (some (c! "1")) [] []],
    .mk (c! "b") none [] [.mk (c! "y") (some (c! "2")) [] [], .mk (c! "z") (some (c! "3")) [] []]]) := rfl

end Verif
