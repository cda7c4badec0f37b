import Verif.Xml
/-!
  The heap of `ElementStack` represents a zipper: a list of open elements, top first, each with its closed children.
-/
namespace Verif.Xml

/-- an open element: its data and its children closed so far -/
structure Frame where
  tag : Str
  text : Option Str
  attrib : Attrib
  kids : List Elem

/-- the element a frame becomes when closed -/
def Frame.close (f : Frame) : Elem := .mk f.tag f.text f.attrib f.kids
/-- add children -/
def Frame.add (f : Frame) (es : List Elem) : Frame := { f with kids := f.kids ++ es }

/-- close all open elements -/
def closeAll : Frame → List Frame → Elem
  | f, [] => f.close
  | f, p :: ps => closeAll (p.add [f.close]) ps

mutual
/-- reference `i` denotes the tree `e`, all of whose cells have indices in `[lo, hi)` -/
def Reads (h : Heap) (hi : Nat) : Nat → Nat → Elem → Prop
  | lo, i, .mk t x a ks => lo ≤ i ∧ i < hi ∧ ∃ ids, h[i]? = some ⟨t, x, a, ids⟩ ∧ ReadsL h hi (i + 1) ids ks
def ReadsL (h : Heap) (hi : Nat) : Nat → List Nat → List Elem → Prop
  | _, is, [] => is = []
  | lo, is, e :: es => ∃ i js, is = i :: js ∧ Reads h hi lo i e ∧ ReadsL h hi lo js es
end

mutual
theorem Reads.mono {h h' : Heap} {hi hi' : Nat} : ∀ {lo i : Nat} {e : Elem}, Reads h hi lo i e → hi ≤ hi' →
    (∀ k, lo ≤ k → k < hi → h'[k]? = h[k]?) → Reads h' hi' lo i e
  | lo, i, .mk t x a ks, hr, hh, heq => by
    rw [Reads] at hr ⊢
    obtain ⟨h1, h2, ids, h3, h4⟩ := hr
    exact ⟨h1, by omega, ids, by rw [heq i h1 h2, h3], ReadsL.mono h4 hh fun k hk1 hk2 => heq k (by omega) hk2⟩
theorem ReadsL.mono {h h' : Heap} {hi hi' : Nat} : ∀ {lo : Nat} {is : List Nat} {es : List Elem}, ReadsL h hi lo is es → hi ≤ hi' →
    (∀ k, lo ≤ k → k < hi → h'[k]? = h[k]?) → ReadsL h' hi' lo is es
  | lo, is, [], hr, _, _ => by rw [ReadsL] at hr ⊢; exact hr
  | lo, is, e :: es, hr, hh, heq => by
    rw [ReadsL] at hr ⊢
    obtain ⟨i, js, rfl, h1, h2⟩ := hr
    exact ⟨i, js, rfl, h1.mono hh heq, h2.mono hh heq⟩
end

mutual
theorem Reads.lo {h : Heap} {hi : Nat} : ∀ {lo lo' i : Nat} {e : Elem}, Reads h hi lo i e → lo' ≤ lo → Reads h hi lo' i e
  | lo, lo', i, .mk t x a ks, hr, hl => by
    rw [Reads] at hr ⊢
    obtain ⟨h1, h2, ids, h3, h4⟩ := hr
    exact ⟨by omega, h2, ids, h3, h4⟩
end

theorem ReadsL.append {h : Heap} {hi lo : Nat} : ∀ {is js : List Nat} {es fs : List Elem}, ReadsL h hi lo is es → ReadsL h hi lo js fs →
    ReadsL h hi lo (is ++ js) (es ++ fs) := by
  intro is js es fs h1 h2
  induction es generalizing is with
  | nil => rw [ReadsL] at h1; subst h1; simpa using h2
  | cons e es ih =>
    rw [ReadsL] at h1
    obtain ⟨i, js', rfl, h3, h4⟩ := h1
    simp only [List.cons_append, ReadsL]
    exact ⟨i, _, rfl, h3, ih h4⟩

theorem ReadsL.single {h : Heap} {hi lo i : Nat} {e : Elem} (hr : Reads h hi lo i e) : ReadsL h hi lo [i] [e] := by
  simp only [ReadsL]; exact ⟨i, [], rfl, hr, rfl⟩

/-- reading with enough fuel gives the denoted tree -/
theorem Reads.treeAt {h : Heap} {hi : Nat} : ∀ {f lo i : Nat} {e : Elem}, Reads h hi lo i e → hi - i ≤ f → Xml.treeAt f h i = e := by
  intro f
  induction f with
  | zero =>
    intro lo i e hr hf
    cases e; rw [Reads] at hr; omega
  | succ f ih =>
    intro lo i e hr hf
    cases e with
    | mk t x a ks =>
      rw [Reads] at hr
      obtain ⟨h1, h2, ids, h3, h4⟩ := hr
      rw [Xml.treeAt, h3]
      have : ∀ (es : List Elem) (js : List Nat), ReadsL h hi (i + 1) js es → js.map (Xml.treeAt f h) = es := by
        intro es
        induction es with
        | nil => intro js hj; rw [ReadsL] at hj; subst hj; rfl
        | cons e es ihe =>
          intro js hj
          rw [ReadsL] at hj
          obtain ⟨k, js', rfl, h5, h6⟩ := hj
          have hk : i + 1 ≤ k := by cases e; rw [Reads] at h5; exact h5.1
          rw [List.map_cons, ih h5 (by omega), ihe js' h6]
      simp only [this ks ids h4]

/-- `ids` (top first) are the open elements `fs`; `ok` is the reference to the open child, if any; closed cells of each frame lie between
    it and the next open one. -/
def RepAux (h : Heap) : List Nat → List Frame → Nat → List Nat → Prop
  | [], [], _, _ => True
  | i :: is, f :: fs, hi, ok => i < hi ∧ ∃ ks, h[i]? = some ⟨f.tag, f.text, f.attrib, ks ++ ok⟩ ∧ ReadsL h hi (i + 1) ks f.kids ∧ RepAux h is fs i [i]
  | _, _, _, _ => False

/-- the element stack represents the zipper `z` -/
def Rep (s : Stk) (z : List Frame) : Prop := RepAux s.heap s.stack z s.heap.length []

theorem RepAux.mono {h h' : Heap} : ∀ {is : List Nat} {fs : List Frame} {hi : Nat} {ok : List Nat}, RepAux h is fs hi ok →
    (∀ k, k < hi → h'[k]? = h[k]?) → RepAux h' is fs hi ok
  | [], [], _, _, _, _ => trivial
  | i :: is, f :: fs, hi, ok, hr, heq => by
    obtain ⟨h1, ks, h2, h3, h4⟩ := hr
    exact ⟨h1, ks, by rw [heq i h1, h2], h3.mono (Nat.le_refl _) fun k _ hk => heq k hk, h4.mono fun k hk => heq k (by omega)⟩
  | [], _ :: _, _, _, hr, _ => by simp [RepAux] at hr
  | _ :: _, [], _, _, hr, _ => by simp [RepAux] at hr

theorem Rep.length {s : Stk} {z : List Frame} (h : Rep s z) : s.stack.length = z.length := by
  have : ∀ (is : List Nat) (fs : List Frame) (hi : Nat) (ok : List Nat), RepAux s.heap is fs hi ok → is.length = fs.length := by
    intro is
    induction is with
    | nil => intro fs hi ok h; cases fs with | nil => rfl | cons _ _ => simp [RepAux] at h
    | cons i is ih =>
      intro fs hi ok h
      cases fs with
      | nil => simp [RepAux] at h
      | cons f fs => obtain ⟨-, ks, -, -, h4⟩ := h; simp [ih _ _ _ h4]
  exact this _ _ _ _ h

/-- what `newElement` makes of a text -/
def normText : Option Str → Option Str
  | some [] => none
  | x => x

/-- lxml accepts the tag, attributes and text -/
def Lxml.Accepts (lx : Lxml) (tag : Str) (text : Option Str) (attrib : Attrib) : Prop :=
  lx.tagOk tag = true ∧ (∀ a ∈ attrib, lx.tagOk a.1 = true ∧ lx.textOk a.2 = true) ∧ (∀ t, text = some t → t ≠ [] → lx.textOk t = true)

theorem newElement_ok {lx : Lxml} {tag : Str} {text : Option Str} {attrib : Attrib} (h : lx.Accepts tag text attrib) :
    newElement lx tag text attrib = .ok ⟨tag, normText text, attrib, []⟩ := by
  obtain ⟨h1, h2, h3⟩ := h
  unfold newElement
  rw [if_pos ⟨h1, by simpa using h2⟩]
  rcases text with _ | _ | ⟨c, t⟩
  · rfl
  · rfl
  · simp only [List.isEmpty_cons, Bool.false_eq_true, if_false, normText]
    rw [if_pos (h3 _ rfl (by simp))]

theorem newElement_inv {lx : Lxml} {tag : Str} {text : Option Str} {attrib : Attrib} {c : Cell} (h : newElement lx tag text attrib = .ok c) :
    lx.Accepts tag text attrib ∧ c = ⟨tag, normText text, attrib, []⟩ := by
  have ha : lx.Accepts tag text attrib := by
    unfold newElement at h
    split at h
    · rename_i h1
      refine ⟨h1.1, by simpa using h1.2, ?_⟩
      intro t ht hne
      subst ht
      simp only at h
      split at h
      · simp_all
      · split at h
        · assumption
        · simp at h
    · simp at h
  refine ⟨ha, ?_⟩
  rw [newElement_ok ha] at h
  exact (Except.ok.inj h).symm

theorem extend_get {h : Heap} {l : List Cell} {i : Nat} {ids : List Nat} (k : Nat) (hk : k ≠ i) : (Heap.extend (h ++ l) i ids)[k]? = (h ++ l)[k]? := by
  rw [Heap.extend, List.getElem?_modify]; simp [Ne.symm hk]

theorem extend_get_self {h : Heap} {l : List Cell} {i : Nat} {c : Cell} {ids : List Nat} (hi : i < h.length) (hc : h[i]? = some c) :
    (Heap.extend (h ++ l) i ids)[i]? = some { c with kids := c.kids ++ ids } := by
  rw [Heap.extend, List.getElem?_modify, List.getElem?_append_left hi, hc]; simp

theorem extend_length {h : Heap} {i : Nat} {ids : List Nat} : (Heap.extend h i ids).length = h.length := by simp [Heap.extend]

/-- cells for elements without children -/
def leaf (e : Str × Option Str) : Elem := .mk e.1 e.2 [] []

/-- adding fresh childless elements -/
theorem Rep.addCells {h : Heap} {top : Nat} {rest : List Nat} {f : Frame} {fs : List Frame} (hr : Rep ⟨h, top :: rest⟩ (f :: fs))
    (l : List Cell) (hl : ∀ c ∈ l, c.kids = []) :
    Rep ⟨Heap.extend (h ++ l) top (List.range' h.length l.length), top :: rest⟩ (f.add (l.map fun c => .mk c.tag c.text c.attrib []) :: fs) := by
  obtain ⟨h1, ks, h2, h3, h4⟩ := hr
  simp only at h1 h2 h3 h4
  have hlen : (Heap.extend (h ++ l) top (List.range' h.length l.length)).length = h.length + l.length := by simp [extend_length]
  refine ⟨by simp only [hlen]; omega, ks ++ List.range' h.length l.length, ?_, ?_, ?_⟩
  · simp only [extend_get_self h1 h2, List.append_nil]; rfl
  · simp only [hlen]
    apply ReadsL.append
    · exact h3.mono (by omega) fun k hk1 hk2 => by rw [extend_get k (by omega), List.getElem?_append_left hk2]
    · have : ∀ (l' pre : List Cell), l = pre ++ l' → ReadsL (Heap.extend (h ++ l) top (List.range' h.length l.length)) (h.length + l.length) (top + 1)
          (List.range' (h.length + pre.length) l'.length) (l'.map fun c => .mk c.tag c.text c.attrib []) := by
        intro l'
        induction l' with
        | nil => intro pre _; simp [ReadsL]
        | cons c l' ih =>
          intro pre hpre
          have := ih (pre ++ [c]) (by simp [hpre])
          simp only [List.length_cons, List.range'_succ, List.map_cons, ReadsL]
          refine ⟨_, _, rfl, ?_, ?_⟩
          · simp only [Reads]
            refine ⟨by omega, by simp [hpre], [], ?_, rfl⟩
            rw [extend_get _ (by omega), List.getElem?_append_right (by omega), hpre]
            have hc : c.kids = [] := hl c (by simp [hpre])
            simp [← hc]
          · simpa [Nat.add_assoc] using this
      simpa using this l [] rfl
  · exact h4.mono fun k hk => by rw [extend_get k (by omega), List.getElem?_append_left (by omega)]

/-- pushing a fresh element -/
theorem Rep.pushCell {h : Heap} {top : Nat} {rest : List Nat} {f : Frame} {fs : List Frame} (hr : Rep ⟨h, top :: rest⟩ (f :: fs))
    (c : Cell) (hc : c.kids = []) :
    Rep ⟨Heap.extend (h ++ [c]) top [h.length], h.length :: top :: rest⟩ (⟨c.tag, c.text, c.attrib, []⟩ :: f :: fs) := by
  obtain ⟨h1, ks, h2, h3, h4⟩ := hr
  simp only at h1 h2 h3 h4
  refine ⟨by simp [extend_length], [], ?_, rfl, ?_⟩
  · simp only
    rw [extend_get _ (by omega), List.getElem?_append_right (by omega)]; simp; cases c; simp_all
  · refine ⟨h1, ks, ?_, ?_, ?_⟩
    · simp only [extend_get_self h1 h2, List.append_nil]
    · exact h3.mono (Nat.le_refl _) fun k hk1 hk2 => by simp only; rw [extend_get k (by omega), List.getElem?_append_left hk2]
    · exact h4.mono fun k hk => by simp only; rw [extend_get k (by omega), List.getElem?_append_left (by omega)]

theorem Rep.popCell {h : Heap} {top t2 : Nat} {rest : List Nat} {f g : Frame} {fs : List Frame} (hr : Rep ⟨h, top :: t2 :: rest⟩ (f :: g :: fs)) :
    Rep ⟨h, t2 :: rest⟩ (g.add [f.close] :: fs) := by
  obtain ⟨h1, ks, h2, h3, h4, ks', h5, h6, h7⟩ := hr
  simp only at h1 h2 h3 h4 h5 h6 h7
  refine ⟨by simp only; omega, ks' ++ [top], by simpa [Frame.add] using h5, ?_, h7⟩
  apply ReadsL.append
  · exact h6.mono (by simp only; omega) fun _ _ _ => rfl
  · apply ReadsL.single
    simp only [Frame.close, Reads]
    exact ⟨h4, h1, ks, by simpa using h2, h3⟩

/-! ### the operations on the zipper -/

theorem Rep.pop {s : Stk} {f g : Frame} {fs : List Frame} (hr : Rep s (f :: g :: fs)) :
    ∃ s', s.pop = .ok s' ∧ Rep s' (g.add [f.close] :: fs) := by
  obtain ⟨h, st⟩ := s
  have hl := hr.length
  rcases st with _ | ⟨a, _ | ⟨b, r⟩⟩
  · simp at hl
  · simp at hl
  · exact ⟨⟨h, b :: r⟩, by rw [Stk.pop, if_neg (by simp)]; rfl, hr.popCell⟩

theorem Rep.pop_last {s : Stk} {f : Frame} (hr : Rep s [f]) : s.pop = .error .runtimeError := by
  have := hr.length
  simp at this
  simp [Stk.pop, this, raiseRT]

theorem Rep.addPush {lx : Lxml} {s : Stk} {f : Frame} {fs : List Frame} (hr : Rep s (f :: fs)) {tag : Str} {text : Option Str} {attrib : Attrib}
    (ha : lx.Accepts tag text attrib) :
    ∃ s', s.addPush lx tag text attrib = .ok s' ∧ Rep s' (⟨tag, normText text, attrib, []⟩ :: f :: fs) := by
  obtain ⟨h, st⟩ := s
  have hl := hr.length
  rcases st with _ | ⟨a, r⟩
  · simp at hl
  · refine ⟨_, ?_, hr.pushCell ⟨tag, normText text, attrib, []⟩ rfl⟩
    simp [Stk.addPush, newElement_ok ha, bind, Except.bind, pure, Except.pure]

theorem Rep.add {lx : Lxml} {s : Stk} {f : Frame} {fs : List Frame} (hr : Rep s (f :: fs)) {tag : Str} {text : Option Str} {attrib : Attrib}
    (ha : lx.Accepts tag text attrib) :
    ∃ s', s.add lx tag text attrib = .ok s' ∧ Rep s' (f.add [.mk tag (normText text) attrib []] :: fs) := by
  obtain ⟨h, st⟩ := s
  have hl := hr.length
  rcases st with _ | ⟨a, r⟩
  · simp at hl
  · refine ⟨_, ?_, by simpa using hr.addCells [⟨tag, normText text, attrib, []⟩] (by simp)⟩
    simp [Stk.add, newElement_ok ha, bind, Except.bind, pure, Except.pure]

theorem Rep.addElementList {s : Stk} {f : Frame} {fs : List Frame} (hr : Rep s (f :: fs)) {l : List Cell} (hl : ∀ c ∈ l, c.kids = []) :
    ∃ s', s.addElementList l = .ok s' ∧ Rep s' (f.add (l.map fun c => .mk c.tag c.text c.attrib []) :: fs) := by
  obtain ⟨h, st⟩ := s
  have hlen := hr.length
  rcases st with _ | ⟨a, r⟩
  · simp at hlen
  · exact ⟨_, rfl, hr.addCells l hl⟩

theorem Rep.addPopPush {lx : Lxml} {s : Stk} {f g : Frame} {fs : List Frame} (hr : Rep s (f :: g :: fs)) {tag : Str} {text : Option Str} {attrib : Attrib}
    (ha : lx.Accepts tag text attrib) :
    ∃ s', s.addPopPush lx tag text attrib = .ok s' ∧ Rep s' (⟨tag, normText text, attrib, []⟩ :: g.add [f.close] :: fs) := by
  obtain ⟨s1, h1, hr1⟩ := hr.pop
  obtain ⟨s2, h2, hr2⟩ := hr1.addPush ha
  exact ⟨s2, by simp [Stk.addPopPush, h1, bind, Except.bind, h2], hr2⟩

theorem Rep.init {lx : Lxml} {tag : Str} {text : Option Str} {attrib : Attrib} (ha : lx.Accepts tag text attrib) :
    ∃ s, Stk.init lx tag text attrib = .ok s ∧ Rep s [⟨tag, normText text, attrib, []⟩] := by
  refine ⟨⟨[⟨tag, normText text, attrib, []⟩], [0]⟩, ?_, ?_⟩
  · simp [Stk.init, newElement_ok ha, bind, Except.bind, pure, Except.pure]
  · exact ⟨by simp, [], rfl, rfl, trivial⟩

theorem addPush_inv {lx : Lxml} {s s' : Stk} {tag : Str} {text : Option Str} {attrib : Attrib} (h : s.addPush lx tag text attrib = .ok s') :
    lx.Accepts tag text attrib := by
  rw [Stk.addPush] at h
  split at h <;>
  · cases hn : newElement lx tag text attrib with
    | error e => rw [hn] at h; simp [bind, Except.bind] at h
    | ok c => exact (newElement_inv hn).1

theorem add_inv {lx : Lxml} {s s' : Stk} {tag : Str} {text : Option Str} {attrib : Attrib} (h : s.add lx tag text attrib = .ok s') :
    lx.Accepts tag text attrib := by
  rw [Stk.add] at h
  split at h
  · simp [raiseRT] at h
  · cases hn : newElement lx tag text attrib with
    | error e => rw [hn] at h; simp [bind, Except.bind] at h
    | ok c => exact (newElement_inv hn).1

theorem addPopPush_inv {lx : Lxml} {s s' : Stk} {tag : Str} {text : Option Str} {attrib : Attrib} (h : s.addPopPush lx tag text attrib = .ok s') :
    lx.Accepts tag text attrib := by
  rw [Stk.addPopPush] at h
  cases hp : s.pop with
  | error e => rw [hp] at h; simp [bind, Except.bind] at h
  | ok s1 => rw [hp] at h; exact addPush_inv h

theorem Rep.take {s : Stk} {f : Frame} {fs : List Frame} (hr : Rep s (f :: fs)) :
    s.takeTreeAndClear = .ok (closeAll f fs, { s with stack := [] }) := by
  have key : ∀ (fs : List Frame) (f : Frame) (i : Nat) (is : List Nat), Rep ⟨s.heap, i :: is⟩ (f :: fs) →
      ∃ r, (i :: is).getLast? = some r ∧ Reads s.heap s.heap.length 0 r (closeAll f fs) := by
    intro fs
    induction fs with
    | nil =>
      intro f i is hr
      have hl := hr.length
      simp at hl
      subst hl
      obtain ⟨h1, ks, h2, h3, -⟩ := hr
      simp only at h1 h2 h3
      refine ⟨i, rfl, ?_⟩
      simp only [closeAll, Frame.close, Reads]
      exact ⟨by omega, h1, ks, by simpa using h2, h3⟩
    | cons g fs ih =>
      intro f i is hr
      have hl := hr.length
      rcases is with _ | ⟨j, is⟩
      · simp at hl
      · obtain ⟨r, e, hr'⟩ := ih _ _ _ hr.popCell
        exact ⟨r, by rw [List.getLast?_cons_cons]; exact e, by rw [closeAll]; exact hr'⟩
  obtain ⟨h, st⟩ := s
  have hl := hr.length
  rcases st with _ | ⟨i, is⟩
  · simp at hl
  · obtain ⟨r, e, hr'⟩ := key fs f i is hr
    simp only at hr'
    simp only [Stk.takeTreeAndClear, e]
    rw [hr'.treeAt (by omega)]

theorem makeElementList_ok {lx : Lxml} : ∀ {l : List (Str × Str)}, (∀ i ∈ l, lx.Accepts i.1 (some i.2) []) →
    makeElementList lx l = .ok (l.map fun i => ⟨i.1, normText (some i.2), [], []⟩)
  | [], _ => rfl
  | (t, v) :: l, h => by
    rw [makeElementList, newElement_ok (h (t, v) (by simp)), makeElementList_ok fun i hi => h i (by simp [hi])]; rfl

theorem makeElementList_inv {lx : Lxml} : ∀ {l : List (Str × Str)} {cs : List Cell}, makeElementList lx l = .ok cs → ∀ i ∈ l, lx.Accepts i.1 (some i.2) []
  | [], _, _ => by simp
  | (t, v) :: l, cs, h => by
    rw [makeElementList] at h
    cases h1 : newElement lx t (some v) [] with
    | error e => rw [h1] at h; simp [bind, Except.bind] at h
    | ok c =>
      rw [h1] at h
      cases h2 : makeElementList lx l with
      | error e => rw [h2] at h; simp [bind, Except.bind] at h
      | ok cs' =>
        intro i hi
        simp at hi
        rcases hi with rfl | hi
        · exact (newElement_inv h1).1
        · exact makeElementList_inv h2 i hi

end Verif.Xml
