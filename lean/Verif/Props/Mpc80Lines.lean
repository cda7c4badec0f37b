import Verif.Spec.Mpc80
import Verif.Lemmas.Mpc80Lines
import Verif.Props.Mpc80Columns
/-
  C25, C26: every line is accounted for, and only matching lines are paired.
-/
namespace Verif
open Verif.Mpc80 Verif.PackUtil Verif.Spec.Mpc80

/-- numbered lines as `parseFile` gets them; the last character of each (the line end) does not belong to the text -/
abbrev Lines := List (Nat × Str)

/-- line `i` is not blank and is decoded as `item`, with code `c` -/
def Decoded (lines : Lines) (i : Nat) (item : Item) (c : Char) : Prop :=
  ∃ n l, lines[i]? = some (n, l) ∧ decode80ColumnDataLine l.dropLast = .ok item ∧ item.get? (c! "code") = some (.str [c])

/-- line `i` is blank -/
def IsBlank (lines : Lines) (i : Nat) : Prop := ∃ n l, lines[i]? = some (n, l) ∧ ∃ k, l.dropLast = List.replicate k ' ' ∨ l.dropLast = List.replicate k ' ' ++ ['\n']

/-- line `i` is not in the format -/
def IsBad (lines : Lines) (i : Nat) : Prop := ∃ n l, lines[i]? = some (n, l) ∧ decode80ColumnDataLine l.dropLast = .error .runtimeError

/-- how an observation or header is made: of one line, or of a first line and the next line that is neither blank nor bad -/
inductive Made (lines : Lines) : List Nat → Item → Prop
  | single {i : Nat} {item : Item} {c : Char} : Decoded lines i item c → [c] ∉ firstCodes → [c] ∉ secondCodes → Made lines [i] item
  | pair {i j : Nat} {a b item : Item} {c c' : Char} : i < j → Decoded lines i a c → [c] ∈ firstCodes → Decoded lines j b c' → [c'] = lowerStr [c] →
      combine [c] a b = .ok item → (∀ k, i < k → k < j → IsBlank lines k ∨ IsBad lines k) → Made lines [i, j] item

/-- what became of a line that is in no record -/
inductive Unused (lines : Lines) (out : List Msg) (i : Nat) : Prop
  | blank : IsBlank lines i → Unused lines out i
  /-- the line itself is reported as bad -/
  | refused {n : Nat} {l : Str} : lines[i]? = some (n, l) → IsBad lines i → .refused n ∈ out → Unused lines out i
  /-- the line itself is reported as not belonging to the line before it -/
  | mismatch {n : Nat} {l a b : Str} : lines[i]? = some (n, l) → .mismatch n a b ∈ out → Unused lines out i
  /-- a first line, reported with the next line that is neither blank nor bad -/
  | lost {j n : Nat} {l : Str} {a : Item} {c c' : Char} : Decoded lines i a c → [c] ∈ firstCodes → i < j → lines[j]? = some (n, l) → .mismatch n [c] [c'] ∈ out →
      (∀ k, i < k → k < j → IsBlank lines k ∨ IsBad lines k) → Unused lines out i
  /-- a first line after which all lines are blank or bad: nothing is said -/
  | last {a : Item} {c : Char} : Decoded lines i a c → [c] ∈ firstCodes → (∀ k, i < k → k < lines.length → IsBlank lines k ∨ IsBad lines k) → Unused lines out i

/-- an account of the lines: which lines each item is made of -/
structure Account (lines : Lines) (items : List Item) (out : List Msg) (used : List (List Nat × Item)) : Prop where
  items : items = used.map (·.2)
  made : ∀ u ∈ used, Made lines u.1 u.2
  /-- no line is used twice, and the order is kept -/
  order : (used.flatMap (·.1)).Pairwise (· < ·)
  rest : ∀ i, i < lines.length → i ∉ used.flatMap (·.1) → Unused lines out i

/-! ### proof -/

/-- the first line waiting for its second -/
def Pending (done : Lines) (st : PState (List (Item × Nat))) (used : List (List Nat × Item)) (i : Nat) : Prop :=
  ∃ c, st.oldCode = [c] ∧ [c] ∈ firstCodes ∧ Decoded done i st.oldLine c ∧ (∀ k ∈ used.flatMap (·.1), k < i) ∧
    ∀ k, i < k → k < done.length → IsBlank done k ∨ IsBad done k

/-- `Unused` without its last case: what stays true when more lines come -/
inductive Settled (lines : Lines) (out : List Msg) (i : Nat) : Prop
  | blank : IsBlank lines i → Settled lines out i
  | refused {n : Nat} {l : Str} : lines[i]? = some (n, l) → IsBad lines i → .refused n ∈ out → Settled lines out i
  | mismatch {n : Nat} {l a b : Str} : lines[i]? = some (n, l) → .mismatch n a b ∈ out → Settled lines out i
  | lost {j n : Nat} {l : Str} {a : Item} {c c' : Char} : Decoded lines i a c → [c] ∈ firstCodes → i < j → lines[j]? = some (n, l) → .mismatch n [c] [c'] ∈ out →
      (∀ k, i < k → k < j → IsBlank lines k ∨ IsBad lines k) → Settled lines out i

structure Inv (done : Lines) (st : PState (List (Item × Nat))) (used : List (List Nat × Item)) (p : Option Nat) : Prop where
  items : st.user.map (·.1) = used.map (·.2)
  made : ∀ u ∈ used, Made done u.1 u.2
  order : (used.flatMap (·.1)).Pairwise (· < ·)
  bound : ∀ k ∈ used.flatMap (·.1), k < done.length
  rest : ∀ i, i < done.length → i ∉ used.flatMap (·.1) → some i ≠ p → Settled done st.out i
  idle : p = none → st.oldCode = c! "None"
  wait : ∀ i, p = some i → Pending done st used i

theorem Decoded.snoc {done : Lines} {i : Nat} {a : Item} {c : Char} (h : Decoded done i a c) (x) : Decoded (done ++ [x]) i a c := by
  obtain ⟨n, l, h1, h2⟩ := h
  exact ⟨n, l, by rw [List.getElem?_append_left (List.getElem?_eq_some_iff.1 h1).1]; exact h1, h2⟩
theorem IsBlank.snoc {done : Lines} {i : Nat} (h : IsBlank done i) (x) : IsBlank (done ++ [x]) i := by
  obtain ⟨n, l, h1, h2⟩ := h
  exact ⟨n, l, by rw [List.getElem?_append_left (List.getElem?_eq_some_iff.1 h1).1]; exact h1, h2⟩
theorem IsBad.snoc {done : Lines} {i : Nat} (h : IsBad done i) (x) : IsBad (done ++ [x]) i := by
  obtain ⟨n, l, h1, h2⟩ := h
  exact ⟨n, l, by rw [List.getElem?_append_left (List.getElem?_eq_some_iff.1 h1).1]; exact h1, h2⟩
theorem Made.snoc {done : Lines} {is : List Nat} {a : Item} (h : Made done is a) (x) : Made (done ++ [x]) is a := by
  cases h with
  | single h1 h2 h3 => exact .single (h1.snoc x) h2 h3
  | pair h0 h1 h2 h3 h4 h5 h6 => exact .pair h0 (h1.snoc x) h2 (h3.snoc x) h4 h5 fun k a b => (h6 k a b).imp (·.snoc x) (·.snoc x)
theorem snoc_at {done : Lines} {x y} {i : Nat} (h : done[i]? = some y) : (done ++ [x])[i]? = some y := by
  rw [List.getElem?_append_left (List.getElem?_eq_some_iff.1 h).1]; exact h
theorem last_at {done : Lines} {x} : (done ++ [x])[done.length]? = some x := by simp

theorem Settled.unused {lines : Lines} {out : List Msg} {i : Nat} (h : Settled lines out i) : Unused lines out i := by
  cases h with
  | blank h => exact .blank h
  | refused h1 h2 h3 => exact .refused h1 h2 h3
  | mismatch h1 h2 => exact .mismatch h1 h2
  | lost h1 h2 h3 h4 h5 h6 => exact .lost h1 h2 h3 h4 h5 h6

theorem Settled.out {done : Lines} {out ms : List Msg} {i : Nat} (h : Settled done out i) : Settled done (out ++ ms) i := by
  cases h with
  | blank h => exact .blank h
  | refused h1 h2 h3 => exact .refused h1 h2 (by rw [List.mem_append]; exact Or.inl h3)
  | mismatch h1 h2 => exact .mismatch h1 (by rw [List.mem_append]; exact Or.inl h2)
  | lost h1 h2 h3 h4 h5 h6 => exact .lost h1 h2 h3 h4 (by rw [List.mem_append]; exact Or.inl h5) h6

theorem Settled.snoc {done : Lines} {out ms : List Msg} {i : Nat} (h : Settled done out i) (x) : Settled (done ++ [x]) (out ++ ms) i := by
  refine Settled.out ?_
  cases h with
  | blank h => exact .blank (h.snoc x)
  | refused h1 h2 h3 => exact .refused (snoc_at h1) (h2.snoc x) h3
  | mismatch h1 h2 => exact .mismatch (snoc_at h1) h2
  | lost h1 h2 h3 h4 h5 h6 => exact .lost (h1.snoc x) h2 h3 (snoc_at h4) h5 fun k a b => (h6 k a b).imp (·.snoc x) (·.snoc x)

/-! one line more -/

theorem Inv.out {done : Lines} {st : PState (List (Item × Nat))} {used : List (List Nat × Item)} {p : Option Nat} (h : Inv done st used p) (ms : List Msg) :
    Inv done { st with out := st.out ++ ms } used p :=
  ⟨h.items, h.made, h.order, h.bound, fun i a b c => (h.rest i a b c).out, h.idle, h.wait⟩

theorem Pending.snoc {done : Lines} {st st' : PState (List (Item × Nat))} {used : List (List Nat × Item)} {i : Nat} (h : Pending done st used i) (x)
    (e1 : st'.oldCode = st.oldCode) (e2 : st'.oldLine = st.oldLine) (hx : IsBlank (done ++ [x]) done.length ∨ IsBad (done ++ [x]) done.length) :
    Pending (done ++ [x]) st' used i := by
  obtain ⟨c, h1, h2, h3, h4, h5⟩ := h
  refine ⟨c, e1.trans h1, h2, by rw [e2]; exact h3.snoc x, h4, ?_⟩
  intro k hk1 hk2
  by_cases hk : k < done.length
  · exact (h5 k hk1 hk).imp (·.snoc x) (·.snoc x)
  · have : k = done.length := by simp at hk2; omega
    rw [this]; exact hx

/-- a line that is blank or bad -/
theorem Inv.passed {done : Lines} {st : PState (List (Item × Nat))} {used : List (List Nat × Item)} {p : Option Nat} (h : Inv done st used p) (x) (ms : List Msg)
    (hx : IsBlank (done ++ [x]) done.length ∨ IsBad (done ++ [x]) done.length) (hs : Settled (done ++ [x]) (st.out ++ ms) done.length) :
    Inv (done ++ [x]) { st with out := st.out ++ ms } used p where
  items := h.items
  made := fun u hu => (h.made u hu).snoc x
  order := h.order
  bound := fun k hk => by have := h.bound k hk; simp; omega
  rest := fun i hi hu hp => by
    by_cases hk : i < done.length
    · exact (h.rest i hk hu hp).snoc x
    · have : i = done.length := by simp at hi; omega
      rw [this]; exact hs
  idle := h.idle
  wait := fun i hi => (h.wait i hi).snoc x rfl rfl hx

/-- a line that leaves the records as they are and is not blank or bad; the pending line, if there is one, is lost -/
theorem Inv.drop {done : Lines} {st st' : PState (List (Item × Nat))} {used : List (List Nat × Item)} {p : Option Nat} (h : Inv done st used p) {n : Nat} {l : Str} {ms : List Msg}
    (eo : st'.out = st.out ++ ms) (eu : st'.user = st.user) (hn : st'.oldCode = c! "None") (hself : Settled (done ++ [(n, l)]) (st.out ++ ms) done.length)
    (hp : ∀ i, p = some i → ∃ c', .mismatch n st.oldCode [c'] ∈ ms) :
    Inv (done ++ [(n, l)]) st' used none where
  items := by rw [eu]; exact h.items
  made := fun u hu => (h.made u hu).snoc _
  order := h.order
  bound := fun k hk => by have := h.bound k hk; simp; omega
  rest := fun i hi hu _ => by
    rw [eo]
    by_cases hk : i < done.length
    · by_cases hpi : some i = p
      · obtain ⟨c, h1, h2, h3, h4, h5⟩ := h.wait i hpi.symm
        obtain ⟨c', hc'⟩ := hp i hpi.symm
        rw [h1] at hc'
        exact .lost (h3.snoc _) h2 hk last_at (List.mem_append.2 (Or.inr hc')) fun k a b => (h5 k a b).imp (·.snoc _) (·.snoc _)
      · exact (h.rest i hk hu hpi).snoc _
    · have : i = done.length := by simp at hi; omega
      rw [this]; exact hself
  idle := fun _ => hn
  wait := fun i hi => by simp at hi

/-- a first line; the pending line, if there is one, is lost -/
theorem Inv.first {done : Lines} {st st' : PState (List (Item × Nat))} {used : List (List Nat × Item)} {p : Option Nat} (h : Inv done st used p) {n : Nat} {l : Str} {ms : List Msg}
    {c : Char} (eo : st'.out = st.out ++ ms) (eu : st'.user = st.user) (ec : st'.oldCode = [c]) (hc : [c] ∈ firstCodes)
    (hd : Decoded (done ++ [(n, l)]) done.length st'.oldLine c) (hp : ∀ i, p = some i → ∃ c', .mismatch n st.oldCode [c'] ∈ ms) :
    Inv (done ++ [(n, l)]) st' used (some done.length) where
  items := by rw [eu]; exact h.items
  made := fun u hu => (h.made u hu).snoc _
  order := h.order
  bound := fun k hk => by have := h.bound k hk; simp; omega
  rest := fun i hi hu hpe => by
    rw [eo]
    by_cases hk : i < done.length
    · by_cases hpi : some i = p
      · obtain ⟨c, h1, h2, h3, h4, h5⟩ := h.wait i hpi.symm
        obtain ⟨c', hc'⟩ := hp i hpi.symm
        rw [h1] at hc'
        exact .lost (h3.snoc _) h2 hk last_at (List.mem_append.2 (Or.inr hc')) fun k a b => (h5 k a b).imp (·.snoc _) (·.snoc _)
      · exact (h.rest i hk hu hpi).snoc _
    · have : i = done.length := by simp at hi; omega
      exact absurd (by rw [this]) hpe
  idle := fun hh => by simp at hh
  wait := fun i hi => by
    injection hi with hi
    subst hi
    exact ⟨c, ec, hc, hd, h.bound, fun k a b => by simp at b; omega⟩

/-- a line of its own -/
theorem Inv.single {done : Lines} {st st' : PState (List (Item × Nat))} {used : List (List Nat × Item)} (h : Inv done st used none) {n : Nat} {l : Str} {ms : List Msg}
    {item : Item} {c : Char} (eo : st'.out = st.out ++ ms) (eu : st'.user = st.user ++ [(item, n)]) (hn : st'.oldCode = c! "None")
    (hd : Decoded (done ++ [(n, l)]) done.length item c) (h1 : [c] ∉ firstCodes) (h2 : [c] ∉ secondCodes) :
    Inv (done ++ [(n, l)]) st' (used ++ [([done.length], item)]) none where
  items := by rw [eu]; simp [h.items]
  made := fun u hu => by
    rcases List.mem_append.1 hu with hu | hu
    · exact (h.made u hu).snoc _
    · simp at hu; subst hu; exact .single hd h1 h2
  order := by
    simp only [List.flatMap_append, List.pairwise_append]
    exact ⟨h.order, by simp, by intro a ha b hb; simp at hb; subst hb; exact h.bound a ha⟩
  bound := fun k hk => by
    simp only [List.flatMap_append, List.mem_append] at hk
    rcases hk with hk | hk
    · have := h.bound k hk; simp; omega
    · simp at hk; subst hk; simp
  rest := fun i hi hu hpe => by
    rw [eo]
    simp only [List.flatMap_append, List.mem_append, not_or] at hu
    have hk : i < done.length := by
      have := hu.2; simp at this hi; omega
    exact (h.rest i hk hu.1 (by simp)).snoc _
  idle := fun _ => hn
  wait := fun i hi => by simp at hi

/-- the second line of a pair -/
theorem Inv.pair {done : Lines} {st st' : PState (List (Item × Nat))} {used : List (List Nat × Item)} {i : Nat} (h : Inv done st used (some i)) {n : Nat} {l : Str} {ms : List Msg}
    {item b : Item} {c : Char} (eo : st'.out = st.out ++ ms) (eu : st'.user = st.user ++ [(item, n)]) (hn : st'.oldCode = c! "None")
    (hd : Decoded (done ++ [(n, l)]) done.length b c) (hl : [c] = lowerStr st.oldCode) (hcomb : combine st.oldCode st.oldLine b = .ok item) :
    Inv (done ++ [(n, l)]) st' (used ++ [([i, done.length], item)]) none := by
  obtain ⟨c0, k1, k2, k3, k4, k5⟩ := h.wait i rfl
  have hi : i < done.length := by
    obtain ⟨n, l, h1, _⟩ := k3
    exact (List.getElem?_eq_some_iff.1 h1).1
  refine ⟨?_, ?_, ?_, ?_, ?_, fun _ => hn, fun i hi => by simp at hi⟩
  · rw [eu]; simp [h.items]
  · intro u hu
    rcases List.mem_append.1 hu with hu | hu
    · exact (h.made u hu).snoc _
    · simp at hu
      subst hu
      exact .pair hi (k3.snoc _) k2 hd (by rw [hl, k1]) (by rw [← k1]; exact hcomb) fun k a b => (k5 k a b).imp (·.snoc _) (·.snoc _)
  · simp only [List.flatMap_append, List.pairwise_append]
    refine ⟨h.order, by simp [hi], ?_⟩
    intro a ha b hb
    have := k4 a ha
    simp at hb
    omega
  · intro k hk
    simp only [List.flatMap_append, List.mem_append] at hk
    rcases hk with hk | hk
    · have := h.bound k hk; simp; omega
    · simp at hk; simp; omega
  · intro k hk hu _
    rw [eo]
    simp only [List.flatMap_append, List.mem_append, not_or] at hu
    have hu2 := hu.2
    simp at hu2 hk
    exact (h.rest k (by omega) hu.1 (by simp; omega)).snoc _

theorem account_step {done : Lines} {st st' : PState (List (Item × Nat))} {used : List (List Nat × Item)} {p : Option Nat} (h : Inv done st used p) {n : Nat} {l : Str}
    {e : Option PyErr} (hr : parseLine logCallback st n l = (st', e)) :
    (e = none ∧ ∃ used' p', Inv (done ++ [(n, l)]) st' used' p') ∨ (e ≠ none ∧ ∃ used p, Inv done st' used p) := by
  unfold parseLine at hr
  split at hr
  · rename_i hb
    injection hr with hr1 hr2
    subst hr1 hr2
    have hbl : IsBlank (done ++ [(n, l)]) done.length := ⟨n, l, last_at, blank_match.1 hb⟩
    have := h.passed (n, l) [] (Or.inl hbl) (.blank hbl)
    simp only [List.append_nil] at this
    exact Or.inl ⟨rfl, used, p, this⟩
  · rename_i hb
    cases hd : decode80ColumnDataLine l.dropLast with
    | error e0 =>
      rw [hd] at hr
      simp only at hr
      split at hr
      · rename_i he
        injection he with he
        subst he
        injection hr with hr1 hr2
        subst hr1 hr2
        have hbad : IsBad (done ++ [(n, l)]) done.length := ⟨n, l, last_at, hd⟩
        exact Or.inl ⟨rfl, used, p, h.passed (n, l) _ (Or.inr hbad) (.refused last_at hbad (by simp))⟩
      · injection hr with hr1 hr2
        subst hr1 hr2
        exact Or.inr ⟨by simp, used, p, h⟩
    | ok item =>
      rw [hd] at hr
      simp only at hr
      obtain ⟨c, hc, hcm⟩ := decode_code hd (by
        intro e0; apply hb; rw [e0]; decide)
      have hdec : Decoded (done ++ [(n, l)]) done.length item c := ⟨n, l, last_at, hd, hc⟩
      cases p with
      | none =>
        have hold := h.idle rfl
        rcases code_class hcm with ⟨k1, k2, k3, k4⟩ | ⟨k1, k2, k3, k4⟩ | ⟨k0, k1, k2, k3, k4⟩
        · rw [body_first _ _ _ _ _ c hold hc k2 k3 k4] at hr
          simp only [reduceCtorEq, if_false] at hr
          injection hr with hr1 hr2
          subst hr1 hr2
          exact Or.inl ⟨rfl, _, _, h.first (c := c) rfl rfl rfl k1 hdec (by simp)⟩
        · rw [body_orphan _ _ _ _ _ c hold hc k1 k2 k3] at hr
          simp only [reduceCtorEq, if_false, List.append_assoc] at hr
          injection hr with hr1 hr2
          subst hr1 hr2
          exact Or.inl ⟨rfl, _, _, h.drop rfl rfl rfl (.mismatch last_at (a := c! "None") (b := [c]) (by simp)) (by simp)⟩
        · rw [body_single _ _ _ _ _ c hold hc k2 k3 k4] at hr
          simp only [logCallback, reduceCtorEq, if_false, List.append_nil] at hr
          injection hr with hr1 hr2
          subst hr1 hr2
          exact Or.inl ⟨rfl, _, _, h.single rfl rfl rfl hdec k0 k1⟩
      | some i =>
        obtain ⟨c0, q1, q2, q3, q4, q5⟩ := h.wait i rfl
        have hold : st.oldCode ∈ firstCodes := by rw [q1]; exact q2
        by_cases hl : [c] = lowerStr st.oldCode
        · rw [body_second _ _ _ _ _ c hold hc hl] at hr
          cases hcomb : combine st.oldCode st.oldLine item with
          | error e0 =>
            rw [hcomb] at hr
            simp only [Option.some.injEq, combine_err hcomb, if_false] at hr
            injection hr with hr1 hr2
            subst hr1 hr2
            exact Or.inr ⟨by simp, used, _, h.out _⟩
          | ok it =>
            rw [hcomb] at hr
            simp only [logCallback, reduceCtorEq, if_false, List.append_nil] at hr
            injection hr with hr1 hr2
            subst hr1 hr2
            exact Or.inl ⟨rfl, _, _, h.pair rfl rfl rfl hdec hl hcomb⟩
        · obtain ⟨ms, hm, hbody⟩ := body_broken logCallback st n l.dropLast item c hold hc hl
          rw [hbody] at hr
          simp only [reduceCtorEq, if_false] at hr
          injection hr with hr1 hr2
          subst hr2
          rcases code_class hcm with ⟨k1, k2, k3, k4⟩ | ⟨k1, k2, k3, k4⟩ | ⟨k0, k1, k2, k3, k4⟩
          · rw [k2, if_pos rfl] at hr1
            subst hr1
            exact Or.inl ⟨rfl, _, _, h.first (c := c) rfl rfl rfl k1 hdec fun _ _ => ⟨c, hm⟩⟩
          · rw [k2, if_neg (by simp)] at hr1
            subst hr1
            exact Or.inl ⟨rfl, _, _, h.drop rfl rfl rfl (.mismatch last_at (List.mem_append.2 (Or.inr hm))) fun _ _ => ⟨c, hm⟩⟩
          · rw [k2, if_neg (by simp)] at hr1
            subst hr1
            exact Or.inl ⟨rfl, _, _, h.drop rfl rfl rfl (.mismatch last_at (List.mem_append.2 (Or.inr hm))) fun _ _ => ⟨c, hm⟩⟩

theorem account_loop {ge : Option PyErr} : ∀ (rest : Lines) {done : Lines} {st st' : PState (List (Item × Nat))} {used : List (List Nat × Item)} {p : Option Nat} {e : Option PyErr},
    Inv done st used p → parseLoop logCallback ge st rest = (st', e) →
    ∃ k used' p', k ≤ rest.length ∧ (e = none → k = rest.length) ∧ Inv (done ++ rest.take k) st' used' p'
  | [], done, st, st', used, p, e, h, hr => by
    simp only [parseLoop] at hr
    injection hr with hr1 hr2
    subst hr1 hr2
    exact ⟨0, used, p, by simp, by simp, by simpa using h⟩
  | (n, l) :: rest, done, st, st', used, p, e, h, hr => by
    simp only [parseLoop] at hr
    cases hp : parseLine logCallback st n l with
    | mk s1 e1 =>
      rw [hp] at hr
      rcases account_step h hp with ⟨rfl, used', p', h'⟩ | ⟨he, used', p', h'⟩
      · simp only at hr
        obtain ⟨k, u, q, h1, h2, h3⟩ := account_loop rest h' hr
        exact ⟨k + 1, u, q, by simp; omega, fun e0 => by simp [h2 e0], by simpa using h3⟩
      · cases e1 with
        | none => exact absurd rfl he
        | some e1 =>
          simp only at hr
          injection hr with hr1 hr2
          subst hr1 hr2
          exact ⟨0, used', p', by simp, by simp, by simpa using h'⟩

theorem Inv.account {lines : Lines} {st : PState (List (Item × Nat))} {used : List (List Nat × Item)} {p : Option Nat} (h : Inv lines st used p) :
    Account lines (st.user.map (·.1)) st.out used :=
  ⟨h.items, h.made, h.order, fun i hi hu => by
    by_cases hp : some i = p
    · obtain ⟨c, h1, h2, h3, h4, h5⟩ := h.wait i hp.symm
      exact .last h3 h2 h5
    · exact (h.rest i hi hu hp).unused⟩

/-- C25: whatever the lines, every item handed on is made of one line or of one pair of lines, no line is used twice, the order is kept, and
    every line not used is blank, or reported, or is the first line of an incomplete last pair (about which nothing is said).  If the run stops with an
    exception this holds of the lines before the one where it stopped. -/
theorem C25_every_line {lines : Lines} {ge : Option PyErr} {st : PState (List (Item × Nat))} {e : Option PyErr}
    (h : parseFile logCallback [] (lines, ge) = (st, e)) :
    ∃ k used, k ≤ lines.length ∧ (e = none → k = lines.length) ∧ Account (lines.take k) (st.user.map (·.1)) st.out used := by
  have h0 : Inv [] ⟨c! "None", [], [], []⟩ [] none :=
    ⟨rfl, by simp, by simp, by simp, by simp, fun _ => rfl, by simp⟩
  obtain ⟨k, used, p, h1, h2, h3⟩ := account_loop lines h0 h
  exact ⟨k, used, h1, h2, by simpa using h3.account⟩


/-- C25: whatever is done with the items (`cb`), it is done with exactly these items, in this order; a RuntimeError does not stop the run, any other
    exception does. -/
theorem C25_callback {σ : Type} (cb : Callback σ) (u : σ) (gen : Lines × Option PyErr) :
    (parseFile cb u gen).1.user = (runCalls cb u (parseFile logCallback [] gen).1.user).1 ∧
    (parseFile cb u gen).2 = (match (runCalls cb u (parseFile logCallback [] gen).1.user).2 with | some e => some e | none => (parseFile logCallback [] gen).2) := by
  obtain ⟨calls, h1, h2, h3⟩ := loop_calls cb gen.2 gen.1 ⟨c! "None", [], u, []⟩ ⟨c! "None", [], [], []⟩ rfl rfl
  simp only [List.nil_append] at h1
  unfold parseFile
  rw [h1]
  exact ⟨h2, h3⟩

/-- C25: the one silent loss: a first line with nothing after it. -/
theorem C25_last_silent {n : Nat} {l : Str} {a : Item} {c : Char} (hd : Decoded [(n, l)] 0 a c) (hc : [c] ∈ firstCodes) (hid : idMessage l.dropLast = false) :
    parseFile logCallback [] ([(n, l)], none) = (⟨[c], a, [], []⟩, none) := by
  obtain ⟨n', l', h1, h2, h3⟩ := hd
  simp only [List.getElem?_cons_zero, Option.some.injEq, Prod.mk.injEq] at h1
  obtain ⟨rfl, rfl⟩ := h1
  have hne : l.dropLast ≠ [] := by intro e; rw [e] at h2; injection h2 with h2; rw [← h2] at h3; simp [get?_nil] at h3
  have hb : (reMatch blankRegex l.dropLast).isSome ≠ true := by
    intro hb
    have hnh := blank_match.1 hb
    have hlen : l.dropLast.length = 80 ∨ (reMatch headerRegex l.dropLast).isSome := by
      rcases decode_ok.1 h2 with h | ⟨_, _, m, hm, _⟩ | ⟨h80, _⟩
      · exact absurd h.1 hne
      · exact Or.inr (by simp [hm])
      · exact Or.inl h80
    rcases decode_ok.1 h2 with h | ⟨_, _, m, hm, rfl⟩ | ⟨h80, _, ret, hr, hcc⟩
    · exact hne h.1
    · simp [get?_put] at h3; subst h3; revert hc; decide
    · -- a blank line has no digits where the year should be
      have hy : ∀ x ∈ slice l.dropLast 15 19, isDec x = true := by
        rcases (decodeColumns_ok h80).1 hr with ⟨ho, _⟩ | ⟨ho, _⟩ | ⟨ho, _⟩ | ⟨ho, _⟩ | ⟨ho, _⟩
        all_goals exact ((common_ok _ _ _).1 ho).2.2.2.2.2.1
      obtain ⟨x, hx⟩ : ∃ x, l.dropLast[15]? = some x := ⟨l.dropLast[15], by simp [h80]⟩
      have hxd := hy x (by
        have : slice l.dropLast 15 16 = [x] := one_col hx
        have e := slice_append l.dropLast (show 15 ≤ 16 by omega) (show 16 ≤ 19 by omega)
        rw [← e, this]; simp)
      obtain ⟨k, hk | hk⟩ := hnh
      · rw [hk] at hx
        rw [List.getElem?_replicate] at hx
        split at hx <;> simp at hx
        subst hx; revert hxd; decide
      · rw [hk] at hx h80
        simp at h80
        rw [List.getElem?_append_left (by simp; omega), List.getElem?_replicate] at hx
        split at hx <;> simp at hx
        subst hx; revert hxd; decide
  have hcl : c ∈ c! "0A PeCBTMcEOHNnSVXxRrsv" := by
    obtain ⟨c', k1, k2⟩ := decode_code h2 hne
    rw [h3] at k1
    simp at k1
    rw [k1]; exact k2
  rcases code_class hcl with ⟨k1, k2, k3, k4⟩ | ⟨k1, k2, k3, k4⟩ | ⟨k0, k1, k2, k3, k4⟩
  · simp only [parseFile, parseLoop, parseLine, hb, h2, Bool.false_eq_true, if_false, body_first logCallback ⟨c! "None", [], [], []⟩ n l.dropLast a c rfl h3 k2 k3 k4, idMsgs, hid,
      reduceCtorEq, and_false, List.append_nil]
  · exact absurd hc (second_up k1).2.2
  · exact absurd hc k0

/-! ### C26 -/

/-- C26: a two-line observation is made only of a first line (R, S or V in column 15) and a later line with the lower-case letter in column 15 and the same
    designation, date and station columns (and transmitter columns, for radar); between them there are only blank or bad lines. -/
theorem C26_matching {lines : Lines} {i j : Nat} {item : Item} (h : Made lines [i, j] item) :
    ∃ n l n' l' c, lines[i]? = some (n, l) ∧ lines[j]? = some (n', l') ∧ i < j ∧ (c = 'R' ∨ c = 'S' ∨ c = 'V') ∧
      cols l.dropLast 15 15 = [c] ∧ cols l'.dropLast 15 15 = [asciiLower c] ∧
      cols l'.dropLast 1 12 = cols l.dropLast 1 12 ∧ cols l'.dropLast 16 32 = cols l.dropLast 16 32 ∧ cols l'.dropLast 78 80 = cols l.dropLast 78 80 ∧
      (c = 'R' → cols l'.dropLast 69 71 = cols l.dropLast 69 71) ∧ ∀ k, i < k → k < j → IsBlank lines k ∨ IsBad lines k := by
  cases h with
  | @pair _ _ a b _ c c' hij ha hc hb hl hcomb hbetween =>
    obtain ⟨n, l, a1, a2, a3⟩ := ha
    obtain ⟨n', l', b1, b2, b3⟩ := hb
    have hc' : c = 'R' ∨ c = 'S' ∨ c = 'V' := by simpa [firstCodes] using hc
    have hl' : c' = asciiLower c := by simpa [lowerStr] using hl
    have hne : l.dropLast ≠ [] := by intro e; rw [e] at a2; injection a2 with a2; rw [← a2] at a3; simp [get?_nil] at a3
    have hne' : l'.dropLast ≠ [] := by intro e; rw [e] at b2; injection b2 with b2; rw [← b2] at b3; simp [get?_nil] at b3
    have hh : a.get? (c! "headerKeyword") = none := by
      rcases decode_ok.1 a2 with h | ⟨_, _, m, _, rfl⟩ | ⟨h80, hm, ret, hr, hcc⟩
      · exact absurd h.1 hne
      · simp [get?_put] at a3; subst a3; simp at hc'
      · exact no_header h80 hr hcc
    have hh' : b.get? (c! "headerKeyword") = none := by
      rcases decode_ok.1 b2 with h | ⟨_, _, m, _, rfl⟩ | ⟨h80, hm, ret, hr, hcc⟩
      · exact absurd h.1 hne'
      · simp [get?_put] at b3; subst b3; rcases hc' with rfl | rfl | rfl <;> simp [asciiLower] at hl'
      · exact no_header h80 hr hcc
    obtain ⟨x, kind, hx1, hx2, hx3⟩ := (C27_columns a2 hne hh).2
    obtain ⟨y, kind', hy1, hy2, hy3⟩ := (C27_columns b2 hne' hh').2
    have ca := hx3 ⟨c! "code", 15, 15⟩ (by simp [commonFields])
    have cb := hy3 ⟨c! "code", 15, 15⟩ (by simp [commonFields])
    simp only [a3, b3, Option.some.injEq, Val.str.injEq] at ca cb
    rw [hx1] at ca; rw [hy1] at cb
    simp only [List.cons.injEq, and_true] at ca cb
    subst ca cb
    obtain ⟨⟨v1, p1, q1⟩, ⟨v2, p2, q2⟩, ⟨v3, p3, q3⟩, h4⟩ := combine_same hcomb
    have t1 := hx3 ⟨c! "totalid", 1, 12⟩ (by simp [commonFields])
    have t2 := hy3 ⟨c! "totalid", 1, 12⟩ (by simp [commonFields])
    have d1 := hx3 ⟨c! "date", 16, 32⟩ (by simp [commonFields])
    have d2 := hy3 ⟨c! "date", 16, 32⟩ (by simp [commonFields])
    have s1 := hx3 ⟨c! "stn", 78, 80⟩ (by simp [commonFields])
    have s2 := hy3 ⟨c! "stn", 78, 80⟩ (by simp [commonFields])
    simp only [q1, q2, q3, p1, p2, p3, Option.some.injEq] at t1 t2 d1 d2 s1 s2
    refine ⟨n, l, n', l', c, a1, b1, hij, hc', hx1, by rw [hy1, hl'], ?_, ?_, ?_, ?_, hbetween⟩
    · rw [t1] at t2; simpa using t2.symm
    · rw [d1] at d2; simpa using d2.symm
    · rw [s1] at s2; simpa using s2.symm
    · intro hR
      subst hR
      obtain ⟨v, w1, w2⟩ := h4 rfl
      have hk : kind = .radarFirst := by simpa [kindOf] using hx2.symm
      have hk' : kind' = .radarSecond := by subst hl'; simpa [kindOf, asciiLower] using hy2.symm
      subst hk hk'
      have r1 := hx3 ⟨c! "trx", 69, 71⟩ (by simp [ownFields])
      have r2 := hy3 ⟨c! "trx", 69, 71⟩ (by simp [ownFields])
      simp only [w1, w2, Option.some.injEq] at r1 r2
      rw [r1] at r2; simpa using r2.symm

/-- C26: what the observation contains: for a satellite or rover, the first line's fields and the second line's coordinates. -/
theorem C26_satellite {lines : Lines} {i j : Nat} {item : Item} (h : Made lines [i, j] item) (hc : item.get? (c! "code") ≠ some (.str (c! "R"))) :
    ∃ a b c c', Decoded lines i a c ∧ Decoded lines j b c' ∧
      ∀ k, item.get? k = if k ∈ [c! "sys", c! "ctr", c! "pos1", c! "pos2", c! "pos3"] then b.get? k else a.get? k := by
  cases h with
  | @pair _ _ a b _ c c' hij ha hc' hb hl hcomb hbetween =>
    refine ⟨a, b, c, c', ha, hb, ?_⟩
    have hc'' : c = 'R' ∨ c = 'S' ∨ c = 'V' := by simpa [firstCodes] using hc'
    obtain ⟨n, l, a1, a2, a3⟩ := ha
    rcases hc'' with rfl | rfl | rfl
    · exfalso
      apply hc
      rw [(combine_radar hcomb).2.2.2.2.2.2.2.2 (c! "code") (by decide)]
      exact a3
    · exact combine_site (Or.inl rfl) hcomb
    · exact combine_site (Or.inr rfl) hcomb

/-- C26: for radar, the first line's fields, and from the second line the uncertainties, the receiver and whether it is centre of mass. -/
theorem C26_radar {lines : Lines} {i j : Nat} {item : Item} (h : Made lines [i, j] item) (hc : item.get? (c! "code") = some (.str (c! "R"))) :
    ∃ a b, Decoded lines i a 'R' ∧ Decoded lines j b 'r' ∧
      item.get? (c! "delay") = a.get? (c! "delay") ∧ item.get? (c! "doppler") = a.get? (c! "shift") ∧ item.get? (c! "frq") = a.get? (c! "frq") ∧
      item.get? (c! "trx") = a.get? (c! "trx") ∧ item.get? (c! "rcv") = b.get? (c! "stn") ∧ item.get? (c! "obsTime") = a.get? (c! "obsTime") ∧
      item.get? (c! "rmsDelay") = b.get? (c! "delay uncertainty") ∧ item.get? (c! "rmsDoppler") = b.get? (c! "shift uncertainty") ∧
      (b.get? (c! "sc") = some (.str (c! "C")) → item.get? (c! "com") = some (.str (c! "1"))) ∧
      (b.get? (c! "sc") = some (.str (c! "S")) → item.get? (c! "com") = some (.str (c! "0"))) := by
  cases h with
  | @pair _ _ a b _ c c' hij ha hc' hb hl hcomb hbetween =>
    have hc'' : c = 'R' ∨ c = 'S' ∨ c = 'V' := by simpa [firstCodes] using hc'
    have hR : c = 'R' := by
      obtain ⟨n, l, a1, a2, a3⟩ := ha
      rcases hc'' with rfl | rfl | rfl
      · rfl
      · rw [combine_site (Or.inl rfl) hcomb, if_neg (by decide), a3] at hc; simp at hc
      · rw [combine_site (Or.inr rfl) hcomb, if_neg (by decide), a3] at hc; simp at hc
    subst hR
    have hl' : c' = 'r' := by simpa [lowerStr, asciiLower] using hl
    subst hl'
    obtain ⟨k1, k2, k3, k4, k5, k6, k7, k8, k9⟩ := combine_radar hcomb
    refine ⟨a, b, ha, hb, k9 _ (by decide), k7, k9 _ (by decide), k9 _ (by decide), k6, k9 _ (by decide), k3, k4, ?_, ?_⟩
    · intro e; rw [k1, e]; simp
    · intro e; rw [k1, e]; simp

/-- C26: if the second line has other columns the whole run stops with NameError (the program tries to print an undefined name). -/
theorem C26_mismatch_stops {σ : Type} (cb : Callback σ) (u : σ) {n n' : Nat} {l l' : Str} {rest : Lines} {ge : Option PyErr} {a b : Item} {c c' : Char}
    (ha : Decoded ((n, l) :: (n', l') :: rest) 0 a c) (hc : [c] ∈ firstCodes) (hb : Decoded ((n, l) :: (n', l') :: rest) 1 b c') (hl : [c'] = lowerStr [c])
    (hnb : ¬ IsBlank ((n, l) :: (n', l') :: rest) 0) (hnb' : ¬ IsBlank ((n, l) :: (n', l') :: rest) 1)
    (hdiff : cols l'.dropLast 1 12 ≠ cols l.dropLast 1 12 ∨ cols l'.dropLast 16 32 ≠ cols l.dropLast 16 32 ∨ cols l'.dropLast 78 80 ≠ cols l.dropLast 78 80) :
    (parseFile cb u ((n, l) :: (n', l') :: rest, ge)).2 = some .nameError := by
  have hmade := fun item hcomb => C26_matching (Made.pair (item := item) (show 0 < 1 by omega) ha hc hb hl hcomb (fun k a b => by omega))
  obtain ⟨n0, l0, a1, a2, a3⟩ := ha
  obtain ⟨n1, l1, b1, b2, b3⟩ := hb
  simp only [List.getElem?_cons_zero, List.getElem?_cons_succ, Option.some.injEq, Prod.mk.injEq] at a1 b1
  obtain ⟨rfl, rfl⟩ := a1
  obtain ⟨rfl, rfl⟩ := b1
  have hb0 : (reMatch blankRegex l.dropLast).isSome ≠ true := fun hb => hnb ⟨n, l, rfl, blank_match.1 hb⟩
  have hb1 : (reMatch blankRegex l'.dropLast).isSome ≠ true := fun hb => hnb' ⟨n', l', rfl, blank_match.1 hb⟩
  have hne : l.dropLast ≠ [] := by intro e; rw [e] at a2; injection a2 with a2; rw [← a2] at a3; simp [get?_nil] at a3
  have hcl : c ∈ c! "0A PeCBTMcEOHNnSVXxRrsv" := by
    obtain ⟨c', k1, k2⟩ := decode_code a2 hne
    rw [a3] at k1
    simp at k1
    rw [k1]; exact k2
  have hk : inStr [c] (c! "RSV") = true ∧ inStr [c] (c! "rsv") = false ∧ inStr [c] (c! "RrSsVv") = true := by
    rcases code_class hcl with ⟨k1, k2, k3, k4⟩ | ⟨k1, k2, k3, k4⟩ | ⟨k0, k1, k2, k3, k4⟩
    · exact ⟨k2, k3, k4⟩
    · exact absurd hc (second_up k1).2.2
    · exact absurd hc k0
  -- the two items have these columns, so `combine` reaches the comparison
  have hcomb : combine [c] a b = .error .nameError := by
    have hne' : l'.dropLast ≠ [] := by intro e; rw [e] at b2; injection b2 with b2; rw [← b2] at b3; simp [get?_nil] at b3
    have hc0 : c ≠ '0' := by rintro rfl; revert hc; decide
    have hc1 : c' ≠ '0' := by
      rintro rfl
      simp [firstCodes] at hc
      rcases hc with rfl | rfl | rfl <;> revert hl <;> decide
    have ca := (C27_columns a2 hne (by
      rcases decode_ok.1 a2 with h | ⟨_, _, m, _, rfl⟩ | ⟨h80, hm, ret, hr, hcc⟩
      · exact absurd h.1 hne
      · simp [get?_put] at a3; exact absurd a3.symm hc0
      · exact no_header h80 hr hcc)).2
    have cb := (C27_columns b2 hne' (by
      rcases decode_ok.1 b2 with h | ⟨_, _, m, _, rfl⟩ | ⟨h80, hm, ret, hr, hcc⟩
      · exact absurd h.1 hne'
      · simp [get?_put] at b3; exact absurd b3.symm hc1
      · exact no_header h80 hr hcc)).2
    obtain ⟨x, kx, _, _, hx⟩ := ca
    obtain ⟨y, ky, _, _, hy⟩ := cb
    have t1 := get_ok.2 (hx ⟨c! "totalid", 1, 12⟩ (by simp [commonFields]))
    have t2 := get_ok.2 (hy ⟨c! "totalid", 1, 12⟩ (by simp [commonFields]))
    have d1 := get_ok.2 (hx ⟨c! "date", 16, 32⟩ (by simp [commonFields]))
    have d2 := get_ok.2 (hy ⟨c! "date", 16, 32⟩ (by simp [commonFields]))
    have s1 := get_ok.2 (hx ⟨c! "stn", 78, 80⟩ (by simp [commonFields]))
    have s2 := get_ok.2 (hy ⟨c! "stn", 78, 80⟩ (by simp [commonFields]))
    simp only at t1 t2 d1 d2 s1 s2
    unfold combine
    simp only [t1, t2, d1, d2, s1, s2, bind, Except.bind, pure, Except.pure, Val.str.injEq]
    by_cases e1 : cols l'.dropLast 1 12 = cols l.dropLast 1 12
    · by_cases e2 : cols l'.dropLast 16 32 = cols l.dropLast 16 32
      · have e3 : cols l'.dropLast 78 80 ≠ cols l.dropLast 78 80 := by
          rcases hdiff with h | h | h
          · exact absurd e1 h
          · exact absurd e2 h
          · exact h
        simp [e1, e2, e3]
      · simp [e1, e2]
    · simp [e1]
  have hfc : (⟨[c], a, u, [] ++ idMsgs n l.dropLast [c]⟩ : PState σ).oldCode ∈ firstCodes := hc
  have e1 := body_first cb ⟨c! "None", [], u, []⟩ n l.dropLast a c rfl a3 hk.1 hk.2.1 hk.2.2
  have e2 := body_second cb ⟨[c], a, u, [] ++ idMsgs n l.dropLast [c]⟩ n' l'.dropLast b c' hfc b3 hl
  simp only [hcomb] at e2
  have p1 : parseLine cb ⟨c! "None", [], u, []⟩ n l = (⟨[c], a, u, [] ++ idMsgs n l.dropLast [c]⟩, none) := by
    unfold parseLine
    rw [if_neg hb0, a2]
    simp only [e1, reduceCtorEq, if_false]
  have p2 : (parseLine cb ⟨[c], a, u, [] ++ idMsgs n l.dropLast [c]⟩ n' l').2 = some .nameError := by
    unfold parseLine
    rw [if_neg hb1, b2]
    simp only [e2, reduceCtorEq, if_false, Option.some.injEq]
  unfold parseFile
  simp only [parseLoop, p1]
  cases hp : parseLine cb ⟨[c], a, u, [] ++ idMsgs n l.dropLast [c]⟩ n' l' with
  | mk s1 e =>
    rw [hp] at p2
    simp only at p2
    subst p2
    rfl

/-! ### concrete files -/

namespace Sample80
def satFirst : Str := c! "     K20Q04A  S2020 08 19.21988321 33 06.41 +11 58 10.3          22.2 Vu~44BVC51\n"
def satSecond : Str := c! "     K20Q04A  s2020 08 19.2198831 + 1234.5678 - 2345.6789 + 3456.7890        C51\n"
def satOther : Str := c! "     K20Q04A  s2020 08 19.2198831 + 1234.5678 - 2345.6789 + 3456.7890        C57\n"
def optical : Str := c! "     K20Q04A  C2020 08 18.33489021 33 58.060+12 13 25.77         22.58wU~44BVF51\n"
def header : Str := c! "COD F51\n"
def bad : Str := c! "this is not a line of the format\n"

/-- a run seen from outside: the codes and line numbers of the items handed on, the messages, the exception -/
def seen (lines : List Str) : List (Option Val × Nat) × List Msg × Option PyErr :=
  let r := parseFile logCallback [] ((List.range lines.length).map (· + 1) |>.zip lines, none)
  (r.1.user.map (fun x => (x.1.get? (c! "code"), x.2)), r.1.out, r.2)

/-- a pair -/
theorem pair : seen [header, satFirst, satSecond, optical] = ([(some (.str (c! "0")), 1), (some (.str (c! "S")), 3), (some (.str (c! "C")), 4)], [], none) := by decide +kernel
/-- C26: the second line need not follow immediately: a bad line or a blank line may stand between (the bad line is reported) -/
theorem not_adjacent : seen [satFirst, bad, c! "   \n", satSecond] = ([(some (.str (c! "S")), 4)], [.refused 2], none) := by decide +kernel
/-- C25: a valid line that follows an incomplete pair is lost with it (and reported): an observation -/
theorem next_lost : seen [satFirst, optical] = ([], [.mismatch 2 (c! "S") (c! "C")], none) := by decide +kernel
/-- C25: or a header -/
theorem header_lost : seen [satFirst, header] = ([], [.mismatch 2 (c! "S") (c! "0")], none) := by decide +kernel
/-- C25: a last first line is dropped without a message -/
theorem silent : seen [optical, satFirst] = ([(some (.str (c! "C")), 1)], [], none) := by decide +kernel
/-- C25: a second line alone is reported -/
theorem alone : seen [satSecond, optical] = ([(some (.str (c! "C")), 2)], [.mismatch 1 (c! "None") (c! "s")], none) := by decide +kernel
/-- C26: a second line with another station stops the run -/
theorem other : seen [optical, satFirst, satOther, optical] = ([(some (.str (c! "C")), 1)], [], some .nameError) := by decide +kernel
end Sample80

end Verif
