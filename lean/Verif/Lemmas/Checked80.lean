import Verif.Lemmas.Submit80
import Verif.Spec.Checked80
/-!
  Lemmas.Checked80 : validity of elements made of fields, for the general schema.
-/
namespace Verif.Checked
open Verif.Xml Verif.Spec Verif.Spec.Xsd Verif.Check Verif.Xsd Verif.Fields Verif.Submission
open Verif.Spec.Mpc80 (leafOf nodeOf val)

abbrev S : Schema := Verif.generalSchema

/-! ### two elements that exclude each other -/

/-- no word of `x` contains `a` -/
def lacks (a : Str) (f : Nat) (x : What) : Bool := known S f x && (letters S f x).all fun p => p.1 ≠ a

theorem lacks_sound {a : Str} {f : Nat} {x : What} {w : List Letter'} (h : lacks a f x = true) (hm : Matches S x w) : some a ∉ heads w := by
  simp only [lacks, Bool.and_eq_true, List.all_eq_true, decide_eq_true_eq] at h
  intro hw
  obtain ⟨l, hl, e⟩ := List.mem_map.1 hw
  obtain ⟨p, hp, rfl⟩ := letters_sound hm h.1 l hl
  simp only [Option.map_some, Option.some.injEq] at e
  exact h.2 p hp e

/-- no word of `x` contains both `a` and `b` -/
def apart (a b : Str) : Nat → What → Bool
  | 0, _ => false
  | f + 1, .one p =>
    match p with
    | .elemRef _ _ _ => true
    | .elemDecl _ _ _ _ => true
    | .groupRef r _ _ => apart a b f (.seq ((lookup S.groups r).getD []))
    | .seq _ ps => apart a b f (.seq ps)
    | .choice _ ps => ps.all fun p => apart a b f (.part p)
    | .all _ _ => false
    | .any => false
  | f + 1, .part p => !p.many && apart a b f (.one p)
  | _ + 1, .seq [] => true
  | f + 1, .seq (p :: ps) => apart a b f (.part p) && apart a b f (.seq ps) && (lacks a f (.part p) || lacks b f (.seq ps)) && (lacks b f (.part p) || lacks a f (.seq ps))
  | _ + 1, .all _ => false

theorem apart_sound {a b : Str} (hab : a ≠ b) {x : What} {w : List Letter'} (hm : Matches S x w) : ∀ {f : Nat}, apart a b f x = true → ¬ (some a ∈ heads w ∧ some b ∈ heads w) := by
  have step : ∀ {f : Nat} {x : What}, apart a b f x = true → ∃ g, f = g + 1 := by
    intro f x h
    cases f with
    | zero => simp [apart] at h
    | succ f => exact ⟨f, rfl⟩
  have one : ∀ {n t : Str}, ¬ (some a ∈ heads [some (n, t)] ∧ some b ∈ heads [some (n, t)]) := by
    rintro n t ⟨h1, h2⟩
    simp [heads] at h1 h2
    exact hab (h1.trans h2.symm)
  induction hm with
  | ref e => intro f h; exact one
  | decl => intro f h; exact one
  | group e _ ih =>
    intro f h
    obtain ⟨f, rfl⟩ := step h
    simp only [apart, e, Option.getD_some] at h
    exact ih h
  | sequence _ ih =>
    intro f h
    obtain ⟨f, rfl⟩ := step h
    exact ih (by simpa [apart] using h)
  | choice hp _ ih =>
    intro f h
    obtain ⟨f, rfl⟩ := step h
    simp only [apart] at h
    exact ih (List.all_eq_true.1 h _ hp)
  | unordered _ _ =>
    intro f h
    obtain ⟨f, rfl⟩ := step h
    simp [apart] at h
  | any => intro f h; simp [heads]
  | skip _ => intro f h; simp [heads]
  | once _ ih =>
    intro f h
    obtain ⟨f, rfl⟩ := step h
    simp only [apart, Bool.and_eq_true] at h
    exact ih h.2
  | more hm _ _ _ _ =>
    intro f h
    obtain ⟨f, rfl⟩ := step h
    simp [apart, hm] at h
  | nil => intro f h; simp [heads]
  | @cons p ps w w' m1 m2 i1 i2 =>
    intro f h
    obtain ⟨f, rfl⟩ := step h
    simp only [apart, Bool.and_eq_true, Bool.or_eq_true] at h
    obtain ⟨⟨⟨h1, h2⟩, h3⟩, h4⟩ := h
    have k1 := i1 h1
    have k2 := i2 h2
    rintro ⟨ha, hb⟩
    simp only [heads, List.map_append, List.mem_append] at ha hb
    rcases ha with ha | ha <;> rcases hb with hb | hb
    · exact k1 ⟨ha, hb⟩
    · rcases h3 with h3 | h3
      · exact lacks_sound h3 m1 ha
      · exact lacks_sound h3 m2 hb
    · rcases h4 with h4 | h4
      · exact lacks_sound h4 m1 hb
      · exact lacks_sound h4 m2 ha
    · exact k2 ⟨ha, hb⟩
  | none => intro f h; simp [heads]
  | pick _ _ _ _ =>
    intro f h
    obtain ⟨f, rfl⟩ := step h
    simp [apart] at h

/-! ### types -/

/-- the type of the element of a name -/
def typeOf (n : Str) : Str := (lookup S.elements n).getD []
def letter (n : Str) : Letter' := some (n, typeOf n)
def contentOf (T : Str) : List Particle := ((lookup S.complex T).map (·.content)).getD []
def plainType (T : Str) : Bool := ((lookup S.complex T).map fun c => c.attributes.isEmpty).getD false && known S 40 (.seq (contentOf T))
def kidsOf (T : Str) : List (Str × Str) := letters S 40 (.seq (contentOf T))

theorem type_of {n : Str} (h : (lookup S.elements n).isSome = true) : lookup S.elements n = some (typeOf n) := by
  obtain ⟨t, ht⟩ := Option.isSome_iff_exists.1 h
  simp [typeOf, ht]

theorem complex_of {T : Str} (h : plainType T = true) : ∃ c, lookup S.complex T = some c ∧ c.attributes = [] ∧ contentOf T = c.content ∧ known S 40 (.seq c.content) = true := by
  unfold plainType at h
  cases e : lookup S.complex T with
  | none => simp [e] at h
  | some c =>
    have : contentOf T = c.content := by simp [contentOf, e]
    simp only [e, Option.map_some, Option.getD_some, Bool.and_eq_true, this] at h
    exact ⟨c, rfl, by simpa using h.1, this, h.2⟩

/-- an element of sub-elements -/
theorem node_of {T tag : Str} {kids : List Elem} {w : List Letter'} (hT : plainType T = true) (hm : Matches S (.seq (contentOf T)) w) (hk : Valid xsd S (.kids w kids)) :
    Valid xsd S (.typed T (nodeOf tag kids)) := by
  obtain ⟨c, h1, h2, h3, -⟩ := complex_of hT
  exact .complex h1 rfl (by rw [h2]; exact ⟨by simp, by simp⟩) (h3 ▸ hm) hk

theorem node_kids {T : Str} {e : Elem} (hT : plainType T = true) (h : Valid xsd S (.typed T e)) :
    ∃ w, Matches S (.seq (contentOf T)) w ∧ Valid xsd S (.kids w e.kids) ∧ none ∉ w ∧ ∀ k ∈ e.kids, ∃ t, (k.tag, t) ∈ kidsOf T ∧ Valid xsd S (.typed t k) := by
  obtain ⟨c, h1, -, h3, h4⟩ := complex_of hT
  obtain ⟨-, -, w, k1, k2, k3⟩ := complex_kids h1 h4 h
  unfold kidsOf
  rw [h3]
  refine ⟨w, k1, k2, fun hn => ?_, k3⟩
  obtain ⟨p, -, e⟩ := letters_sound k1 h4 _ hn
  cases e

theorem node_needs {f : Nat} {T : Str} {e : Elem} (hT : plainType T = true) (h : Valid xsd S (.typed T e)) {P : Str → Bool} (hn : needs S P f (.seq (contentOf T)) = true) : ∃ n, P n = true ∧ n ∈ e.kids.map Elem.tag := by
  obtain ⟨w, h1, h2, -, -⟩ := node_kids hT h
  obtain ⟨n, hP, hw⟩ := needs_sound S P f _ hn w h1
  exact ⟨n, hP, kids_mem h2 hw⟩

theorem node_pairs {f : Nat} {T : Str} {e : Elem} (hT : plainType T = true) (h : Valid xsd S (.typed T e)) {n m : Str} (hn : pairs S (· = n) (· = m) f (.seq (contentOf T)) = true)
    (hk : n ∈ e.kids.map Elem.tag) : m ∈ e.kids.map Elem.tag := by
  obtain ⟨w, h1, h2, h3, -⟩ := node_kids hT h
  obtain ⟨m', e', hw⟩ := pairs_sound S _ _ h1 hn n (by simp) (Xsd.kids_heads h2 h3 hk)
  simp only [decide_eq_true_eq] at e'
  exact e' ▸ kids_mem h2 hw

theorem node_apart {f : Nat} {T : Str} {e : Elem} (hT : plainType T = true) (h : Valid xsd S (.typed T e)) {n m : Str} (hnm : n ≠ m) (hn : apart n m f (.seq (contentOf T)) = true) :
    ¬ (n ∈ e.kids.map Elem.tag ∧ m ∈ e.kids.map Elem.tag) := by
  obtain ⟨w, h1, h2, h3, -⟩ := node_kids hT h
  rintro ⟨k1, k2⟩
  exact apart_sound hnm h1 hn ⟨Xsd.kids_heads h2 h3 k1, Xsd.kids_heads h2 h3 k2⟩

/-! ### records -/

/-- the field has the value -/
def Field (n v : Str) : Prop := ValidDocument xsd S (.mk n (some v) [] [])

theorem field_typed {n v : Str} (h : Field n v) : Valid xsd S (.typed (typeOf n) (.mk n (some v) [] [])) := by
  obtain ⟨t, h1, h2⟩ := h
  have : typeOf n = t := by simp [typeOf, show lookup S.elements n = some t from h1]
  rw [this]; exact h2

theorem leaf_eq {n v : Str} (h : v ≠ []) : leafOf n v = .mk n (some v) [] [] := by simp [leafOf, h]

/-- elements made of fields -/
theorem record_of {T tag : Str} {vals : List (Str × Str)} (hT : plainType T = true) (hm : Matches S (.seq (contentOf T)) (vals.map fun x => letter x.1)) (hv : ∀ x ∈ vals, x.2 ≠ [] ∧ Field x.1 x.2) :
    Valid xsd S (.typed T (nodeOf tag (vals.map fun x => leafOf x.1 x.2))) := by
  refine node_of hT hm ?_
  have := validKids (F := xsd) (S := S) (fun e => typeOf e.tag) (vals.map fun x => leafOf x.1 x.2) (by
    intro e he
    obtain ⟨x, hx, rfl⟩ := List.mem_map.1 he
    obtain ⟨h1, h2⟩ := hv x hx
    rw [leaf_eq h1]
    exact field_typed h2)
  rw [List.map_map] at this
  exact this

/-- sub-elements of a type are declared elements of simple types -/
def fieldsOnly (T : Str) (except : List Str) : Bool := (kidsOf T).all fun p => except.contains p.1 || (lookup S.elements p.1 = some p.2 && (lookup S.complex p.2).isNone)

theorem record_field {T tag : Str} {vals : List (Str × Str)} {except : List Str} (hT : plainType T = true) (hf : fieldsOnly T except = true)
    (h : Valid xsd S (.typed T (nodeOf tag (vals.map fun x => leafOf x.1 x.2)))) {x : Str × Str} (hx : x ∈ vals) (hne : x.2 ≠ []) (he : x.1 ∉ except) : Field x.1 x.2 := by
  obtain ⟨-, -, -, -, h3⟩ := node_kids hT h
  obtain ⟨t, ht, hv⟩ := h3 (leafOf x.1 x.2) (List.mem_map.2 ⟨x, hx, rfl⟩)
  rw [leaf_eq hne] at ht hv
  have := List.all_eq_true.1 hf _ ht
  simp only [Bool.or_eq_true, Bool.and_eq_true, decide_eq_true_eq, List.contains_iff_mem] at this
  rcases this with h | h
  · exact absurd h he
  · exact ⟨t, h.1, hv⟩

/-! ### words of content models -/

theorem seq_cons {p : Particle} {ps : List Particle} {w w' : List Letter'} (h : Matches S (.part p) w) (h' : Matches S (.seq ps) w') : Matches S (.seq (p :: ps)) (w ++ w') := .cons h h'
theorem part_skip {p : Particle} (h : p.opt = true) : Matches S (.part p) [] := .skip h

theorem part_one {n : Str} {o m : Bool} (h : (lookup S.elements n).isSome = true) : Matches S (.part (.elemRef n o m)) [letter n] := .once (.ref (type_of h))

theorem part_val {n t : Str} {m : Bool} (h : (lookup S.elements n).isSome = true) : Matches S (.part (.elemRef n true m)) ((val n t).map fun x => letter x.1) := by
  unfold val
  by_cases ht : t = []
  · rw [if_pos ht]; exact .skip rfl
  · rw [if_neg ht]; exact part_one h

end Verif.Checked
