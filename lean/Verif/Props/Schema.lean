import Verif.Master
import Verif.MasterData
import Verif.Lemmas.SchemaCheck
/-!
  C34: what is valid for submission is valid in general.
-/
namespace Verif
open Verif.Xml Verif.Spec Verif.Master

namespace C34

/-- the content model item `e` becomes `p` in the submission schema and `q` in the general one -/
def RelP (p q : Particle) : Prop := ∃ e : Elem, particles .submit e = [p] ∧ particles .general e = [q]

def Rel : What → What → Prop
  | .one p, .one q => RelP p q
  | .part p, .part q => RelP p q
  | .seq ps, .seq qs => ∃ es, ps = particlesL .submit es ∧ qs = particlesL .general es
  | .all ps, .all qs => ∃ es, ps = particlesL .submit es ∧ qs = particlesL .general es
  | _, _ => False

theorem noSubmit_not_opt {tag text attrib} (h : noSubmit (.mk tag text attrib []) = true) : isOpt .general (.mk tag text attrib []) = true := by
  unfold isOpt; simp [h]

/-- the two readings of one item -/
inductive Both : List Particle → List Particle → Prop
  | nil : Both [] []
  | omitted {q : Particle} : q.opt = true → Both [] [q]
  | decl (n t : Str) (o o' m : Bool) : (o = true → o' = true) → Both [.elemDecl n t o m] [.elemDecl n t o' m]
  | ref (r : Str) (o o' m : Bool) : (o = true → o' = true) → Both [.elemRef r o m] [.elemRef r o' m]
  | group (r : Str) (o o' m : Bool) : (o = true → o' = true) → Both [.groupRef r o m] [.groupRef r o' m]
  | seq (m : Bool) (es : List Elem) : Both [.seq m (particlesL .submit es)] [.seq m (particlesL .general es)]
  | choice (m : Bool) (es : List Elem) : Both [.choice m (particlesL .submit es)] [.choice m (particlesL .general es)]
  | all (m : Bool) (es : List Elem) : Both [.all m (particlesL .submit es)] [.all m (particlesL .general es)]
  | any : Both [.any] [.any]

theorem isOpt_mono {e : Elem} (h : isOpt .submit e = true) : isOpt .general e = true := by
  unfold isOpt at *
  simp at *
  exact Or.inr h

theorem both (e : Elem) : Both (particles .submit e) (particles .general e) := by
  obtain ⟨tag, text, attrib, kids⟩ := e
  simp only [particles]
  by_cases h1 : tag = c! "element" ∧ (attr (.mk tag text attrib []) (c! "name")).isSome ∧ (attr (.mk tag text attrib []) (c! "type")).isSome ∧ ¬ noSubmit (.mk tag text attrib [])
  · rw [if_pos h1, if_pos h1]
    exact .decl _ _ _ _ _ isOpt_mono
  rw [if_neg h1, if_neg h1]
  by_cases h2 : tag = c! "element" ∧ (attr (.mk tag text attrib []) (c! "ref")).isSome
  · have hg : tag ≠ c! "group" := by rw [h2.1]; decide
    have h4 : tag ≠ c! "sequence" := by rw [h2.1]; decide
    have h5 : tag ≠ c! "choice" := by rw [h2.1]; decide
    have h6 : tag ≠ c! "all" := by rw [h2.1]; decide
    have h7 : tag ≠ c! "any" := by rw [h2.1]; decide
    rw [if_pos (c := tag = c! "element" ∧ _ ∧ ¬ (Mode.general = .submit ∧ _)) ⟨h2.1, h2.2, fun h => by simp at h⟩]
    by_cases h3 : noSubmit (.mk tag text attrib []) = true
    · rw [if_neg (fun h => h.2.2 ⟨trivial, h3⟩), if_neg (fun h => hg h.1), if_neg h4, if_neg h5, if_neg h6, if_neg h7]
      exact .omitted (noSubmit_not_opt h3)
    · rw [if_pos ⟨h2.1, h2.2, fun h => h3 h.2⟩]
      exact .ref _ _ _ _ isOpt_mono
  rw [if_neg (fun h => h2 ⟨h.1, h.2.1⟩), if_neg (c := tag = c! "element" ∧ _ ∧ ¬ (Mode.general = .submit ∧ _)) (fun h => h2 ⟨h.1, h.2.1⟩)]
  by_cases h2 : tag = c! "group" ∧ (attr (.mk tag text attrib []) (c! "ref")).isSome
  · have h4 : tag ≠ c! "sequence" := by rw [h2.1]; decide
    have h5 : tag ≠ c! "choice" := by rw [h2.1]; decide
    have h6 : tag ≠ c! "all" := by rw [h2.1]; decide
    have h7 : tag ≠ c! "any" := by rw [h2.1]; decide
    rw [if_pos (c := tag = c! "group" ∧ _ ∧ ¬ (Mode.general = .submit ∧ _)) ⟨h2.1, h2.2, fun h => by simp at h⟩]
    by_cases h3 : noSubmit (.mk tag text attrib []) = true
    · rw [if_neg (fun h => h.2.2 ⟨trivial, h3⟩), if_neg h4, if_neg h5, if_neg h6, if_neg h7]
      exact .omitted (noSubmit_not_opt h3)
    · rw [if_pos ⟨h2.1, h2.2, fun h => h3 h.2⟩]
      exact .group _ _ _ _ isOpt_mono
  rw [if_neg (fun h => h2 ⟨h.1, h.2.1⟩), if_neg (c := tag = c! "group" ∧ _ ∧ ¬ (Mode.general = .submit ∧ _)) (fun h => h2 ⟨h.1, h.2.1⟩)]
  split
  · exact .seq _ _
  split
  · exact .choice _ _
  split
  · exact .all _ _
  split
  · exact .any
  · exact .nil

theorem particlesL_append (mode : Mode) (a b : List Elem) : particlesL mode (a ++ b) = particlesL mode a ++ particlesL mode b := by
  induction a with
  | nil => rfl
  | cons e a ih => simp [particlesL, ih]

theorem relP_of_both {e : Elem} {p : Particle} (h : particles .submit e = [p]) : ∃ q, particles .general e = [q] := by
  have hb := both e
  generalize h2 : particles .general e = g at hb
  rw [h] at hb
  cases hb <;> exact ⟨_, rfl⟩

theorem RelP.opt {p q : Particle} (h : RelP p q) : p.opt = true → q.opt = true := by
  obtain ⟨e, h1, h2⟩ := h
  have hb := both e
  rw [h1, h2] at hb
  cases hb <;> simp_all [Particle.opt]

theorem RelP.many {p q : Particle} (h : RelP p q) : p.many = q.many := by
  obtain ⟨e, h1, h2⟩ := h
  have hb := both e
  rw [h1, h2] at hb
  cases hb <;> simp_all [Particle.many]

/-- items before the first one that stays are optional in general -/
theorem uncons : ∀ {es : List Elem} {p : Particle} {ps : List Particle}, particlesL .submit es = p :: ps →
    ∃ (os : List Particle) (q : Particle) (rest : List Elem), particlesL .general es = os ++ q :: particlesL .general rest ∧ (∀ o ∈ os, o.opt = true) ∧
      RelP p q ∧ ps = particlesL .submit rest
  | [], _, _, h => by simp [particlesL] at h
  | e :: es, p, ps, h => by
    simp only [particlesL] at h
    have hb := both e
    generalize hs : particles .submit e = s at hb
    generalize hg : particles .general e = g at hb
    cases hb with
    | nil =>
      rw [hs] at h
      obtain ⟨os, q, rest, e1, e2, e3, e4⟩ := uncons h
      exact ⟨os, q, rest, by simp [particlesL, hg, e1], e2, e3, e4⟩
    | @omitted x ho =>
      rw [hs] at h
      obtain ⟨os, q, rest, e1, e2, e3, e4⟩ := uncons h
      refine ⟨x :: os, q, rest, by simp [particlesL, hg, e1], ?_, e3, e4⟩
      intro o hm
      rcases List.mem_cons.mp hm with h | h
      · rw [h]; exact ho
      · exact e2 o h
    | _ =>
      rw [hs] at h
      simp at h
      obtain ⟨h1, h2⟩ := h
      subst h1
      exact ⟨[], _, es, by simp [particlesL, hg], by simp, ⟨e, hs, hg⟩, h2.symm⟩

theorem allOpt : ∀ {es : List Elem}, particlesL .submit es = [] → ∀ q ∈ particlesL .general es, q.opt = true
  | [], _, q, hq => by simp [particlesL] at hq
  | e :: es, h, q, hq => by
    simp only [particlesL, List.append_eq_nil_iff] at h
    simp only [particlesL, List.mem_append] at hq
    rcases hq with hq | hq
    · have hb := both e
      rw [h.1] at hb
      generalize hg : particles .general e = g at hb hq
      cases hb with
      | nil => simp at hq
      | omitted ho => simp at hq; subst hq; exact ho
    · exact allOpt h.2 q hq

theorem mem {es : List Elem} {p : Particle} (h : p ∈ particlesL .submit es) : ∃ q ∈ particlesL .general es, RelP p q := by
  induction es with
  | nil => simp [particlesL] at h
  | cons e es ih =>
    simp only [particlesL, List.mem_append] at h ⊢
    rcases h with h | h
    · have hb := both e
      generalize hs : particles .submit e = s at hb h
      generalize hg : particles .general e = g at hb
      cases hb <;> simp at h <;> (subst h; exact ⟨_, .inl (by simp), e, hs, hg⟩)
    · obtain ⟨q, h1, h2⟩ := ih h
      exact ⟨q, .inr h1, h2⟩

theorem seq_skip {S : Schema} {os ps : List Particle} {w : List Letter'} (ho : ∀ o ∈ os, o.opt = true) (h : Matches S (.seq ps) w) : Matches S (.seq (os ++ ps)) w := by
  induction os with
  | nil => exact h
  | cons o os ih =>
    have := Matches.cons (.skip (ho o (by simp))) (ih (fun x hx => ho x (by simp [hx])))
    simpa using this

theorem all_skip {S : Schema} {os ps : List Particle} {w : List Letter'} (ho : ∀ o ∈ os, o.opt = true) (h : Matches S (.all ps) w) : Matches S (.all (os ++ ps)) w := by
  induction os with
  | nil => exact h
  | cons o os ih =>
    have := Matches.pick (a := []) (b := os ++ ps) (.skip (ho o (by simp))) (ih (fun x hx => ho x (by simp [hx])))
    simpa using this

/-- taking out the item `p` -/
theorem unpick : ∀ {a : List Particle} {es : List Elem} {p : Particle} {b : List Particle}, particlesL .submit es = a ++ p :: b →
    ∃ (es1 : List Elem) (e : Elem) (es2 : List Elem), es = es1 ++ e :: es2 ∧ particlesL .submit es1 = a ∧ particles .submit e = [p] ∧ particlesL .submit es2 = b := by
  intro a es
  induction es generalizing a with
  | nil => intro p b h; simp [particlesL] at h
  | cons e es ih =>
    intro p b h
    simp only [particlesL] at h
    have hb := both e
    have hlen : particles .submit e = [] ∨ ∃ x, particles .submit e = [x] := by
      generalize particles .submit e = s at hb
      generalize particles .general e = g at hb
      cases hb <;> simp
    rcases hlen with h0 | ⟨x, h0⟩
    · rw [h0, List.nil_append] at h
      obtain ⟨es1, e', es2, h1, h2, h3, h4⟩ := ih h
      exact ⟨e :: es1, e', es2, by simp [h1], by simp [particlesL, h0, h2], h3, h4⟩
    · rw [h0] at h
      cases a with
      | nil =>
        simp at h
        exact ⟨[], e, es, rfl, rfl, by rw [h0, h.1], h.2⟩
      | cons y a =>
        simp at h
        obtain ⟨es1, e', es2, h1, h2, h3, h4⟩ := ih h.2
        exact ⟨e :: es1, e', es2, by simp [h1], by simp [particlesL, h0, h2, h.1], h3, h4⟩

theorem lookup_map {α β γ : Type} (l : List α) (key : α → Str) (f : α → β) (g : α → γ) (k : Str) {v : β}
    (h : lookup (l.map fun t => (key t, f t)) k = some v) : ∃ t ∈ l, v = f t ∧ lookup (l.map fun t => (key t, g t)) k = some (g t) := by
  induction l with
  | nil => simp [Spec.lookup] at h
  | cons t l ih =>
    by_cases hk : key t = k
    · simp [Spec.lookup, hk] at h ⊢
      left; exact h.symm
    · simp only [Spec.lookup, List.map_cons, List.find?, hk, decide_false] at h ⊢
      obtain ⟨t', h1, h2, h3⟩ := ih h
      exact ⟨t', by simp [h1], h2, h3⟩

theorem lookup_map_none {α β γ : Type} (l : List α) (key : α → Str) (f : α → β) (g : α → γ) (k : Str)
    (h : lookup (l.map fun t => (key t, f t)) k = none) : lookup (l.map fun t => (key t, g t)) k = none := by
  induction l with
  | nil => rfl
  | cons t l ih =>
    by_cases hk : key t = k
    · simp [Spec.lookup, hk] at h
    · simp only [Spec.lookup, List.map_cons, List.find?, hk, decide_false] at h ⊢
      exact ih h

/-- every sequence of sub-elements the submission schema allows, the general schema allows -/
theorem matches_mono (m : Elem) {x : What} {w : List Letter'} (h : Matches (schema .submit m) x w) : ∀ y, Rel x y → Matches (schema .general m) y w := by
  induction h with
  | ref hl =>
    rintro (q | q | q | q) hr <;> simp only [Rel] at hr
    obtain ⟨e, h1, h2⟩ := hr
    have hb := both e; rw [h1, h2] at hb; cases hb
    exact .ref hl
  | decl =>
    rintro (q | q | q | q) hr <;> simp only [Rel] at hr
    obtain ⟨e, h1, h2⟩ := hr
    have hb := both e; rw [h1, h2] at hb; cases hb
    exact .decl
  | group hl _ ih =>
    rintro (q | q | q | q) hr <;> simp only [Rel] at hr
    obtain ⟨e, h1, h2⟩ := hr
    have hb := both e; rw [h1, h2] at hb; cases hb
    obtain ⟨t, _, e1, e2⟩ := lookup_map _ (fun t => (attr t (c! "name")).getD []) (content .submit) (content .general) _ hl
    exact .group e2 (ih (.seq _) ⟨_, e1, rfl⟩)
  | sequence _ ih =>
    rintro (q | q | q | q) hr <;> simp only [Rel] at hr
    obtain ⟨e, h1, h2⟩ := hr
    have hb := both e; rw [h1, h2] at hb
    generalize hp : [Particle.seq _ _] = l at hb
    cases hb <;> simp at hp
    obtain ⟨rfl, hp⟩ := hp
    exact .sequence (ih (.seq _) ⟨_, hp, rfl⟩)
  | choice hm _ ih =>
    rintro (q | q | q | q) hr <;> simp only [Rel] at hr
    obtain ⟨e, h1, h2⟩ := hr
    have hb := both e; rw [h1, h2] at hb
    generalize hp : [Particle.choice _ _] = l at hb
    cases hb <;> simp at hp
    obtain ⟨rfl, hp⟩ := hp
    subst hp
    obtain ⟨q, h3, h4⟩ := mem hm
    exact .choice h3 (ih (.part q) h4)
  | unordered _ ih =>
    rintro (q | q | q | q) hr <;> simp only [Rel] at hr
    obtain ⟨e, h1, h2⟩ := hr
    have hb := both e; rw [h1, h2] at hb
    generalize hp : [Particle.all _ _] = l at hb
    cases hb <;> simp at hp
    obtain ⟨rfl, hp⟩ := hp
    exact .unordered (ih (.all _) ⟨_, hp, rfl⟩)
  | any =>
    rintro (q | q | q | q) hr <;> simp only [Rel] at hr
    obtain ⟨e, h1, h2⟩ := hr
    have hb := both e; rw [h1, h2] at hb; cases hb
    exact .any
  | skip ho =>
    rintro (q | q | q | q) hr <;> simp only [Rel] at hr
    exact .skip (hr.opt ho)
  | once _ ih =>
    rintro (q | q | q | q) hr <;> simp only [Rel] at hr
    exact .once (ih (.one q) hr)
  | more hm _ _ ih1 ih2 =>
    rintro (q | q | q | q) hr <;> simp only [Rel] at hr
    exact .more (hr.many ▸ hm) (ih1 (.one q) hr) (ih2 (.part q) hr)
  | nil =>
    rintro (q | q | q | q) hr <;> simp only [Rel] at hr
    obtain ⟨es, h1, h2⟩ := hr
    have := seq_skip (S := schema .general m) (allOpt h1.symm) .nil
    rw [h2]; simpa using this
  | cons _ _ ih1 ih2 =>
    rintro (q | q | q | q) hr <;> simp only [Rel] at hr
    obtain ⟨es, h1, h2⟩ := hr
    obtain ⟨os, q', rest, e1, e2, e3, e4⟩ := uncons h1.symm
    rw [h2, e1]
    exact seq_skip e2 (.cons (ih1 (.part q') e3) (ih2 (.seq _) ⟨rest, e4, rfl⟩))
  | none =>
    rintro (q | q | q | q) hr <;> simp only [Rel] at hr
    obtain ⟨es, h1, h2⟩ := hr
    have := all_skip (S := schema .general m) (allOpt h1.symm) .none
    rw [h2]; simpa using this
  | pick _ _ ih1 ih2 =>
    rintro (q | q | q | q) hr <;> simp only [Rel] at hr
    obtain ⟨es, h1, h2⟩ := hr
    obtain ⟨es1, e, es2, e1, e2, e3, e4⟩ := unpick h1.symm
    obtain ⟨q', hq⟩ := relP_of_both e3
    rw [h2, e1, particlesL_append]
    simp only [particlesL, hq, List.singleton_append]
    exact .pick (ih1 (.part q') ⟨e, e3, hq⟩) (ih2 (.all _) ⟨es1 ++ es2, by rw [particlesL_append, e2, e4], by rw [particlesL_append]⟩)

end C34

/-- in the master file, each type that submissions may use as a union offers no more alternatives there than in general -/
def UnionsShrink (m : Elem) : Prop :=
  ∀ t ∈ types m, t.tag = c! "simpletype" → ∀ ms, (simpleType .submit t).union = some ms →
    ∃ ms', (simpleType .general t).union = some ms' ∧ ∀ x ∈ ms, x ∈ ms'

namespace C34

theorem hasType_mono {F : Facets} {m : Elem} (hu : UnionsShrink m) {t x : Str} (h : HasType F (schema .submit m) t x) : HasType F (schema .general m) t x := by
  induction h with
  | builtin hl hb => exact .builtin (lookup_map_none _ (fun t => (attr t (c! "name")).getD []) (simpleType .submit) (simpleType .general) _ hl) hb
  | union hl hs hm _ ih =>
    obtain ⟨t, ht, e1, e2⟩ := lookup_map _ (fun t => (attr t (c! "name")).getD []) (simpleType .submit) (simpleType .general) _ hl
    subst e1
    simp only [List.mem_filter, decide_eq_true_eq] at ht
    obtain ⟨ms', h1, h2⟩ := hu t ht.1 ht.2 _ hs
    exact .union e2 h1 (h2 _ hm) ih
  | restriction hl hs _ hf ih =>
    obtain ⟨t, ht, e1, e2⟩ := lookup_map _ (fun t => (attr t (c! "name")).getD []) (simpleType .submit) (simpleType .general) _ hl
    subst e1
    exact .restriction e2 hs ih hf

theorem valid_mono {F : Facets} {m : Elem} (hu : UnionsShrink m) {c : Check} (h : Valid F (schema .submit m) c) : Valid F (schema .general m) c := by
  induction h with
  | simple hl ht =>
    refine .simple ?_ (hasType_mono hu ht)
    exact lookup_map_none _ (fun t => (attr t (c! "name")).getD []) (fun t => (⟨content .submit t, attributes t⟩ : ComplexType)) (fun t => (⟨content .general t, attributes t⟩ : ComplexType)) _ hl
  | complex hl hx ha hm _ ih =>
    obtain ⟨t, ht, e1, e2⟩ := lookup_map _ (fun t => (attr t (c! "name")).getD []) (fun t => (⟨content .submit t, attributes t⟩ : ComplexType)) (fun t => (⟨content .general t, attributes t⟩ : ComplexType)) _ hl
    subst e1
    refine .complex e2 hx ⟨fun a haa => ?_, ha.2⟩ (matches_mono m hm (.seq _) ⟨_, rfl, rfl⟩) ih
    obtain ⟨d, h1, h2, h3⟩ := ha.1 a haa
    exact ⟨d, h1, h2, hasType_mono hu h3⟩
  | known hl _ ih => exact .known hl ih
  | unknown hl _ ih => exact .unknown hl ih
  | laxNil => exact .laxNil
  | laxCons _ _ ih1 ih2 => exact .laxCons ih1 ih2
  | nil => exact .nil
  | cons ht _ _ ih1 ih2 => exact .cons ht ih1 ih2
  | consAny _ _ ih1 ih2 => exact .consAny ih1 ih2

end C34

/-- C34: for every master file whose unions only shrink, whatever the built-in types
    and facets mean, a document valid for submission is valid in general. -/
theorem C34_submit_general (F : Facets) (m root : Elem) (hu : UnionsShrink m) (h : ValidDocument F (schema .submit m) root) : ValidDocument F (schema .general m) root := by
  obtain ⟨t, h1, h2⟩ := h
  exact ⟨t, h1, C34.valid_mono hu h2⟩

/-! ### the master file of ADES -/

def unionsShrinkB (m : Elem) : Bool :=
  (types m).all fun t => t.tag != c! "simpletype" || match (simpleType .submit t).union with
    | none => true
    | some ms => match (simpleType .general t).union with
      | none => false
      | some ms' => ms.all fun x => ms'.contains x

theorem unionsShrinkB_sound {m : Elem} (h : unionsShrinkB m = true) : UnionsShrink m := by
  intro t ht hs ms hms
  have := List.all_eq_true.mp h t ht
  simp only [hs, bne_self_eq_false, Bool.false_or, hms] at this
  split at this
  · simp at this
  · next ms' h' => exact ⟨ms', h', by simpa using this⟩

/-- the condition holds of adesmaster.xml -/
theorem adesmaster_unions : UnionsShrink adesmaster := unionsShrinkB_sound (by decide +kernel)

/-- C34 for the master file of ADES -/
theorem C34_ades (F : Facets) (root : Elem) (h : ValidDocument F (schema .submit adesmaster) root) : ValidDocument F (schema .general adesmaster) root :=
  C34_submit_general F adesmaster root adesmaster_unions h

/-- leaf element -/
def leaf (tag text : Str) : Elem := .mk tag (some text) [] []

/-- a document with two optical observations -/
def sampleDoc : Elem := .mk (c! "ades") none [(c! "version", c! "2022")] [.mk (c! "obsBlock") none [] [
  .mk (c! "obsContext") none [] [
    .mk (c! "observatory") none [] [leaf (c! "mpcCode") (c! "568")],
    .mk (c! "submitter") none [] [leaf (c! "name") (c! "D. J. Tholen")],
    .mk (c! "observers") none [] [leaf (c! "name") (c! "D. J. Tholen")],
    .mk (c! "measurers") none [] [leaf (c! "name") (c! "D. J. Tholen")],
    .mk (c! "telescope") none [] [leaf (c! "design") (c! "reflector"), leaf (c! "aperture") (c! "2.2"), leaf (c! "detector") (c! "CCD"), leaf (c! "fRatio") (c! "10.0")]],
  .mk (c! "obsData") none [] [
  .mk (c! "optical") none [] [leaf (c! "permID") (c! "433"), leaf (c! "provID") (c! "1898 DQ"), leaf (c! "mode") (c! "CCD"), leaf (c! "stn") (c! "568"),
    leaf (c! "obsTime") (c! "2016-08-29T12:23:34.12Z"), leaf (c! "ra") (c! "215.10254"), leaf (c! "dec") (c! "-12.547"), leaf (c! "rmsRA") (c! "0.3"), leaf (c! "astCat") (c! "Gaia3"),
    leaf (c! "mag") (c! "21.91"), leaf (c! "band") (c! "G"), leaf (c! "remarks") (c! "seen")],
  .mk (c! "optical") none [] [leaf (c! "provID") (c! "2004 MN4"), leaf (c! "trkSub") (c! "K04M04N"), leaf (c! "mode") (c! "CCD"), leaf (c! "stn") (c! "568"),
    leaf (c! "obsTime") (c! "2016-08-29T12:24:00Z"), leaf (c! "ra") (c! "15.1"), leaf (c! "dec") (c! "+1.5"), leaf (c! "astCat") (c! "Gaia3")]]]]

/-- the hypothesis of C34 is met -/
theorem sampleDoc_valid : ValidDocument Check.lenient (schema .submit adesmaster) sampleDoc :=
  ⟨c! "ADESType", by decide +kernel, Check.validB_sound _ 80 _ _ (by decide +kernel)⟩

/-- the names an element with one of the four observation types may have in a submission, in order -/
def submitOrder (t : Str) : List Str :=
  if t = c! "optical" then [c! "permID", c! "provID", c! "artSat", c! "trkSub", c! "obsSubID", c! "mode", c! "stn", c! "sys", c! "ctr", c! "pos1", c! "pos2", c! "pos3", c! "vel1", c! "vel2", c! "vel3", c! "posCov11", c! "posCov12", c! "posCov13", c! "posCov22", c! "posCov23", c! "posCov33", c! "obsTime", c! "rmsTime", c! "ra", c! "dec", c! "rmsRA", c! "rmsDec", c! "rmsCorr", c! "astCat", c! "mag", c! "rmsMag", c! "band", c! "fltr", c! "photCat", c! "photAp", c! "logSNR", c! "seeing", c! "exp", c! "rmsFit", c! "nStars", c! "disc", c! "uncTime", c! "notes", c! "remarks"]
  else if t = c! "radar" then [c! "permID", c! "provID", c! "artSat", c! "trkSub", c! "trx", c! "rcv", c! "obsTime", c! "doppler", c! "rmsDoppler", c! "delay", c! "rmsDelay", c! "logSNR", c! "com", c! "frq", c! "remarks"]
  else []

/-- the sub-elements of an element valid for a type come in the order of `l`, each at most once, if the check says so -/
theorem order_of_check {F : Facets} {S : Schema} {T : Str} {l r : List Str} {f : Nat} (h : (lookup S.complex T).bind (fun c => Check.after S f (.seq c.content) l) = some r)
    {e : Elem} (hv : Valid F S (.typed T e)) : (e.kids.map Elem.tag).Sublist l := by
  cases hv with
  | simple hl _ => rw [hl] at h; simp at h
  | complex hl _ _ hm hk =>
    rw [hl] at h
    obtain ⟨_, hs⟩ := Check.after_sound S f _ _ _ h
    obtain ⟨u, e1, s⟩ := hs _ hm
    have := Check.kids_heads hk s
    rw [← this] at s
    rw [e1]
    exact (Check.sublist_of_map_some s).trans (List.sublist_append_left _ _)

/-- C34: what a submitted optical or radar observation consists of; in particular nothing the MPC adds later (`obsID`, `trkID`, `prog`, `ref`, residuals, ...) -/
theorem C34_submitted_elements (F : Facets) (t T : Str) (ht : t = c! "optical" ∨ t = c! "radar") (hT : lookup (schema .submit adesmaster).elements t = some T) (e : Elem)
    (h : Valid F (schema .submit adesmaster) (.typed T e)) : (e.kids.map Elem.tag).Sublist (submitOrder t) := by
  rcases ht with rfl | rfl
  · have : lookup (schema .submit adesmaster).elements (c! "optical") = some (c! "OpticalType") := by decide +kernel
    rw [this] at hT; cases hT
    exact order_of_check (f := 80) (r := []) (by decide +kernel) h
  · have : lookup (schema .submit adesmaster).elements (c! "radar") = some (c! "RadarType") := by decide +kernel
    rw [this] at hT; cases hT
    exact order_of_check (f := 80) (r := []) (by decide +kernel) h

/-- an observation with an `obsID`, valid in general, not for submission: the converse of C34 fails -/
def generalOnly : Elem := .mk (c! "optical") none [] [leaf (c! "permID") (c! "433"), leaf (c! "obsID") (c! "L1"), leaf (c! "mode") (c! "CCD"), leaf (c! "stn") (c! "568"),
    leaf (c! "obsTime") (c! "2016-08-29T12:23:34.12Z"), leaf (c! "ra") (c! "215.10254"), leaf (c! "dec") (c! "-12.547"), leaf (c! "astCat") (c! "Gaia3")]

theorem C34_converse_fails : Valid Check.lenient (schema .general adesmaster) (.typed (c! "OpticalType") generalOnly) ∧
    ∀ F, ¬ Valid F (schema .submit adesmaster) (.typed (c! "OpticalType") generalOnly) := by
  refine ⟨Check.validB_sound _ 80 _ _ (by decide +kernel), fun F h => ?_⟩
  have hs := C34_submitted_elements F (c! "optical") _ (.inl rfl) (by decide +kernel) _ h
  have := hs.subset (a := c! "obsID") (by decide)
  revert this
  decide

end Verif
