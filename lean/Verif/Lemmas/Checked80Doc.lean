import Verif.Lemmas.Checked80Context
import Verif.Props.RadarBack
/-!
  Lemmas.Checked80Doc : when blocks and documents made from 80-column files are valid.
-/
namespace Verif.Checked
open Verif.Xml Verif.Spec Verif.Check Verif.Xsd Verif.Fields Verif.Submission Verif.PackUtil Verif.Mpc80
open Verif.Spec.Mpc80 (leafOf nodeOf adesDoc Rec Radar Obs RecGroup)
open Verif.ToPsv (psvKinds)
open Verif.Checked (contentOf)

/-! ### obsData -/

theorem data_plain : plainType (c! "ObsDataType") = true := by decide +kernel
theorem data_content : contentOf (c! "ObsDataType") = [.choice false (psvKinds.map fun t => .elemRef t false true)] := by kernel_rfl
theorem data_types : ∀ p ∈ kidsOf (c! "ObsDataType"), p.2 = typeOf p.1 := by decide +kernel

/-- one or more of the same -/
theorem same_word {n : Str} (h : (lookup S.elements n).isSome = true) {o : Bool} : ∀ (k : Nat), Matches S (.part (.elemRef n o true)) (List.replicate (k + 1) (letter n))
  | 0 => .once (.ref (type_of h))
  | k + 1 => .more (w := [letter n]) rfl (.ref (type_of h)) (same_word h k)

theorem kids_of {n : Str} : ∀ {es : List Elem}, (∀ e ∈ es, e.tag = n ∧ Valid xsd S (.typed (typeOf n) e)) → Valid xsd S (.kids (List.replicate es.length (letter n)) es)
  | [], _ => .nil
  | e :: es, h => by
    rw [List.length_cons, List.replicate_succ]
    exact .cons (h e (by simp)).1 (h e (by simp)).2 (kids_of fun e' he => h e' (by simp [he]))

theorem data_iff {es : List Elem} (hne : es ≠ []) : Valid xsd S (.typed (c! "ObsDataType") (nodeOf (c! "obsData") es)) ↔
    ∃ t ∈ psvKinds, ∀ e ∈ es, e.tag = t ∧ Valid xsd S (.typed (typeOf t) e) := by
  constructor
  · intro h
    obtain ⟨w, m1, m2, -, -⟩ := node_kids data_plain h
    rw [data_content] at m1
    have m1 := part_once (by rfl) (by rfl) (seq_one m1)
    cases m1 with
    | choice hp hm =>
      obtain ⟨t, ht, rfl⟩ := List.mem_map.1 hp
      refine ⟨t, ht, (kids_same m2 ?_).1⟩
      intro l hl
      obtain ⟨T, h1, rfl⟩ := (part_ref hm).1 l hl
      simp [typeOf, h1]
  · rintro ⟨t, ht, h⟩
    have hs : (lookup S.elements t).isSome = true := by
      have : ∀ t ∈ psvKinds, (lookup S.elements t).isSome = true := by decide +kernel
      exact this t ht
    refine node_of data_plain (w := List.replicate es.length (letter t)) ?_ (kids_of h)
    obtain ⟨k, hk⟩ : ∃ k, es.length = k + 1 := ⟨es.length - 1, by have := List.length_pos_iff.2 hne; omega⟩
    rw [data_content, hk, ← List.append_nil (List.replicate _ _)]
    exact .cons (.once (.choice (List.mem_map.2 ⟨t, ht, rfl⟩) (same_word hs k))) .nil

/-! ### blocks -/

theorem block_plain : plainType (c! "ObsBlockType") = true := by decide +kernel
theorem block_content : contentOf (c! "ObsBlockType") = [.seq false [.elemRef (c! "obsContext") false false, .elemRef (c! "obsData") false false]] := by kernel_rfl
theorem block_elems : lookup S.elements (c! "obsContext") = some (c! "ObsContextType") ∧ lookup S.elements (c! "obsData") = some (c! "ObsDataType") := ⟨by kernel_rfl, by kernel_rfl⟩

theorem block_iff {x y : Elem} (hx : x.tag = c! "obsContext") (hy : y.tag = c! "obsData") :
    Valid xsd S (.typed (c! "ObsBlockType") (nodeOf (c! "obsBlock") [x, y])) ↔ Valid xsd S (.typed (c! "ObsContextType") x) ∧ Valid xsd S (.typed (c! "ObsDataType") y) := by
  constructor
  · intro h
    obtain ⟨w, m1, m2, -, -⟩ := node_kids block_plain h
    rw [block_content] at m1
    have m1 := part_once (by rfl) (by rfl) (seq_one m1)
    cases m1 with
    | sequence m1 =>
      cases m1 with
      | cons h2 h3 =>
        have e1 := part_ref_one block_elems.1 h2
        have e2 := part_ref_one block_elems.2 (seq_one h3)
        subst e1; subst e2
        obtain ⟨x', y', hxy, -, -, vx, vy⟩ := kids_two m2
        have : [x, y] = [x', y'] := hxy
        cases this
        exact ⟨vx, vy⟩
  · rintro ⟨h1, h2⟩
    refine node_of block_plain (w := [some (c! "obsContext", c! "ObsContextType"), some (c! "obsData", c! "ObsDataType")]) ?_ (.cons hx h1 (.cons hy h2 .nil))
    rw [block_content]
    exact seq_alone (.cons (w := [_]) (.once (.ref block_elems.1)) (.cons (w := [_]) (.once (.ref block_elems.2)) .nil))

/-! ### documents -/

def adesParts : List Particle := [.elemRef (c! "optical") true false, .elemRef (c! "offset") true false, .elemRef (c! "occultation") true false, .elemRef (c! "radar") true false,
  .elemRef (c! "opticalResidual") true false, .elemRef (c! "radarResidual") true false, .elemRef (c! "obsBlock") false false]
theorem ades_content : lookup S.complex (c! "ADESType") = some ⟨[.choice true adesParts], [⟨c! "version", c! "VersionType", true⟩]⟩ := by kernel_rfl
theorem ades_elems : lookup S.elements (c! "ades") = some (c! "ADESType") ∧ lookup S.elements (c! "obsBlock") = some (c! "ObsBlockType") := ⟨by kernel_rfl, by kernel_rfl⟩

theorem blocks_word : ∀ (k : Nat), Matches S (.part (.choice true adesParts)) (List.replicate k (some (c! "obsBlock", c! "ObsBlockType")))
  | 0 => .once (.choice (p := .elemRef (c! "optical") true false) (by simp [adesParts]) (.skip rfl))
  | k + 1 => .more (w := [_]) rfl (.choice (p := .elemRef (c! "obsBlock") false false) (by simp [adesParts]) (.once (.ref ades_elems.2))) (blocks_word k)

theorem version_ok : HasType xsd S (c! "VersionType") (c! "2022") := by
  rw [hasType_iff (l := [(c! "xsd:string", [(c! "xsd:string", [(c! "xsd:enumeration", c! "2022")])])]) (f := 9) (by kernel_rfl)]
  refine ⟨_, List.mem_singleton_self _, ?_⟩
  have := leaf_known (t := c! "VersionType") (n := c! "x") (v := c! "2022") (by decide +kernel)
  obtain ⟨a, ha, h⟩ := (hasType_iff (l := [(c! "xsd:string", [(c! "xsd:string", [(c! "xsd:enumeration", c! "2022")])])]) (f := 9) (by kernel_rfl)).1 ((leaf_typed (by kernel_rfl)).1 this)
  cases List.mem_singleton.1 ha
  exact h

theorem doc_iff {kids : List Elem} (hk : ∀ k ∈ kids, k.tag = c! "obsBlock") : ValidDocument xsd S (adesDoc kids) ↔ ∀ k ∈ kids, Valid xsd S (.typed (c! "ObsBlockType") k) := by
  constructor
  · rintro ⟨t, ht, h⟩ k hm
    have : lookup S.elements (c! "ades") = some t := ht
    rw [ades_elems.1] at this; cases this
    obtain ⟨-, -, w, -, -, h3⟩ := complex_kids (f := 40) ades_content (by decide +kernel) h
    obtain ⟨T, hT, hv⟩ := h3 k hm
    rw [hk k hm] at hT
    have : ∀ p ∈ letters S 40 (.seq [.choice true adesParts]), p.1 = c! "obsBlock" → p.2 = c! "ObsBlockType" := by decide +kernel
    rw [← this _ hT rfl]; exact hv
  · intro h
    refine ⟨_, ades_elems.1, .complex (w := List.replicate kids.length (some (c! "obsBlock", c! "ObsBlockType"))) ades_content rfl ?_ ?_ ?_⟩
    · refine ⟨?_, ?_⟩
      · intro a ha
        cases List.mem_singleton.1 ha
        exact ⟨_, List.mem_singleton_self _, rfl, version_ok⟩
      · intro d hd _
        cases List.mem_singleton.1 hd
        exact ⟨_, List.mem_singleton_self _, rfl⟩
    · rw [← List.append_nil (List.replicate _ _)]
      exact .cons (blocks_word _) .nil
    · have e : typeOf (c! "obsBlock") = c! "ObsBlockType" := by kernel_rfl
      have := kids_of (n := c! "obsBlock") (es := kids) (fun e' he => ⟨hk e' he, by rw [e]; exact h e' he⟩)
      unfold letter at this
      rwa [e] at this

/-! ### groups -/

theorem rec_tag {b : Rec} {e : Elem} (h : b.Element e) : e.tag = if b.isRadar then c! "radar" else c! "optical" := by
  cases b with
  | optical b => obtain ⟨time, ra, dec, -, rfl⟩ := h; rfl
  | radar r => cases h; rfl

theorem rec_iff {b : Rec} (hb : b.Valid) {e : Elem} (h : b.Element e) : Valid xsd S (.typed (typeOf e.tag) e) ↔ b.Sound := by
  rw [rec_tag h]
  cases b with
  | optical b =>
    have : typeOf (c! "optical") = c! "OpticalType" := by kernel_rfl
    show Valid xsd S (.typed (typeOf (c! "optical")) _) ↔ _
    rw [this]; exact obs_iff hb h
  | radar r =>
    have : typeOf (c! "radar") = c! "RadarType" := by kernel_rfl
    show Valid xsd S (.typed (typeOf (c! "radar")) _) ↔ _
    rw [this]; cases h; exact radar_iff hb

theorem each_left {α β : Type} {R : α → β → Prop} : ∀ {as : List α} {bs : List β}, Spec.Each R as bs → ∀ a ∈ as, ∃ b ∈ bs, R a b
  | _, _, .nil, _, h => by simp at h
  | _, _, .cons h hs, a, ha => by
    rcases List.mem_cons.1 ha with rfl | ha
    · exact ⟨_, by simp, h⟩
    · obtain ⟨b, hb, hr⟩ := each_left hs a ha
      exact ⟨b, by simp [hb], hr⟩

theorem each_right {α β : Type} {R : α → β → Prop} : ∀ {as : List α} {bs : List β}, Spec.Each R as bs → ∀ b ∈ bs, ∃ a ∈ as, R a b
  | _, _, .nil, _, h => by simp at h
  | _, _, .cons h hs, b, hb => by
    rcases List.mem_cons.1 hb with rfl | hb
    · exact ⟨_, by simp, h⟩
    · obtain ⟨a, ha, hr⟩ := each_right hs b hb
      exact ⟨a, by simp [ha], hr⟩

theorem split_kind {b x : Rec} (hx : x ∈ b.split) : x.isRadar = b.isRadar := by
  cases b with
  | optical b => simp only [Rec.split, List.mem_singleton] at hx; rw [hx]
  | radar r => obtain ⟨y, -, rfl⟩ := List.mem_map.1 hx; rfl

theorem split_ne (b : Rec) : b.split ≠ [] := by
  cases b with
  | optical b => simp [Rec.split]
  | radar r => simp only [Rec.split, Radar.split]; split <;> simp

theorem taken_kind {g : RecGroup} {nosplit k : Bool} : (∀ b ∈ g.taken nosplit, b.isRadar = k) ↔ ∀ b ∈ g.recs, b.isRadar = k := by
  unfold RecGroup.taken
  cases nosplit with
  | true => rfl
  | false =>
    rw [if_neg (by simp)]
    constructor
    · intro h b hb
      obtain ⟨x, hx⟩ := List.exists_mem_of_ne_nil _ (split_ne b)
      rw [← split_kind hx]
      exact h x (List.mem_flatMap.2 ⟨b, hb, hx⟩)
    · intro h x hx
      obtain ⟨b, hb, hx⟩ := List.mem_flatMap.1 hx
      rw [split_kind hx]; exact h b hb

theorem group_iff {g : RecGroup} {nosplit : Bool} (hg : g.Valid) {es : List Elem} (he : Spec.Each Rec.Element (g.taken nosplit) es) :
    Valid xsd S (.typed (c! "ObsBlockType") (Spec.Mpc80.Block.mk g.headers es).elem) ↔ g.Sound nosplit := by
  have hv := taken_valid hg nosplit
  have hne : es ≠ [] := by
    obtain ⟨b, hb⟩ := List.exists_mem_of_ne_nil _ (taken_ne hg nosplit)
    obtain ⟨e, h, -⟩ := each_left he b hb
    exact List.ne_nil_of_mem h
  unfold Spec.Mpc80.Block.elem
  rw [block_iff rfl rfl, context_iff (fun h hh => Nat.le_trans (hg.headers h hh).2.1 (by decide)), data_iff hne]
  constructor
  · rintro ⟨h1, t, -, h2⟩
    have tag : ∀ b ∈ g.taken nosplit, t = if b.isRadar then c! "radar" else c! "optical" := by
      intro b hb
      obtain ⟨e, hm, hr⟩ := each_left he b hb
      rw [← (h2 e hm).1]; exact rec_tag hr
    refine ⟨h1, ?_, ?_⟩
    · intro b hb
      obtain ⟨e, hm, hr⟩ := each_left he b hb
      have := h2 e hm
      rw [← rec_iff (hv b hb) hr, this.1]; exact this.2
    · by_cases ht : t = c! "radar"
      · refine .inl (taken_kind (nosplit := nosplit).1 fun b hb => ?_)
        have := tag b hb
        rw [ht] at this
        cases hk : b.isRadar with
        | true => rfl
        | false => rw [hk] at this; exact absurd this (by decide)
      · refine .inr (taken_kind (nosplit := nosplit).1 fun b hb => ?_)
        have := tag b hb
        cases hk : b.isRadar with
        | true => rw [hk, if_pos rfl] at this; exact absurd this ht
        | false => rfl
  · rintro ⟨h1, h2, h3⟩
    refine ⟨h1, ?_⟩
    have go : ∀ k, (∀ b ∈ g.recs, b.isRadar = k) → ∀ e ∈ es, e.tag = (if k then c! "radar" else c! "optical") ∧ Valid xsd S (.typed (typeOf (if k then c! "radar" else c! "optical")) e) := by
      intro k hk e hm
      obtain ⟨b, hb, hr⟩ := each_right he e hm
      have := rec_tag hr
      rw [taken_kind.2 hk b hb] at this
      refine ⟨this, ?_⟩
      rw [← this]; exact (rec_iff (hv b hb) hr).2 (h2 b hb)
    rcases h3 with h3 | h3
    · exact ⟨c! "radar", by decide, go true h3⟩
    · exact ⟨c! "optical", by decide, go false h3⟩

theorem file_iff {nosplit : Bool} : ∀ {gs : List RecGroup} {ess : List (List Elem)}, (∀ g ∈ gs, g.Valid) → Spec.Each (fun g es => Spec.Each Rec.Element (RecGroup.taken g nosplit) es) gs ess →
    ((∀ k ∈ List.zipWith (fun g es => (Spec.Mpc80.Block.mk g.headers es).elem) gs ess, Valid xsd S (.typed (c! "ObsBlockType") k)) ↔ ∀ g ∈ gs, g.Sound nosplit)
  | _, _, _, .nil => by simp
  | g :: gs, es :: ess, hv, .cons h hs => by
    have ih := file_iff (fun g hg => hv g (by simp [hg])) hs
    simp only [List.zipWith_cons_cons, List.mem_cons, forall_eq_or_imp, group_iff (hv g (by simp)) h, ih]

theorem blocks_tag : ∀ {gs : List RecGroup} {ess : List (List Elem)}, ∀ k ∈ List.zipWith (fun g es => (Spec.Mpc80.Block.mk g.headers es).elem) gs ess, k.tag = c! "obsBlock"
  | [], _, _, h => by simp at h
  | _ :: _, [], _, h => by simp at h
  | g :: gs, es :: ess, k, h => by
    rw [List.zipWith_cons_cons] at h
    rcases List.mem_cons.1 h with rfl | h
    · rfl
    · exact blocks_tag k h

end Verif.Checked
