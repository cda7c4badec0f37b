import Verif.Lemmas.Checked80Radar
/-!
  Lemmas.Checked80Context : when the obsContext of header lines is valid.
-/
namespace Verif.Checked
open Verif.Xml Verif.Spec Verif.Check Verif.Xsd Verif.Fields Verif.Submission Verif.PackUtil Verif.Mpc80
open Verif.Spec.Mpc80 (leafOf nodeOf commaNames headerElem headerElems commentLines firstOf HeadersSound Written)
open Verif.Checked (contentOf)

/-! ### texts -/

theorem leaf_typed {t n v : Str} (hc : lookup S.complex t = none) : Valid xsd S (.typed t (leafOf n v)) ↔ HasType xsd S t v := by
  have e : (if v = [] then none else some v : Option Str).getD [] = v := by by_cases h : v = [] <;> simp [h]
  constructor
  · intro h
    have := (simple_elem hc h).2
    have e' : (leafOf n v).text.getD [] = v := e
    rwa [e'] at this
  · intro h
    refine .simple hc ?_
    rw [e]; exact h

theorem has_w100 {v : Str} : HasType xsd S (c! "StringTypeW100") v ↔ Text 100 v := by
  rw [hasType_iff (l := [(c! "xsd:string", [(c! "xsd:string", [(c! "xsd:maxLength", c! "100")]), strLayer])]) (f := 9) (by kernel_rfl)]
  simp only [List.mem_cons, List.not_mem_nil, or_false, exists_eq_left]
  exact has_text rfl

theorem leaf_text {n v : Str} (hl : v.length ≤ 100) : Valid xsd S (.typed (c! "StringTypeW100") (leafOf n v)) ↔ Written v := by
  rw [leaf_typed (by kernel_rfl), has_w100]
  exact ⟨fun h => h.2, fun h => ⟨hl, h⟩⟩

theorem leaf_code {n v : Str} : Valid xsd S (.typed (c! "StationType") (leafOf n v)) ↔ Code 3 4 v := by
  rw [leaf_typed (by kernel_rfl), ← general_field (n := c! "stn") (P := Code 3 4) (by in_list fieldValue) (by decide), Field, leaf_iff (T := c! "StationType") (by kernel_rfl) (by kernel_rfl)]

theorem leaf_known {t n v : Str} (h : isValid S S 80 t (leafOf n v) = true) : Valid xsd S (.typed t (leafOf n v)) := isValid_sound h

/-! ### small elements -/

theorem word_of {T : Str} {w : List Letter'} (h : [] ∈ parse S 40 (.seq (contentOf T)) w) : Matches S (.seq (contentOf T)) w := by
  obtain ⟨u, e, hm⟩ := parse_sound S 40 _ _ _ h
  rw [List.append_nil] at e
  rw [e]; exact hm

theorem kid_valid {T tag : Str} {kids : List Elem} (hT : plainType T = true) (h : Valid xsd S (.typed T (nodeOf tag kids))) {k : Elem} (hk : k ∈ kids) {t : Str}
    (ht : ∀ p ∈ kidsOf T, p.1 = k.tag → p.2 = t) : Valid xsd S (.typed t k) := by
  obtain ⟨-, -, -, -, h3⟩ := node_kids hT h
  obtain ⟨t', ht', hv⟩ := h3 k hk
  rw [← ht _ ht' rfl]; exact hv

theorem cod_iff {v : Str} : Valid xsd S (.typed (c! "ObservatoryType") (nodeOf (c! "observatory") [leafOf (c! "mpcCode") v])) ↔ Code 3 4 v := by
  have hT : plainType (c! "ObservatoryType") = true := by decide +kernel
  constructor
  · intro h
    have ht : ∀ p ∈ kidsOf (c! "ObservatoryType"), p.1 = c! "mpcCode" → p.2 = c! "StationType" := by decide +kernel
    exact leaf_code.1 (kid_valid hT h (k := leafOf (c! "mpcCode") v) (by simp) ht)
  · intro h
    exact node_of hT (w := [some (c! "mpcCode", c! "StationType")]) (word_of (by decide +kernel)) (.cons rfl (leaf_code.2 h) .nil)

theorem con_one {v : Str} (hl : v.length ≤ 100) : Valid xsd S (.typed (c! "SubmitterType") (nodeOf (c! "submitter") [leafOf (c! "name") v])) ↔ Written v := by
  have hT : plainType (c! "SubmitterType") = true := by decide +kernel
  constructor
  · intro h
    have ht : ∀ p ∈ kidsOf (c! "SubmitterType"), p.1 = c! "name" → p.2 = c! "StringTypeW100" := by decide +kernel
    exact (leaf_text hl).1 (kid_valid hT h (k := leafOf (c! "name") v) (by simp) ht)
  · intro h
    exact node_of hT (w := [some (c! "name", c! "StringTypeW100")]) (word_of (by decide +kernel)) (.cons rfl ((leaf_text hl).2 h) .nil)

theorem con_two {v u : Str} (hl : v.length ≤ 100) (hu : u.length ≤ 100) :
    Valid xsd S (.typed (c! "SubmitterType") (nodeOf (c! "submitter") [leafOf (c! "name") v, leafOf (c! "institution") u])) ↔ Written v ∧ Written u := by
  have hT : plainType (c! "SubmitterType") = true := by decide +kernel
  constructor
  · intro h
    have ht : ∀ p ∈ kidsOf (c! "SubmitterType"), p.1 = c! "name" → p.2 = c! "StringTypeW100" := by decide +kernel
    have hi : ∀ p ∈ kidsOf (c! "SubmitterType"), p.1 = c! "institution" → p.2 = c! "StringTypeW100" := by decide +kernel
    exact ⟨(leaf_text hl).1 (kid_valid hT h (k := leafOf (c! "name") v) (by simp) ht), (leaf_text hu).1 (kid_valid hT h (k := leafOf (c! "institution") u) (by simp) hi)⟩
  · intro h
    exact node_of hT (w := [some (c! "name", c! "StringTypeW100"), some (c! "institution", c! "StringTypeW100")]) (word_of (by decide +kernel))
      (.cons rfl ((leaf_text hl).2 h.1) (.cons rfl ((leaf_text hu).2 h.2) .nil))

theorem tel_iff {v : Str} (hl : v.length ≤ 100) : Valid xsd S (.typed (c! "TelescopeType") (nodeOf (c! "telescope")
    [leafOf (c! "name") v, leafOf (c! "design") (c! "Unknown"), leafOf (c! "aperture") (c! "9999"), leafOf (c! "detector") (c! "Unknown")])) ↔ Written v := by
  have hT : plainType (c! "TelescopeType") = true := by decide +kernel
  constructor
  · intro h
    have ht : ∀ p ∈ kidsOf (c! "TelescopeType"), p.1 = c! "name" → p.2 = c! "StringTypeW100" := by decide +kernel
    exact (leaf_text hl).1 (kid_valid hT h (k := leafOf (c! "name") v) (by simp) ht)
  · intro h
    exact node_of hT (w := [some (c! "name", c! "StringTypeW100"), some (c! "design", c! "StringTypeW25"), some (c! "aperture", c! "PosDecimalTypeW6"), some (c! "detector", c! "StringTypeW25")]) (word_of (by decide +kernel))
      (.cons rfl ((leaf_text hl).2 h) (.cons rfl (leaf_known (by decide +kernel)) (.cons rfl (leaf_known (by decide +kernel)) (.cons rfl (leaf_known (by decide +kernel)) .nil))))

/-- one or more of the same -/
theorem many_word {n t : Str} : ∀ (k : Nat), Matches S (.part (.elemDecl n t false true)) (List.replicate (k + 1) (some (n, t)))
  | 0 => .once .decl
  | k + 1 => .more (w := [some (n, t)]) rfl .decl (many_word k)

theorem list_iff {T tag n : Str} (hT : plainType T = true) (hc : contentOf T = [.seq false [.elemDecl n (c! "StringTypeW100") false true]]) (hk : ∀ p ∈ kidsOf T, p.1 = n → p.2 = c! "StringTypeW100")
    {vs : List Str} (hne : vs ≠ []) (hl : ∀ v ∈ vs, v.length ≤ 100) : Valid xsd S (.typed T (nodeOf tag (vs.map (leafOf n)))) ↔ ∀ v ∈ vs, Written v := by
  constructor
  · intro h v hv
    exact (leaf_text (hl v hv)).1 (kid_valid hT h (k := leafOf n v) (List.mem_map_of_mem hv) hk)
  · intro h
    obtain ⟨k, hk⟩ : ∃ k, vs.length = k + 1 := ⟨vs.length - 1, by have := List.length_pos_iff.2 hne; omega⟩
    refine node_of hT (w := List.replicate vs.length (some (n, c! "StringTypeW100"))) ?_ ?_
    · rw [hc, hk]
      refine seq_alone ?_
      have := Matches.cons (many_word (n := n) (t := c! "StringTypeW100") k) (Matches.nil (S := S))
      rwa [List.append_nil] at this
    · have := validKids (F := xsd) (S := S) (fun _ => c! "StringTypeW100") (vs.map (leafOf n)) (by
        intro e he
        obtain ⟨v, hv, rfl⟩ := List.mem_map.1 he
        exact (leaf_text (hl v hv)).2 (h v hv))
      have e : (vs.map (leafOf n)).map (fun e => some (e.tag, c! "StringTypeW100")) = List.replicate vs.length (some (n, c! "StringTypeW100")) := by
        rw [List.map_map]
        exact List.eq_replicate_iff.2 ⟨by simp, fun b hb => by obtain ⟨v, -, rfl⟩ := List.mem_map.1 hb; rfl⟩
      rw [e] at this
      exact this

theorem comma_ne (v : Str) : commaNames v ≠ [] := by
  cases v with
  | nil => simp [commaNames]
  | cons c s =>
    unfold commaNames
    split
    · simp
    · split <;> simp

theorem comma_le {v : Str} : ∀ n ∈ commaNames v, n.length ≤ v.length := by
  induction v with
  | nil => simp [commaNames]
  | cons c s ih =>
    unfold commaNames
    split
    · simp
    · rename_i w ws e
      rw [e] at ih
      intro n hn
      split at hn
      · rcases List.mem_cons.1 hn with rfl | hn
        · simp
        · have := ih n hn; simp; omega
      · rcases List.mem_cons.1 hn with rfl | hn
        · have := ih w (by simp); simp; omega
        · have := ih n (by simp [hn]); simp; omega

theorem names_iff {tag v : Str} (hl : v.length ≤ 100) : Valid xsd S (.typed (c! "NamesType") (nodeOf tag ((commaNames v).map (leafOf (c! "name"))))) ↔ ∀ n ∈ commaNames v, Written n :=
  list_iff (by decide +kernel) (by kernel_rfl) (by decide +kernel) (comma_ne v) fun n hn => Nat.le_trans (comma_le n hn) hl

theorem com_iff {tag : Str} {vs : List Str} (hne : vs ≠ []) (hl : ∀ v ∈ vs, v.length ≤ 100) : Valid xsd S (.typed (c! "CommentType") (nodeOf tag (vs.map (leafOf (c! "line"))))) ↔ ∀ v ∈ vs, Written v :=
  list_iff (by decide +kernel) (by kernel_rfl) (by decide +kernel) hne hl

/-! ### elements in any order -/

theorem all_of : ∀ (ts : List Str) (ps : List (Str × Bool)), ts.Nodup → (ps.map (·.1)).Nodup → (∀ t ∈ ts, t ∈ ps.map (·.1)) → (∀ p ∈ ps, p.2 = false → p.1 ∈ ts) →
    (∀ p ∈ ps, (lookup S.elements p.1).isSome = true) → Matches S (.all (ps.map fun p => .elemRef p.1 p.2 false)) (ts.map letter)
  | [], ps, _, _, _, h4, _ => by
    refine all_optional ?_
    intro p hp
    obtain ⟨x, hx, rfl⟩ := List.mem_map.1 hp
    cases e : x.2 with
    | true => simp [Particle.opt]
    | false => exact absurd (h4 x hx e) (by simp)
  | t :: ts, ps, h1, h2, h3, h4, h5 => by
    obtain ⟨x, hx, ex⟩ := List.mem_map.1 (h3 t List.mem_cons_self)
    obtain ⟨a, b, rfl⟩ := List.append_of_mem hx
    have h1' := List.nodup_cons.1 h1
    have hnd : ((a ++ b).map (·.1)).Nodup := h2.sublist (by simp)
    have hnot : ∀ y ∈ a ++ b, y.1 ≠ x.1 := by
      intro y hy e
      simp only [List.map_append, List.map_cons] at h2
      have := List.nodup_middle.1 h2
      exact (List.nodup_cons.1 this).1 (by rw [← e, ← List.map_append]; exact List.mem_map_of_mem hy)
    have ih := all_of ts (a ++ b) h1'.2 hnd (by
      intro u hu
      have := h3 u (List.mem_cons_of_mem _ hu)
      simp only [List.map_append, List.map_cons, List.mem_append, List.mem_cons] at this
      simp only [List.map_append, List.mem_append]
      rcases this with h | h | h
      · exact .inl h
      · exact absurd (by rw [← ex, ← h]; exact hu) h1'.1
      · exact .inr h) (by
      intro p hp hf
      rcases List.mem_cons.1 (h4 p (by simp only [List.mem_append, List.mem_cons] at hp ⊢; rcases hp with h | h <;> simp [h]) hf) with e | h
      · exact absurd (e.trans ex.symm) (hnot p hp)
      · exact h) (by
      intro p hp
      exact h5 p (by simp only [List.mem_append, List.mem_cons] at hp ⊢; rcases hp with h | h <;> simp [h]))
    rw [List.map_append] at ih ⊢
    rw [List.map_cons, List.map_cons, ← ex]
    exact Matches.pick (part_one (h5 x hx)) ih

theorem all_mem {r : Str} {m : Bool} {ps : List Particle} {w : List Letter'} (h : Matches S (.all ps) w) (hp : .elemRef r false m ∈ ps) : some r ∈ heads w := by
  generalize hx : What.all ps = x at h
  induction h generalizing ps with
  | none => cases hx; simp at hp
  | @pick a b p w w' h1 _ _ ih =>
    cases hx
    simp only [heads, List.map_append, List.mem_append]
    rcases List.mem_append.1 hp with hp | hp
    · exact .inr (ih (by simp [hp]) rfl)
    · rcases List.mem_cons.1 hp with rfl | hp
      · obtain ⟨k1, k2⟩ := part_ref h1
        have := k2 rfl
        cases w with
        | nil => exact absurd rfl this
        | cons l w =>
          obtain ⟨T, -, rfl⟩ := k1 l (by simp)
          exact .inl (by simp)
      · exact .inr (ih (by simp [hp]) rfl)
  | _ => cases hx

/-! ### header lines -/

/-- the elements of header lines -/
def tagsOf : List (Str × Str) := [(c! "COD", c! "observatory"), (c! "CON", c! "submitter"), (c! "OBS", c! "observers"), (c! "MEA", c! "measurers"), (c! "TEL", c! "telescope")]

theorem header_tag {k v : Str} {e : Elem} (h : headerElem k v = some e) : (k, e.tag) ∈ tagsOf := by
  unfold headerElem at h
  by_cases h1 : k = c! "COD"
  · rw [if_pos h1] at h; cases h; subst h1; exact List.mem_cons_self
  · rw [if_neg h1] at h
    by_cases h2 : k = c! "CON"
    · rw [if_pos h2] at h; cases h; subst h2; exact .tail _ List.mem_cons_self
    · rw [if_neg h2] at h
      by_cases h3 : k = c! "OBS"
      · rw [if_pos h3] at h; cases h; subst h3; exact .tail _ (.tail _ List.mem_cons_self)
      · rw [if_neg h3] at h
        by_cases h4 : k = c! "MEA"
        · rw [if_pos h4] at h; cases h; subst h4; exact .tail _ (.tail _ (.tail _ List.mem_cons_self))
        · rw [if_neg h4] at h
          by_cases h5 : k = c! "TEL"
          · rw [if_pos h5] at h; cases h; subst h5; exact .tail _ (.tail _ (.tail _ (.tail _ List.mem_cons_self)))
          · rw [if_neg h5] at h; cases h

theorem tags_inj : ∀ x ∈ tagsOf, ∀ y ∈ tagsOf, x.2 = y.2 → x.1 = y.1 := by decide +kernel
theorem first_cons {k k' v : Str} {hs : List (Str × Str)} : firstOf k ((k', v) :: hs) = if k' = k then some v else firstOf k hs := by
  unfold firstOf
  rw [List.find?_cons]
  by_cases h : k' = k <;> simp [h]

theorem header_mem {e : Elem} : ∀ {hs : List (Str × Str)} {seen : List Str}, e ∈ headerElems seen hs ↔ ∃ k v, k ∉ seen ∧ k ≠ c! "COM" ∧ firstOf k hs = some v ∧ headerElem k v = some e
  | [], seen => by simp [headerElems, firstOf]
  | (k, v) :: hs, seen => by
    unfold headerElems
    by_cases h : k = c! "COM" ∨ k ∈ seen
    · rw [if_pos h, header_mem]
      refine exists_congr fun k' => exists_congr fun v' => ?_
      rw [first_cons]
      constructor
      · rintro ⟨h1, h2, h3, h4⟩
        refine ⟨h1, h2, ?_, h4⟩
        rw [if_neg (fun e => ?_)]
        · exact h3
        · subst e; exact h.elim h2 h1
      · rintro ⟨h1, h2, h3, h4⟩
        rw [if_neg (fun e => by subst e; exact h.elim h2 h1)] at h3
        exact ⟨h1, h2, h3, h4⟩
    · rw [if_neg h, List.mem_append, header_mem]
      have ⟨hc, hs'⟩ := not_or.1 h
      constructor
      · rintro (h' | ⟨k', v', h1, h2, h3, h4⟩)
        · exact ⟨k, v, hs', hc, by rw [first_cons, if_pos rfl], by simpa using h'⟩
        · simp only [List.mem_cons, not_or] at h1
          exact ⟨k', v', h1.2, h2, by rw [first_cons, if_neg (Ne.symm h1.1)]; exact h3, h4⟩
      · rintro ⟨k', v', h1, h2, h3, h4⟩
        rw [first_cons] at h3
        by_cases e : k = k'
        · subst e
          rw [if_pos rfl] at h3
          cases h3
          exact .inl (by simp [h4])
        · rw [if_neg e] at h3
          exact .inr ⟨k', v', by simp [Ne.symm e, h1], h2, h3, h4⟩

theorem header_nodup : ∀ {hs : List (Str × Str)} {seen : List Str}, ((headerElems seen hs).map Elem.tag).Nodup
  | [], seen => by simp [headerElems]
  | (k, v) :: hs, seen => by
    unfold headerElems
    split
    · exact header_nodup
    · rw [List.map_append]
      have ih := header_nodup (hs := hs) (seen := k :: seen)
      cases he : headerElem k v with
      | none => simpa using ih
      | some e =>
        simp only [Option.toList_some, List.map_cons, List.map_nil, List.singleton_append]
        refine List.nodup_cons.2 ⟨fun hm => ?_, ih⟩
        obtain ⟨e', hm', et⟩ := List.mem_map.1 hm
        obtain ⟨k', v', h1, -, -, h4⟩ := header_mem.1 hm'
        have := tags_inj _ (header_tag h4) _ (header_tag he) et
        exact h1 (by simp only at this; rw [this]; exact List.mem_cons_self)

/-- what a header line must say -/
def LineSound (k v : Str) : Prop :=
  (k = c! "COD" → Code 3 4 v) ∧ (k = c! "CON" → (',' ∉ v → Written v) ∧ (',' ∈ v → Written (v.takeWhile (· ≠ ',')) ∧ Written (v.dropWhile (· ≠ ',')).tail)) ∧
  (k = c! "OBS" ∨ k = c! "MEA" → ∀ n ∈ commaNames v, Written n) ∧ (k = c! "TEL" → Written v)

theorem line_iff {k v : Str} {e : Elem} (h : headerElem k v = some e) (hl : v.length ≤ 100) : Valid xsd S (.typed (typeOf e.tag) e) ↔ LineSound k v := by
  unfold headerElem at h
  unfold LineSound
  by_cases h1 : k = c! "COD"
  · rw [if_pos h1] at h; cases h
    have : typeOf (c! "observatory") = c! "ObservatoryType" := by kernel_rfl
    show Valid xsd S (.typed (typeOf (c! "observatory")) _) ↔ _
    rw [this, cod_iff, h1]
    simp (decide := true) only [true_imp_iff, false_imp_iff, and_true]
  rw [if_neg h1] at h
  by_cases h2 : k = c! "CON"
  · rw [if_pos h2] at h; cases h
    have : typeOf (c! "submitter") = c! "SubmitterType" := by kernel_rfl
    show Valid xsd S (.typed (typeOf (c! "submitter")) _) ↔ _
    rw [this, h2]
    simp (decide := true) only [true_imp_iff, false_imp_iff, and_true, true_and]
    have l1 : (v.takeWhile (· ≠ ',')).length ≤ 100 := Nat.le_trans (List.takeWhile_sublist _).length_le hl
    have l2 : (v.dropWhile (· ≠ ',')).tail.length ≤ 100 := Nat.le_trans ((List.tail_sublist _).trans (List.dropWhile_sublist _)).length_le hl
    by_cases hc : ',' ∈ v
    · rw [if_pos hc, con_two l1 l2]
      simp [hc]
    · rw [if_neg hc, con_one hl]
      simp [hc]
  rw [if_neg h2] at h
  by_cases h3 : k = c! "OBS"
  · rw [if_pos h3] at h; cases h
    have : typeOf (c! "observers") = c! "NamesType" := by kernel_rfl
    show Valid xsd S (.typed (typeOf (c! "observers")) _) ↔ _
    rw [this, names_iff hl, h3]
    simp (decide := true) only [true_imp_iff, false_imp_iff, and_true, true_and]
  rw [if_neg h3] at h
  by_cases h4 : k = c! "MEA"
  · rw [if_pos h4] at h; cases h
    have : typeOf (c! "measurers") = c! "NamesType" := by kernel_rfl
    show Valid xsd S (.typed (typeOf (c! "measurers")) _) ↔ _
    rw [this, names_iff hl, h4]
    simp (decide := true) only [true_imp_iff, false_imp_iff, and_true, true_and]
  rw [if_neg h4] at h
  by_cases h5 : k = c! "TEL"
  · rw [if_pos h5] at h; cases h
    have : typeOf (c! "telescope") = c! "TelescopeType" := by kernel_rfl
    show Valid xsd S (.typed (typeOf (c! "telescope")) _) ↔ _
    rw [this, tel_iff hl, h5]
    simp (decide := true) only [true_imp_iff, false_imp_iff, true_and]
  rw [if_neg h5] at h; cases h

def contextParts : List (Str × Bool) := [(c! "observatory", false), (c! "submitter", false), (c! "observers", true), (c! "measurers", false), (c! "telescope", false), (c! "software", true),
  (c! "coinvestigators", true), (c! "collaborators", true), (c! "fundingSource", true), (c! "comment", true)]

theorem context_plain : plainType (c! "ObsContextType") = true := by decide +kernel
theorem context_content : contentOf (c! "ObsContextType") = [.all false (contextParts.map fun p => .elemRef p.1 p.2 false)] := by kernel_rfl
theorem context_types : ∀ p ∈ kidsOf (c! "ObsContextType"), p.2 = typeOf p.1 := by decide +kernel

theorem header_some {k : Str} (hk : k ∈ tagsOf.map (·.1)) (v : Str) : ∃ e, headerElem k v = some e ∧ (k, e.tag) ∈ tagsOf := by
  have : ∃ e, headerElem k v = some e := by
    simp only [tagsOf, List.map_cons, List.map_nil, List.mem_cons, List.not_mem_nil, or_false] at hk
    rcases hk with rfl | rfl | rfl | rfl | rfl <;> exact ⟨_, rfl⟩
  obtain ⟨e, he⟩ := this
  exact ⟨e, he, header_tag he⟩

theorem first_le {hs : List (Str × Str)} (hl : ∀ h ∈ hs, h.2.length ≤ 100) {k v : Str} (h : firstOf k hs = some v) : v.length ≤ 100 := by
  unfold firstOf at h
  obtain ⟨x, hx, rfl⟩ := Option.map_eq_some_iff.1 h
  exact hl x (List.mem_of_find?_eq_some hx)

theorem context_iff {hs : List (Str × Str)} (hl : ∀ h ∈ hs, h.2.length ≤ 100) : Valid xsd S (.typed (c! "ObsContextType") (Spec.Mpc80.contextElem hs)) ↔ HeadersSound hs := by
  have hcl : ∀ v ∈ commentLines hs, v.length ≤ 100 := by
    intro v hv
    obtain ⟨x, hx, rfl⟩ := List.mem_map.1 hv
    exact hl x (List.mem_of_mem_filter hx)
  have hcm : ∀ v, v ∈ commentLines hs ↔ ∃ h ∈ hs, h.1 = c! "COM" ∧ h.2 = v := by
    intro v
    simp only [commentLines, List.mem_map, List.mem_filter, decide_eq_true_eq]
    exact ⟨fun ⟨x, ⟨h1, h2⟩, h3⟩ => ⟨x, h1, h2, h3⟩, fun ⟨x, h1, h2, h3⟩ => ⟨x, ⟨h1, h2⟩, h3⟩⟩
  generalize hcom : (if commentLines hs = [] then [] else [nodeOf (c! "comment") ((commentLines hs).map (leafOf (c! "line")))]) = com
  have ce : Spec.Mpc80.contextElem hs = nodeOf (c! "obsContext") (headerElems [] hs ++ com) := by rw [← hcom]; rfl
  have comTag : ∀ e ∈ com, e.tag = c! "comment" := by
    intro e he
    rw [← hcom] at he
    split at he
    · simp at he
    · simp at he; rw [he]; rfl
  have ctype : typeOf (c! "comment") = c! "CommentType" := by kernel_rfl
  have cval : (∀ e ∈ com, Valid xsd S (.typed (typeOf e.tag) e)) ↔ ∀ v ∈ commentLines hs, Written v := by
    rw [← hcom]
    by_cases hc : commentLines hs = []
    · simp [hc]
    · rw [if_neg hc, ← com_iff (tag := c! "comment") hc hcl]
      simp only [List.mem_singleton, forall_eq]
      rw [← ctype]; rfl
  have kcom : ∀ k, (k, c! "comment") ∉ tagsOf := by
    intro k hk
    have : ∀ x ∈ tagsOf, x.2 ≠ c! "comment" := by decide +kernel
    exact this _ hk rfl
  -- an element of a tag is the one of the first line with the keyword
  have pick : ∀ {k t : Str}, (k, t) ∈ tagsOf → ∀ {e : Elem}, e ∈ headerElems [] hs ++ com → e.tag = t → ∃ v, firstOf k hs = some v ∧ headerElem k v = some e := by
    intro k t hk e he et
    rcases List.mem_append.1 he with he | he
    · obtain ⟨k', v, -, -, h3, h4⟩ := header_mem.1 he
      have : k' = k := tags_inj _ (header_tag h4) _ hk et
      subst this
      exact ⟨v, h3, h4⟩
    · rw [comTag e he] at et
      subst et
      exact absurd hk (kcom k)
  rw [ce]
  constructor
  · intro hv
    obtain ⟨w, m1, m2, -, -⟩ := node_kids context_plain hv
    have kv : ∀ e ∈ headerElems [] hs ++ com, Valid xsd S (.typed (typeOf e.tag) e) := fun e he => kid_valid context_plain hv he fun p hp hn => by rw [context_types p hp, hn]
    rw [context_content] at m1
    have m1 := seq_one m1
    have m1 := part_once (by rfl) (by rfl) m1
    have m1 : Matches S (.all (contextParts.map fun p => .elemRef p.1 p.2 false)) w := by cases m1; assumption
    have req : ∀ {k t : Str}, (k, t) ∈ tagsOf → (t, false) ∈ contextParts → ∃ v, firstOf k hs = some v ∧ LineSound k v := by
      intro k t hk ht
      have := kids_mem m2 (all_mem m1 (r := t) (m := false) (List.mem_map.2 ⟨(t, false), ht, rfl⟩))
      obtain ⟨e, he, et⟩ := List.mem_map.1 this
      obtain ⟨v, h1, h2⟩ := pick hk he et
      exact ⟨v, h1, (line_iff h2 (first_le hl h1)).1 (kv e he)⟩
    refine ⟨?_, ?_, ?_, ?_, ?_, ?_⟩
    · obtain ⟨v, h1, h2⟩ := req (k := c! "COD") (t := c! "observatory") (by decide) (by decide)
      exact ⟨v, h1, h2.1 rfl⟩
    · obtain ⟨v, h1, h2⟩ := req (k := c! "CON") (t := c! "submitter") (by decide) (by decide)
      exact ⟨v, h1, h2.2.1 rfl⟩
    · obtain ⟨v, h1, h2⟩ := req (k := c! "MEA") (t := c! "measurers") (by decide) (by decide)
      exact ⟨v, h1, h2.2.2.1 (.inr rfl)⟩
    · obtain ⟨v, h1, h2⟩ := req (k := c! "TEL") (t := c! "telescope") (by decide) (by decide)
      exact ⟨v, h1, h2.2.2.2 rfl⟩
    · intro v h1
      obtain ⟨e, he, -⟩ := header_some (k := c! "OBS") (by decide) v
      have hm : e ∈ headerElems [] hs := header_mem.2 ⟨_, v, by simp, by decide, h1, he⟩
      exact ((line_iff he (first_le hl h1)).1 (kv e (List.mem_append_left _ hm))).2.2.1 (.inl rfl)
    · intro h hh hk
      exact cval.1 (fun e he => kv e (List.mem_append_right _ he)) h.2 ((hcm _).2 ⟨h, hh, hk, rfl⟩)
  · intro s
    have lines : ∀ k v, firstOf k hs = some v → LineSound k v := by
      intro k v h1
      refine ⟨?_, ?_, ?_, ?_⟩
      · rintro rfl; obtain ⟨u, h2, h3⟩ := s.cod; rw [h2] at h1; cases h1; exact h3
      · rintro rfl; obtain ⟨u, h2, h3⟩ := s.con; rw [h2] at h1; cases h1; exact h3
      · rintro (rfl | rfl)
        · exact s.obs v h1
        · obtain ⟨u, h2, h3⟩ := s.mea; rw [h2] at h1; cases h1; exact h3
      · rintro rfl; obtain ⟨u, h2, h3⟩ := s.tel; rw [h2] at h1; cases h1; exact h3
    have kv : ∀ e ∈ headerElems [] hs ++ com, Valid xsd S (.typed (typeOf e.tag) e) := by
      intro e he
      rcases List.mem_append.1 he with he | he
      · obtain ⟨k, v, -, -, h3, h4⟩ := header_mem.1 he
        exact (line_iff h4 (first_le hl h3)).2 (lines k v h3)
      · exact cval.2 (fun v hv => by obtain ⟨h, hh, hk, rfl⟩ := (hcm v).1 hv; exact s.com h hh hk) e he
    have has : ∀ {k t : Str}, (k, t) ∈ tagsOf → k ≠ c! "COM" → (∃ v, firstOf k hs = some v) → t ∈ (headerElems [] hs ++ com).map Elem.tag := by
      intro k t hk hc ⟨v, h1⟩
      obtain ⟨e, he, ht⟩ := header_some (k := k) (List.mem_map.2 ⟨_, hk, rfl⟩) v
      have hm : e ∈ headerElems [] hs := header_mem.2 ⟨_, v, by simp, hc, h1, he⟩
      have key : ∀ x ∈ tagsOf, ∀ y ∈ tagsOf, x.1 = y.1 → x.2 = y.2 := by decide +kernel
      have : e.tag = t := key _ ht _ hk rfl
      rw [← this]
      exact List.mem_map_of_mem (List.mem_append_left _ hm)
    refine node_of context_plain (w := ((headerElems [] hs ++ com).map Elem.tag).map letter) ?_ ?_
    · rw [context_content]
      have := Matches.cons (S := S) (.once (.unordered (m := false) (all_of ((headerElems [] hs ++ com).map Elem.tag) contextParts ?_ (by decide +kernel) ?_ ?_ (by decide +kernel)))) .nil
      · rwa [List.append_nil] at this
      · rw [List.map_append]
        refine List.nodup_append.2 ⟨header_nodup, ?_, ?_⟩
        · rw [← hcom]; split <;> simp
        · intro a ha b hb
          obtain ⟨e, he, rfl⟩ := List.mem_map.1 ha
          obtain ⟨e', he', rfl⟩ := List.mem_map.1 hb
          rw [comTag e' he']
          intro et
          obtain ⟨k, v, -, -, -, h4⟩ := header_mem.1 he
          exact kcom k (by rw [← et]; exact header_tag h4)
      · intro t ht
        obtain ⟨e, he, rfl⟩ := List.mem_map.1 ht
        rcases List.mem_append.1 he with he | he
        · obtain ⟨k, v, -, -, -, h4⟩ := header_mem.1 he
          have key : ∀ x ∈ tagsOf, x.2 ∈ contextParts.map (·.1) := by decide +kernel
          exact key _ (header_tag h4)
        · rw [comTag e he]; decide
      · intro p hp hf
        have key : ∀ p ∈ contextParts, p.2 = false → p.1 = c! "observatory" ∨ p.1 = c! "submitter" ∨ p.1 = c! "measurers" ∨ p.1 = c! "telescope" := by decide +kernel
        rcases key p hp hf with e | e | e | e <;> rw [e]
        · exact has (k := c! "COD") (by decide) (by decide) (s.cod.imp fun _ h => h.1)
        · exact has (k := c! "CON") (by decide) (by decide) (s.con.imp fun _ h => h.1)
        · exact has (k := c! "MEA") (by decide) (by decide) (s.mea.imp fun _ h => h.1)
        · exact has (k := c! "TEL") (by decide) (by decide) (s.tel.imp fun _ h => h.1)
    · have := validKids (F := xsd) (S := S) (fun e => typeOf e.tag) _ kv
      rw [List.map_map]
      exact this

end Verif.Checked
