import Verif.Lemmas.Trip80Headers
/-!
  Lemmas.Trip80Context : what is left of a context.
-/
set_option linter.unusedSimpArgs false
namespace Verif.Trip80
open Verif.Xml Verif.Spec Verif.Check Verif.Xsd Verif.PackUtil Verif.Mpc80
open Verif.Checked (tagsOf header_mem header_nodup header_tag first_cons header_some tags_inj)
open Verif.Spec.Mpc80 (leafOf nodeOf commaNames headerElem headerElems commentLines firstOf textsAt sharedPlaces Sendable ContextBack Printable Usual joinNames headerWords noBreak)

abbrev readAs (hs : List (Str × Str)) : Elem := Spec.Mpc80.contextElem hs

theorem read_kids (hs : List (Str × Str)) : (readAs hs).kids = headerElems [] hs ++ (if commentLines hs = [] then [] else [nodeOf (c! "comment") ((commentLines hs).map (leafOf (c! "line")))]) := rfl

theorem elem_kind {hs : List (Str × Str)} {e : Elem} (h : e ∈ headerElems [] hs) : e.tag ∈ tagsOf.map Prod.snd := by
  obtain ⟨k, v, -, -, -, h4⟩ := header_mem.1 h
  exact List.mem_map_of_mem (f := Prod.snd) (header_tag h4)

theorem not_comment : c! "comment" ∉ tagsOf.map Prod.snd := by decide

theorem read_once (hs : List (Str × Str)) : ((readAs hs).kids.map Elem.tag).Nodup := by
  rw [read_kids]
  by_cases h : commentLines hs = []
  · rw [if_pos h, List.append_nil]; exact header_nodup
  · rw [if_neg h, List.map_append]
    refine List.nodup_append.2 ⟨header_nodup, by simp, ?_⟩
    intro a ha b hb e
    obtain ⟨x, hx, rfl⟩ := List.mem_map.1 ha
    obtain rfl : b = c! "comment" := by simpa [ToMpc80.tag_node] using hb
    exact not_comment (e ▸ elem_kind hx)

theorem tags_com : ∀ x ∈ tagsOf, x.1 ≠ c! "COM" ∧ x.2 ≠ c! "comment" := by decide
theorem tags_fun : ∀ x ∈ tagsOf, ∀ y ∈ tagsOf, x.1 = y.1 → x.2 = y.2 := by decide +kernel

theorem read_some {hs : List (Str × Str)} {k p v n : Str} (hk : (k, p) ∈ tagsOf) (hf : firstOf k hs = some v) {e : Elem} (he : headerElem k v = some e) : textsAt (readAs hs) p n = texts e [n] := by
  have ht : e.tag = p := tags_fun _ (header_tag he) _ hk rfl
  refine texts_at_kid (read_once hs) ?_ ht
  rw [read_kids]
  exact List.mem_append.2 (.inl (header_mem.2 ⟨k, v, by simp, (tags_com _ hk).1, hf, he⟩))

theorem read_none {hs : List (Str × Str)} {k p n : Str} (hk : (k, p) ∈ tagsOf) (hf : firstOf k hs = none) : textsAt (readAs hs) p n = [] := by
  refine texts_at_none fun i hi e => ?_
  rw [read_kids] at hi
  rcases List.mem_append.1 hi with hi | hi
  · obtain ⟨k', v, -, -, h3, h4⟩ := header_mem.1 hi
    have := tags_inj _ (header_tag h4) _ hk e
    simp only at this
    rw [this, hf] at h3
    cases h3
  · split at hi
    · cases hi
    · obtain rfl : i = _ := by simpa using hi
      exact (tags_com _ hk).2 e.symm

/-- one child of a name -/
theorem texts_unique {i : Elem} {n : Str} (hn : (i.kids.map Elem.tag).Nodup) : texts i [n] = [] ∧ n ∉ i.kids.map Elem.tag ∨ ∃ k ∈ i.kids, k.tag = n ∧ texts i [n] = [strip (k.text.getD [])] := by
  by_cases h : n ∈ i.kids.map Elem.tag
  · obtain ⟨k, hk, e⟩ := List.mem_map.1 h
    refine .inr ⟨k, hk, e, ?_⟩
    unfold texts
    have : i.kids.filter (fun j => j.tag ∈ [n]) = [k] := by
      generalize i.kids = l at hn hk
      induction l with
      | nil => cases hk
      | cons j l ih =>
        rw [List.map_cons, List.nodup_cons] at hn
        rcases List.mem_cons.1 hk with rfl | hk
        · rw [List.filter_cons_of_pos (by simpa using e), List.filter_eq_nil_iff.2]
          intro m hm e'
          exact hn.1 (by rw [e, ← (by simpa using e' : m.tag = n)]; exact List.mem_map_of_mem hm)
        · rw [List.filter_cons_of_neg, ih hn.2 hk]
          intro e'
          exact hn.1 (by rw [(by simpa using e' : j.tag = n), ← e]; exact List.mem_map_of_mem hk)
    rw [this]; rfl
  · refine .inl ⟨?_, h⟩
    unfold texts
    rw [List.filter_eq_nil_iff.2 (by
      intro k hk e
      exact h (by rw [← (by simpa using e : k.tag = n)]; exact List.mem_map_of_mem hk))]
    rfl

theorem strip_blank (t : Str) : strip (' ' :: t) = strip t := ToPsv.strip_cons_space (by decide) t

/-- names -/
theorem names_back {ctx : Elem} {k p : Str} (hk : k = c! "OBS" ∧ p = c! "observers" ∨ k = c! "MEA" ∧ p = c! "measurers") (hw : WellContext ctx) (hc : ∀ t ∈ textsAt ctx p (c! "name"), ',' ∉ t) :
    textsAt (readAs (headersOf ctx)) p (c! "name") = textsAt ctx p (c! "name") := by
  have hkp : (k, p) ∈ tagsOf := by rcases hk with ⟨rfl, rfl⟩ | ⟨rfl, rfl⟩ <;> decide
  have hkp' : (k, p) ∈ keyParts := List.mem_cons_of_mem _ hkp
  by_cases h : ∃ i ∈ ctx.kids, i.tag = p
  · obtain ⟨i, hi, ht⟩ := h
    have hparts : partHeaders i = [(k, joinNames (texts i [c! "name"]))] := by
      rcases hk with ⟨rfl, rfl⟩ | ⟨rfl, rfl⟩
      · exact part_obs ht
      · exact part_mea ht
    have hf : firstOf k (headersOf ctx) = some (joinNames (texts i [c! "name"])) := by
      unfold headersOf
      rw [first_kid hkp' hw.once hi ht, hparts, first_cons, if_pos rfl]
    have he : headerElem k (joinNames (texts i [c! "name"])) = some (nodeOf p ((commaNames (joinNames (texts i [c! "name"]))).map (leafOf (c! "name")))) := by
      rcases hk with ⟨rfl, rfl⟩ | ⟨rfl, rfl⟩ <;> rfl
    rw [read_some hkp hf he, texts_at_kid hw.once hi ht, texts_leaves]
    rw [texts_at_kid hw.once hi ht] at hc
    obtain ⟨n1, n2⟩ := hw.names i hi (by rcases hk with ⟨-, rfl⟩ | ⟨-, rfl⟩ <;> simp [ht])
    have hall : ∀ t ∈ texts i [c! "name"], strip t = t := fun t => texts_stripped
    have hne : texts i [c! "name"] ≠ [] := by
      unfold texts
      rw [List.filter_eq_self.2 (by intro x hx; simp [n2 x hx])]
      simpa using n1
    generalize texts i [c! "name"] = ts at hc hall hne
    cases ts with
    | nil => exact absurd rfl hne
    | cons x l =>
      rw [ToMpc80.names_join (hc x (by simp)) fun w hw => hc w (by simp [hw]), List.map_cons, List.map_map, hall x (by simp)]
      congr 1
      have : ∀ w ∈ l, (strip ∘ (' ' :: ·)) w = id w := fun w hw => by simp [strip_blank, hall w (by simp [hw])]
      rw [List.map_congr_left this, List.map_id]
  · have h' : ∀ i ∈ ctx.kids, i.tag ≠ p := fun i hi e => h ⟨i, hi, e⟩
    rw [texts_at_none h']
    exact read_none hkp (first_no_kid hkp' h')

theorem takeWhile_comma {a b : Str} (h : ',' ∉ a) : (a ++ ',' :: b).takeWhile (· ≠ ',') = a ∧ (a ++ ',' :: b).dropWhile (· ≠ ',') = ',' :: b := by
  induction a with
  | nil => simp
  | cons c a ih =>
    simp only [List.mem_cons, not_or] at h
    obtain ⟨h1, h2⟩ := ih h.2
    refine ⟨?_, ?_⟩
    · rw [List.cons_append, List.takeWhile_cons_of_pos (by simpa using Ne.symm h.1), h1]
    · rw [List.cons_append, List.dropWhile_cons_of_pos (by simpa using Ne.symm h.1), h2]

theorem texts_pair {p x y : Str} : texts (nodeOf p [leafOf (c! "name") x, leafOf (c! "institution") y]) [c! "name"] = [strip x] ∧
    texts (nodeOf p [leafOf (c! "name") x, leafOf (c! "institution") y]) [c! "institution"] = [strip y] := by
  have hl : ∀ n v : Str, strip ((leafOf n v).text.getD []) = strip v := by
    intro n v
    show strip ((if v = [] then none else some v).getD []) = strip v
    by_cases h : v = [] <;> simp [h]
  unfold texts
  simp only [ToMpc80.kids_node]
  refine ⟨?_, ?_⟩
  · rw [List.filter_cons_of_pos (by simp [ToMpc80.tag_leaf]), List.filter_cons_of_neg (by simp [ToMpc80.tag_leaf])]
    simp [hl]
  · rw [List.filter_cons_of_neg (by simp [ToMpc80.tag_leaf]), List.filter_cons_of_pos (by simp [ToMpc80.tag_leaf])]
    simp [hl]

/-- the submitter -/
theorem submitter_kids {i : Elem} (h1 : (i.kids.map Elem.tag).Nodup) (h2 : ∀ k ∈ i.kids, k.tag = c! "name" ∨ k.tag = c! "institution") (h3 : c! "name" ∈ i.kids.map Elem.tag)
    (h4 : ∀ k ∈ i.kids.head?, k.tag = c! "name") : ∃ n, n.tag = c! "name" ∧ (i.kids = [n] ∨ ∃ m, m.tag = c! "institution" ∧ i.kids = [n, m]) := by
  generalize i.kids = l at h1 h2 h3 h4
  match l, h1, h2, h3, h4 with
  | [], _, _, h3, _ => simp at h3
  | [n], _, _, _, h4 => exact ⟨n, h4 n rfl, .inl rfl⟩
  | [n, m], h1, h2, _, h4 =>
    have hn := h4 n rfl
    refine ⟨n, hn, .inr ⟨m, ?_, rfl⟩⟩
    rcases h2 m (by simp) with h | h
    · simp [hn, h] at h1
    · exact h
  | n :: m :: o :: l, h1, h2, _, h4 =>
    have hn := h4 n rfl
    exfalso
    rcases h2 m (by simp) with h | h
    · simp [hn, h] at h1
    · rcases h2 o (by simp) with h' | h'
      · simp [hn, h'] at h1
      · simp [h, h'] at h1

theorem submitter_back {ctx : Elem} (hw : WellContext ctx) (hs : Sendable ctx) {n : Str} (hn : n = c! "name" ∨ n = c! "institution") :
    textsAt (readAs (headersOf ctx)) (c! "submitter") n = textsAt ctx (c! "submitter") n := by
  have hkp : (c! "CON", c! "submitter") ∈ tagsOf := by decide
  obtain ⟨i, hi, ht⟩ := List.mem_map.1 (hw.needs (c! "submitter") (by decide))
  obtain ⟨k1, k2, k3⟩ := hw.con i hi ht
  obtain ⟨x, hx, hk⟩ := submitter_kids k1 k2 k3 (hs.order i hi ht)
  have hf : firstOf (c! "CON") (headersOf ctx) = some (joinNames (texts i [c! "name", c! "institution"])) := by
    unfold headersOf
    rw [first_kid (List.mem_cons_of_mem _ hkp) hw.once hi ht, part_con ht, first_cons, if_pos rfl]
  have hcm : ∀ t ∈ texts i [c! "name"], ',' ∉ t := fun t h => hs.commas (c! "submitter") (by decide) t (by rw [texts_at_kid hw.once hi ht]; exact h)
  rw [texts_at_kid hw.once hi ht]
  rcases hk with hk | ⟨y, hy, hk⟩
  · have e1 : texts i [c! "name", c! "institution"] = [strip (x.text.getD [])] := by unfold texts; rw [hk]; simp [hx]
    have e2 : texts i [c! "name"] = [strip (x.text.getD [])] := by unfold texts; rw [hk]; simp [hx]
    have e3 : texts i [c! "institution"] = [] := by unfold texts; rw [hk]; simp [hx]
    have hno : ',' ∉ strip (x.text.getD []) := hcm _ (by rw [e2]; simp)
    rw [e1] at hf
    have he : headerElem (c! "CON") (joinNames [strip (x.text.getD [])]) = some (nodeOf (c! "submitter") ([strip (x.text.getD [])].map (leafOf (c! "name")))) := by
      unfold headerElem
      rw [if_neg (by decide), if_pos rfl, if_neg (by simpa [joinNames] using hno)]
      rfl
    rw [read_some hkp hf he]
    rcases hn with rfl | rfl
    · rw [texts_leaves, e2]; simp [ToPsv.strip_strip]
    · rw [texts_leaf_other (by decide), e3]
  · have e1 : texts i [c! "name", c! "institution"] = [strip (x.text.getD []), strip (y.text.getD [])] := by unfold texts; rw [hk]; simp [hx, hy]
    have e2 : texts i [c! "name"] = [strip (x.text.getD [])] := by unfold texts; rw [hk]; simp [hx, hy]
    have e3 : texts i [c! "institution"] = [strip (y.text.getD [])] := by unfold texts; rw [hk]; simp [hx, hy]
    have hno : ',' ∉ strip (x.text.getD []) := hcm _ (by rw [e2]; simp)
    rw [e1] at hf
    have hj : joinNames [strip (x.text.getD []), strip (y.text.getD [])] = strip (x.text.getD []) ++ ',' :: ' ' :: strip (y.text.getD []) := by simp [joinNames]
    obtain ⟨t1, t2⟩ := takeWhile_comma (b := ' ' :: strip (y.text.getD [])) hno
    have he : headerElem (c! "CON") (joinNames [strip (x.text.getD []), strip (y.text.getD [])]) =
        some (nodeOf (c! "submitter") [leafOf (c! "name") (strip (x.text.getD [])), leafOf (c! "institution") (' ' :: strip (y.text.getD []))]) := by
      unfold headerElem
      rw [if_neg (by decide), if_pos rfl, hj, if_pos (by simp), t1, t2]
      rfl
    rw [read_some hkp hf he]
    rcases hn with rfl | rfl
    · rw [texts_pair.1, e2]; simp [ToPsv.strip_strip]
    · rw [texts_pair.2, e3, strip_blank]; simp [ToPsv.strip_strip]

theorem context_back {ctx : Elem} (hw : WellContext ctx) (hs : Sendable ctx) : ContextBack ctx (readAs (headersOf ctx)) := by
  refine ⟨rfl, ?_, ?_⟩
  · intro x hx
    simp only [sharedPlaces, List.mem_cons, List.not_mem_nil, or_false] at hx
    rcases hx with rfl | rfl | rfl | rfl | rfl | rfl | rfl
    · -- observatory
      have hkp : (c! "COD", c! "observatory") ∈ tagsOf := by decide
      obtain ⟨i, hi, ht⟩ := List.mem_map.1 (hw.needs (c! "observatory") (by decide))
      obtain ⟨k1, k2⟩ := hw.cod i hi ht
      rcases texts_unique (n := c! "mpcCode") k1 with ⟨-, h⟩ | ⟨k, -, -, h⟩
      · exact absurd k2 h
      · have hf : firstOf (c! "COD") (headersOf ctx) = some (strip (k.text.getD [])) := by
          unfold headersOf
          rw [first_kid (List.mem_cons_of_mem _ hkp) hw.once hi ht, part_cod ht, h, List.map_cons, first_cons, if_pos rfl]
        have he : headerElem (c! "COD") (strip (k.text.getD [])) = some (nodeOf (c! "observatory") ([strip (k.text.getD [])].map (leafOf (c! "mpcCode")))) := rfl
        simp only
        rw [read_some hkp hf he, texts_at_kid hw.once hi ht, texts_leaves, h]
        simp [ToPsv.strip_strip]
    · exact submitter_back hw hs (.inl rfl)
    · exact submitter_back hw hs (.inr rfl)
    · exact names_back (.inl ⟨rfl, rfl⟩) hw (hs.commas _ (by decide))
    · exact names_back (.inr ⟨rfl, rfl⟩) hw (hs.commas _ (by decide))
    · -- telescope
      have hkp : (c! "TEL", c! "telescope") ∈ tagsOf := by decide
      obtain ⟨i, hi, ht⟩ := List.mem_map.1 (hw.needs (c! "telescope") (by decide))
      have k1 := hw.tel i hi ht
      simp only
      rw [texts_at_kid hw.once hi ht]
      rcases texts_unique (n := c! "name") k1 with ⟨h, -⟩ | ⟨k, -, -, h⟩
      · have hf : firstOf (c! "TEL") (headersOf ctx) = none := by
          unfold headersOf
          rw [first_kid (List.mem_cons_of_mem _ hkp) hw.once hi ht, part_tel ht, h]; rfl
        rw [read_none hkp hf, h]
      · have hf : firstOf (c! "TEL") (headersOf ctx) = some (strip (k.text.getD [])) := by
          unfold headersOf
          rw [first_kid (List.mem_cons_of_mem _ hkp) hw.once hi ht, part_tel ht, h, List.map_cons, first_cons, if_pos rfl]
        have he : headerElem (c! "TEL") (strip (k.text.getD [])) = some (nodeOf (c! "telescope")
            [leafOf (c! "name") (strip (k.text.getD [])), leafOf (c! "design") (c! "Unknown"), leafOf (c! "aperture") (c! "9999"), leafOf (c! "detector") (c! "Unknown")]) := rfl
        rw [read_some hkp hf he, h]
        have hl : strip ((leafOf (c! "name") (strip (k.text.getD []))).text.getD []) = strip (k.text.getD []) := by
          generalize hv : strip (k.text.getD []) = v
          have hv' : strip v = v := by rw [← hv, ToPsv.strip_strip]
          show strip ((if v = [] then none else some v).getD []) = v
          by_cases h : v = []
          · simp [h]; rfl
          · simp [h, hv']
        unfold texts
        simp only [ToMpc80.kids_node]
        rw [List.filter_cons_of_pos (by simp [ToMpc80.tag_leaf]), List.filter_cons_of_neg (by simp [ToMpc80.tag_leaf]), List.filter_cons_of_neg (by simp [ToMpc80.tag_leaf]), List.filter_cons_of_neg (by simp [ToMpc80.tag_leaf])]
        simp [hl]
    · -- comment
      simp only
      rw [← comments_eq (ctx := ctx)]
      by_cases h : commentLines (headersOf ctx) = []
      · rw [h]
        refine texts_at_none fun i hi e => ?_
        rw [read_kids, if_pos h, List.append_nil] at hi
        exact not_comment (e ▸ elem_kind hi)
      · rw [texts_at_kid (i := nodeOf (c! "comment") ((commentLines (headersOf ctx)).map (leafOf (c! "line")))) (read_once _) (by rw [read_kids, if_neg h]; simp) (p := c! "comment") rfl, texts_leaves]
        have : ∀ t ∈ commentLines (headersOf ctx), strip t = id t := by
          intro t ht
          rw [comments_eq] at ht
          obtain ⟨i, -, ht⟩ := List.mem_flatMap.1 ht
          exact texts_stripped ht
        rw [List.map_congr_left this, List.map_id]
  · intro i hi k hk
    rw [read_kids] at hi
    rcases List.mem_append.1 hi with hi | hi
    · obtain ⟨w, v, -, -, -, h4⟩ := header_mem.1 hi
      unfold headerElem at h4
      split at h4
      · cases h4
        left; obtain rfl : k = _ := by simpa [ToMpc80.kids_node] using hk
        rw [ToMpc80.tag_node, ToMpc80.tag_leaf]; decide
      split at h4
      · cases h4
        left
        rw [ToMpc80.kids_node] at hk
        split at hk
        · simp only [List.mem_cons, List.not_mem_nil, or_false] at hk
          rcases hk with rfl | rfl
          · rw [ToMpc80.tag_node, ToMpc80.tag_leaf]; decide
          · rw [ToMpc80.tag_node, ToMpc80.tag_leaf]; decide
        · obtain rfl : k = _ := by simpa using hk
          rw [ToMpc80.tag_node, ToMpc80.tag_leaf]; decide
      split at h4
      · cases h4
        left
        obtain ⟨t, -, rfl⟩ := List.mem_map.1 (by simpa only [ToMpc80.kids_node] using hk)
        rw [ToMpc80.tag_node, ToMpc80.tag_leaf]; decide
      split at h4
      · cases h4
        left
        obtain ⟨t, -, rfl⟩ := List.mem_map.1 (by simpa only [ToMpc80.kids_node] using hk)
        rw [ToMpc80.tag_node, ToMpc80.tag_leaf]; decide
      split at h4
      · cases h4
        rw [ToMpc80.kids_node] at hk
        simp only [List.mem_cons, List.not_mem_nil, or_false] at hk
        rcases hk with rfl | rfl | rfl | rfl
        · left; rw [ToMpc80.tag_node, ToMpc80.tag_leaf]; decide
        · right; exact ⟨rfl, by decide⟩
        · right; exact ⟨rfl, by decide⟩
        · right; exact ⟨rfl, by decide⟩
      · cases h4
    · split at hi
      · cases hi
      · obtain rfl : i = _ := by simpa using hi
        left
        obtain ⟨t, -, rfl⟩ := List.mem_map.1 (by simpa only [ToMpc80.kids_node] using hk)
        rw [ToMpc80.tag_node, ToMpc80.tag_leaf]; decide

end Verif.Trip80
