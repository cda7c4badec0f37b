import Verif.Lemmas.Trip80
import Verif.Lemmas.BackNormal
/-!
  Lemmas.Trip80Headers : the header lines for a context, and the context they are read as.
-/
set_option linter.unusedSimpArgs false
namespace Verif.Trip80
open Verif.Xml Verif.Spec Verif.Check Verif.Xsd Verif.PackUtil Verif.Mpc80
open Verif.Checked (tagsOf header_mem header_nodup header_tag first_cons)
open Verif.Spec.Mpc80 (leafOf nodeOf commaNames headerElem headerElems commentLines firstOf textsAt sharedPlaces Sendable ContextBack Printable Usual joinNames headerWords noBreak)

/-! ### as pairs of keyword and value -/

def partHeaders (i : Elem) : List (Str × Str) :=
  ((headerEach.filter fun h => h.1 = i.tag).flatMap fun h => (texts i [h.2.1]).map fun t => (h.2.2.take 3, t)) ++
  (headerAll.filter fun h => h.1 = i.tag).map fun h => (h.2.2.take 3, List.intercalate ", ".toList (texts i h.2.1))

def headersOf (ctx : Elem) : List (Str × Str) := ctx.kids.flatMap partHeaders

theorem each_key : ∀ h ∈ headerEach, h.2.2 = h.2.2.take 3 ++ [' '] ∧ h.2.2.take 3 ∈ headerWords := by decide
theorem all_key : ∀ h ∈ headerAll, h.2.2 = h.2.2.take 3 ++ [' '] ∧ h.2.2.take 3 ∈ headerWords := by decide

theorem headers_lines (ctx : Elem) : (headersOf ctx).map (fun x => x.1 ++ [' '] ++ x.2) = headerLines ctx := by
  unfold headersOf headerLines
  rw [List.map_flatMap]
  congr 1
  funext i
  unfold partHeaders
  rw [List.map_append, List.map_flatMap, List.map_map]
  congr 1
  · rw [List.flatMap_def, List.flatMap_def]
    congr 1
    refine List.map_congr_left fun h hh => ?_
    rw [List.map_map]
    refine List.map_congr_left fun t _ => ?_
    simp only [Function.comp]
    rw [← (each_key h (List.mem_filter.1 hh).1).1]
  · refine List.map_congr_left fun h hh => ?_
    simp only [Function.comp]
    rw [← (all_key h (List.mem_filter.1 hh).1).1]

theorem part_word {i : Elem} {x : Str × Str} (h : x ∈ partHeaders i) : x.1 ∈ headerWords := by
  unfold partHeaders at h
  rcases List.mem_append.1 h with h | h
  · obtain ⟨y, hy, h⟩ := List.mem_flatMap.1 h
    obtain ⟨t, -, rfl⟩ := List.mem_map.1 h
    exact (each_key y (List.mem_filter.1 hy).1).2
  · obtain ⟨y, hy, rfl⟩ := List.mem_map.1 h
    exact (all_key y (List.mem_filter.1 hy).1).2

theorem word_len : ∀ k ∈ headerWords, k.length = 3 := by decide

theorem headers_ok {ctx : Elem} (h : Sendable ctx) : ∀ x ∈ headersOf ctx, x.1 ∈ headerWords ∧ x.2.length ≤ 76 ∧ noBreak x.2 ∧ Printable x.2 := by
  intro x hx
  have hw : x.1 ∈ headerWords := by
    obtain ⟨i, -, hi⟩ := List.mem_flatMap.1 hx
    exact part_word hi
  obtain ⟨h1, h2⟩ := h.lines (x.1 ++ [' '] ++ x.2) (by rw [← headers_lines]; exact List.mem_map_of_mem (f := fun x : Str × Str => x.1 ++ [' '] ++ x.2) hx)
  have h3 := word_len _ hw
  have hp : Printable x.2 := fun c hc => h2 c (by simp [hc])
  refine ⟨hw, ?_, ⟨fun hc => ?_, fun hc => ?_⟩, hp⟩
  · simp only [List.length_append, List.length_cons, List.length_nil] at h1; omega
  · exact absurd (hp _ hc).1 (by decide)
  · exact absurd (hp _ hc).1 (by decide)

/-! ### the parts -/

theorem part_comment {i : Elem} (h : i.tag = c! "comment") : partHeaders i = (texts i [c! "line"]).map fun t => (c! "COM", t) := by
  unfold partHeaders
  rw [h, show headerEach.filter (fun h => h.1 = c! "comment") = [(c! "comment", c! "line", c! "COM ")] by decide, show headerAll.filter (fun h => h.1 = c! "comment") = [] by decide]
  simp
theorem part_cod {i : Elem} (h : i.tag = c! "observatory") : partHeaders i = (texts i [c! "mpcCode"]).map fun t => (c! "COD", t) := by
  unfold partHeaders
  rw [h, show headerEach.filter (fun h => h.1 = c! "observatory") = [(c! "observatory", c! "mpcCode", c! "COD ")] by decide, show headerAll.filter (fun h => h.1 = c! "observatory") = [] by decide]
  simp
theorem part_tel {i : Elem} (h : i.tag = c! "telescope") : partHeaders i = (texts i [c! "name"]).map fun t => (c! "TEL", t) := by
  unfold partHeaders
  rw [h, show headerEach.filter (fun h => h.1 = c! "telescope") = [(c! "telescope", c! "name", c! "TEL ")] by decide, show headerAll.filter (fun h => h.1 = c! "telescope") = [] by decide]
  simp
theorem inter_eq (l : List Str) : List.intercalate ", ".toList l = joinNames l := by
  have := ToMpc80.comma_eq l
  rw [ToMpc80.join_eq] at this
  exact this.symm
theorem part_con {i : Elem} (h : i.tag = c! "submitter") : partHeaders i = [(c! "CON", joinNames (texts i [c! "name", c! "institution"]))] := by
  unfold partHeaders
  rw [h, show headerEach.filter (fun h => h.1 = c! "submitter") = [] by decide, show headerAll.filter (fun h => h.1 = c! "submitter") = [(c! "submitter", [c! "name", c! "institution"], c! "CON ")] by decide]
  simp [← inter_eq]
theorem part_obs {i : Elem} (h : i.tag = c! "observers") : partHeaders i = [(c! "OBS", joinNames (texts i [c! "name"]))] := by
  unfold partHeaders
  rw [h, show headerEach.filter (fun h => h.1 = c! "observers") = [] by decide, show headerAll.filter (fun h => h.1 = c! "observers") = [(c! "observers", [c! "name"], c! "OBS ")] by decide]
  simp [← inter_eq]
theorem part_mea {i : Elem} (h : i.tag = c! "measurers") : partHeaders i = [(c! "MEA", joinNames (texts i [c! "name"]))] := by
  unfold partHeaders
  rw [h, show headerEach.filter (fun h => h.1 = c! "measurers") = [] by decide, show headerAll.filter (fun h => h.1 = c! "measurers") = [(c! "measurers", [c! "name"], c! "MEA ")] by decide]
  simp [← inter_eq]

/-- keywords and parts -/
def keyParts : List (Str × Str) := (c! "COM", c! "comment") :: tagsOf

theorem each_pair : ∀ h ∈ headerEach, (h.2.2.take 3, h.1) ∈ keyParts := by decide
theorem all_pair : ∀ h ∈ headerAll, (h.2.2.take 3, h.1) ∈ keyParts := by decide

theorem part_key {i : Elem} {x : Str × Str} (h : x ∈ partHeaders i) : (x.1, i.tag) ∈ keyParts := by
  unfold partHeaders at h
  rcases List.mem_append.1 h with h | h
  · obtain ⟨y, hy, h⟩ := List.mem_flatMap.1 h
    obtain ⟨t, -, rfl⟩ := List.mem_map.1 h
    have := each_pair y (List.mem_filter.1 hy).1
    have e : y.1 = i.tag := by simpa using (List.mem_filter.1 hy).2
    rw [← e]; exact this
  · obtain ⟨y, hy, rfl⟩ := List.mem_map.1 h
    have := all_pair y (List.mem_filter.1 hy).1
    have e : y.1 = i.tag := by simpa using (List.mem_filter.1 hy).2
    rw [← e]; exact this

theorem key_inj : ∀ x ∈ keyParts, ∀ y ∈ keyParts, x.1 = y.1 → x.2 = y.2 := by decide +kernel

/-! ### the first line of a kind -/

theorem first_none {k : Str} {hs : List (Str × Str)} (h : ∀ x ∈ hs, x.1 ≠ k) : firstOf k hs = none := by
  unfold firstOf
  rw [List.find?_eq_none.2 (fun x hx => by simpa using h x hx)]; rfl

theorem first_append {k : Str} {a b : List (Str × Str)} : firstOf k (a ++ b) = (firstOf k a).or (firstOf k b) := by
  induction a with
  | nil => simp [firstOf]
  | cons x a ih =>
    obtain ⟨k', v⟩ := x
    rw [List.cons_append, first_cons, first_cons]
    by_cases h : k' = k
    · simp [h]
    · simp only [if_neg h]; exact ih

theorem first_kid {k p : Str} (hk : (k, p) ∈ keyParts) : ∀ {l : List Elem} {i : Elem}, (l.map Elem.tag).Nodup → i ∈ l → i.tag = p → firstOf k (l.flatMap partHeaders) = firstOf k (partHeaders i)
  | j :: l, i, hn, hi, ht => by
    rw [List.map_cons, List.nodup_cons] at hn
    rw [List.flatMap_cons, first_append]
    have others : ∀ m : Elem, m.tag ≠ p → firstOf k (partHeaders m) = none := fun m hm => first_none fun x hx e => hm (key_inj _ (part_key hx) _ hk e)
    rcases List.mem_cons.1 hi with rfl | hi
    · have : firstOf k (l.flatMap partHeaders) = none := by
        refine first_none fun x hx e => ?_
        obtain ⟨m, hm, hx⟩ := List.mem_flatMap.1 hx
        have : m.tag = p := key_inj _ (part_key hx) _ hk e
        exact hn.1 (by rw [ht, ← this]; exact List.mem_map_of_mem hm)
      rw [this, Option.or_none]
    · rw [others j (fun e => hn.1 (by rw [e, ← ht]; exact List.mem_map_of_mem hi)), Option.none_or]
      exact first_kid hk hn.2 hi ht

theorem first_no_kid {k p : Str} (hk : (k, p) ∈ keyParts) {l : List Elem} (h : ∀ i ∈ l, i.tag ≠ p) : firstOf k (l.flatMap partHeaders) = none := by
  refine first_none fun x hx e => ?_
  obtain ⟨m, hm, hx⟩ := List.mem_flatMap.1 hx
  exact h m hm (key_inj _ (part_key hx) _ hk e)

theorem comments_append {a b : List (Str × Str)} : commentLines (a ++ b) = commentLines a ++ commentLines b := by simp [commentLines]

theorem comments_eq {ctx : Elem} : commentLines (headersOf ctx) = textsAt ctx (c! "comment") (c! "line") := by
  unfold headersOf textsAt
  induction ctx.kids with
  | nil => rfl
  | cons i l ih =>
    rw [List.flatMap_cons, comments_append, ih]
    by_cases h : i.tag = c! "comment"
    · rw [List.filter_cons_of_pos (by simpa using h), List.flatMap_cons, part_comment h]
      congr 1
      unfold commentLines
      rw [List.filter_eq_self.2 (by intro x hx; obtain ⟨t, -, rfl⟩ := List.mem_map.1 hx; simp), List.map_map]
      simp [Function.comp_def]
    · rw [List.filter_cons_of_neg (by simpa using h)]
      have : commentLines (partHeaders i) = [] := by
        unfold commentLines
        rw [List.filter_eq_nil_iff.2 (by
          intro x hx e
          exact h (key_inj _ (part_key hx) (c! "COM", c! "comment") (by decide) (by simpa using e)))]
        rfl
      rw [this, List.nil_append]

/-! ### texts -/

theorem texts_at_kid {ctx i : Elem} {p n : Str} (hn : (ctx.kids.map Elem.tag).Nodup) (hi : i ∈ ctx.kids) (ht : i.tag = p) : textsAt ctx p n = texts i [n] := by
  unfold textsAt
  generalize ctx.kids = l at hn hi
  have : l.filter (fun i => i.tag = p) = [i] := by
    induction l with
    | nil => cases hi
    | cons j l ih =>
      rw [List.map_cons, List.nodup_cons] at hn
      rcases List.mem_cons.1 hi with rfl | hi
      · rw [List.filter_cons_of_pos (by simpa using ht), List.filter_eq_nil_iff.2]
        intro m hm e
        exact hn.1 (by rw [ht, ← (by simpa using e : m.tag = p)]; exact List.mem_map_of_mem hm)
      · rw [List.filter_cons_of_neg, ih hn.2 hi]
        intro e
        exact hn.1 (by rw [(by simpa using e : j.tag = p), ← ht]; exact List.mem_map_of_mem hi)
  rw [this]; simp

theorem texts_at_none {ctx : Elem} {p n : Str} (h : ∀ i ∈ ctx.kids, i.tag ≠ p) : textsAt ctx p n = [] := by
  unfold textsAt
  rw [List.filter_eq_nil_iff.2 (fun i hi => by simpa using h i hi)]; rfl

theorem texts_stripped {i : Elem} {ns : List Str} {t : Str} (h : t ∈ texts i ns) : strip t = t := by
  obtain ⟨j, -, rfl⟩ := List.mem_map.1 h
  exact ToPsv.strip_strip _

theorem texts_leaves {p n : Str} {vs : List Str} : texts (nodeOf p (vs.map (leafOf n))) [n] = vs.map strip := by
  unfold texts
  rw [ToMpc80.kids_node, List.filter_eq_self.2 (by intro x hx; obtain ⟨t, -, rfl⟩ := List.mem_map.1 hx; simp [ToMpc80.tag_leaf]), List.map_map]
  refine List.map_congr_left fun v _ => ?_
  simp only [Function.comp, leafOf]
  show strip ((if v = [] then none else some v).getD []) = strip v
  by_cases h : v = [] <;> simp [h]

theorem texts_leaf_other {p n m : Str} {vs : List Str} (h : n ≠ m) : texts (nodeOf p (vs.map (leafOf n))) [m] = [] := by
  unfold texts
  rw [ToMpc80.kids_node, List.filter_eq_nil_iff.2 (by intro x hx; obtain ⟨t, -, rfl⟩ := List.mem_map.1 hx; simpa [ToMpc80.tag_leaf] using h)]
  rfl

end Verif.Trip80
