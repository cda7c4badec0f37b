import Verif.Lemmas.Mpc80Decode
namespace Verif.Mpc80
open Verif Verif.PackUtil

theorem run_lit : ∀ (k : Str) (s : Str), run (lit k) s = if s.take k.length = k then [(k, s.drop k.length, [])] else []
  | [], s => by simp [lit, cat, run]
  | [c], s => by
    cases s with
    | nil => simp [lit, cat, run]
    | cons d s =>
      simp only [lit, cat, run, List.map]
      by_cases h : ch c d = true
      · have := (ch_iff _ _).1 h; subst this; simp [h]
      · have : d ≠ c := fun e => h ((ch_iff _ _).2 e)
        simp [h, this]
  | c :: c' :: k, s => by
    have ih := run_lit (c' :: k)
    simp only [lit, List.map] at ih
    cases s with
    | nil => simp [lit, cat, run]
    | cons d s =>
      simp only [lit, List.map, cat, run]
      by_cases h : ch c d = true
      · have := (ch_iff _ _).1 h; subst this
        simp only [h, if_true, List.flatMap_cons, List.flatMap_nil, List.append_nil, ih s]
        by_cases h2 : s.take (k.length + 1) = c' :: k
        · simp [h2]
        · simp [h2]
      · have : d ≠ c := fun e => h ((ch_iff _ _).2 e)
        simp [h, this]

theorem run_alts_lit : ∀ (ks : List Str) (s : Str), ks ≠ [] →
    run (alts (ks.map lit)) s = (ks.filter fun k => s.take k.length = k).map fun k => (k, s.drop k.length, [])
  | [], _, h => absurd rfl h
  | [k], s, _ => by
    simp only [List.map, alts, run_lit]
    split <;> simp_all
  | k :: k' :: ks, s, _ => by
    have ih := run_alts_lit (k' :: ks) s (by simp)
    simp only [List.map] at ih
    simp only [List.map, alts, run, ih, run_lit, List.filter_cons]
    split <;> simp_all

/-- the keywords of header lines -/
def headerKeys : List Str := [c! "ACK", c! "COD", c! "CON", c! "OBS", c! "MEA", c! "TEL", c! "NET", c! "BND", c! "COM", c! "NUM", c! "AC2"]

theorem headerKeys_filter (s : Str) : (headerKeys.filter fun k => s.take k.length = k) = if s.take 3 ∈ headerKeys then [s.take 3] else [] := by
  have : (headerKeys.filter fun k => s.take k.length = k) = headerKeys.filter fun k => s.take 3 = k := by
    apply List.filter_congr
    intro k hk
    have : k.length = 3 := by simp [headerKeys] at hk; rcases hk with rfl | rfl | rfl | rfl | rfl | rfl | rfl | rfl | rfl | rfl | rfl <;> rfl
    rw [this]
  rw [this]
  generalize s.take 3 = w
  split
  · rename_i h
    simp [headerKeys] at h
    rcases h with rfl | rfl | rfl | rfl | rfl | rfl | rfl | rfl | rfl | rfl | rfl <;> decide
  · rename_i h
    rw [List.filter_eq_nil_iff]
    intro a ha
    simp
    rintro rfl
    exact h ha

theorem any_noNl {v : Str} (h : '\n' ∉ v) : ∀ c ∈ v, anyCh c = true := by
  intro c hc
  simp only [anyCh, Bool.not_eq_true', ← Bool.not_eq_true]
  intro e
  rw [(ch_iff _ _).1 e] at hc; exact h hc

theorem header_match {w t : Str} (hn : '\n' ∉ w) (ht : t = [] ∨ t = ['\n']) :
    reMatch headerRegex (w ++ t) = if w.take 3 ∈ headerKeys ∧ w[3]? = some ' ' then some [(1, w.take 3), (2, w.drop 4)] else none := by
  have e : headerRegex = cat [.grp 1 (alts (headerKeys.map lit)), .cls (ch ' '), .grp 2 (star anyCh), .eos] := rfl
  have hl : ∀ k ∈ headerKeys, k.length = 3 ∧ '\n' ∉ k := by decide
  have htk : (w ++ t).take 3 ∈ headerKeys ↔ w.take 3 ∈ headerKeys := by
    rcases ht with rfl | rfl
    · simp
    · by_cases h : 3 ≤ w.length
      · rw [List.take_append_of_le_length h]
      · constructor
        · intro hm
          have : '\n' ∈ (w ++ ['\n']).take 3 := by rw [List.take_of_length_le (by simp; omega)]; simp
          exact absurd this (hl _ hm).2
        · intro hm
          have := (hl _ hm).1
          simp at this; omega
  rw [e]
  simp only [cat, reMatch, run, run_alts_lit _ _ (show headerKeys ≠ [] by simp [headerKeys]), headerKeys_filter]
  by_cases h : w.take 3 ∈ headerKeys
  · rw [if_pos (htk.2 h)]
    have h3 : 3 ≤ w.length := by have := (hl _ h).1; simp at this; omega
    simp only [List.map_cons, List.map_nil, List.flatMap_cons, List.flatMap_nil, List.append_nil, List.take_append_of_le_length h3, List.length_take, Nat.min_eq_left h3,
      List.drop_append_of_le_length h3]
    have h3' : (w.take 3).length = 3 := by simp; omega
    cases hd : w.drop 3 with
    | nil =>
      have h3n : w[3]? = none := by
        have := congrArg List.length hd
        simp at this
        simp; omega
      have : ((t : Str).head? = some '\n' ∨ t = []) := by rcases ht with rfl | rfl <;> simp
      rcases ht with rfl | rfl <;> simp [run, h3n, ch]
    | cons x v =>
      have hx : w[3]? = some x := by
        have := congrArg (·[0]?) hd
        simpa [List.getElem?_drop] using this
      have hv : w.drop 4 = v := by
        have := congrArg (List.drop 1) hd
        simpa using this
      have hvn : ∀ c ∈ v, anyCh c = true := any_noNl (fun hc => hn (by
        have : v = w.drop 4 := hv.symm
        exact List.mem_of_mem_drop (this ▸ hc)))
      by_cases hs : x = ' '
      · subst hs
        have := run_grp_rep_seq' (lo := 0) (g := 2) (p := anyCh) (b := .eos) (ds := v) (t := t) hvn (by rcases ht with rfl | rfl <;> decide)
          (by intro c hc
              simp only [Re.rej, bne_iff_ne]
              rintro rfl
              exact absurd (hvn _ hc) (by decide)) (by omega)
        have he : run .eos t = [([], t, [])] := by rcases ht with rfl | rfl <;> rfl
        rw [he] at this
        simp only [run, List.map_map] at this
        simp only [List.cons_append, run, show ch ' ' ' ' = true from rfl, if_true, List.flatMap_cons, List.flatMap_nil, List.append_nil, star, this, List.map_map]
        simp [h, hx, hv]
      · have : ch ' ' x = false := by
          cases hc : ch ' ' x with
          | false => rfl
          | true => exact absurd ((ch_iff _ _).1 hc) hs
        simp [run, this, hx, hs]
  · rw [if_neg (fun hh => h (htk.1 hh))]
    simp [h]


/-- `^ *$` : blanks, and perhaps a line end -/
theorem blank_match {w : Str} : (reMatch blankRegex w).isSome = true ↔ ∃ k, w = List.replicate k ' ' ∨ w = List.replicate k ' ' ++ ['\n'] := by
  have key : ∀ ds t : Str, (∀ c ∈ ds, c = ' ') → (∀ c ∈ t.head?, c ≠ ' ') → run blankRegex (ds ++ t) = (run .eos t).map (prepend ds) := by
    intro ds t h1 h2
    refine run_rep_seq (lo := 0) ?_ ?_ ?_ (by omega)
    · intro c hc; exact (ch_iff _ _).2 (h1 c hc)
    · intro c hc
      cases hh : ch ' ' c with
      | false => rfl
      | true => exact absurd ((ch_iff _ _).1 hh) (h2 c hc)
    · intro c s hc
      rw [(ch_iff _ _).1 hc]; rfl
  constructor
  · intro h
    have hw : w = w.takeWhile (· == ' ') ++ w.dropWhile (· == ' ') := (List.takeWhile_append_dropWhile).symm
    have h1 : ∀ c ∈ w.takeWhile (· == ' '), c = ' ' := by
      intro c hc
      have := List.all_takeWhile (p := (· == ' ')) (l := w)
      rw [List.all_eq_true] at this
      simpa using this c hc
    have hr : w.takeWhile (· == ' ') = List.replicate (w.takeWhile (· == ' ')).length ' ' := List.eq_replicate_iff.2 ⟨rfl, h1⟩
    have hx : ∀ c ∈ (w.dropWhile (· == ' ')).head?, c ≠ ' ' := by
      intro c hc
      have := List.head?_dropWhile_not (p := (· == ' ')) w
      rw [Option.mem_def.1 hc] at this
      simpa using this
    rw [hw, reMatch, key _ _ h1 hx] at h
    refine ⟨(w.takeWhile (· == ' ')).length, ?_⟩
    rw [← hr]
    simp only [run] at h
    split at h
    · rename_i ht
      rcases ht with ht | ht
      · left; rw [ht, List.append_nil] at hw; exact hw
      · right; rw [ht] at hw; exact hw
    · simp at h
  · rintro ⟨k, rfl | rfl⟩
    · have := key (List.replicate k ' ') [] (by intro c hc; exact (List.mem_replicate.1 hc).2) (by simp)
      simp only [List.append_nil] at this
      simp [reMatch, this, run]
    · have := key (List.replicate k ' ') ['\n'] (by intro c hc; exact (List.mem_replicate.1 hc).2) (by simp)
      simp [reMatch, this, run]

end Verif.Mpc80
