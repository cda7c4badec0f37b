import Verif.Lemmas.Mpc80Header
import Verif.Lemmas.Mpc80Element
import Verif.Spec.Radar
/-
  The generators of the 80-column converter.
-/
namespace Verif.Mpc80
open Verif Verif.PackUtil Verif.Spec.Mpc80 Verif.Spec Verif.Xml

theorem raw_cut {l : Str} (h : RawLine l) : RawLine (cut l) := by
  obtain ⟨w, t, rfl, hw, ht⟩ := h
  unfold cut
  rcases ht with rfl | rfl
  · exact ⟨(w ++ []).take 81, [], by simp, fun hm => hw (by simpa using List.mem_of_mem_take hm), Or.inl rfl⟩
  · by_cases hl : w.length ≤ 80
    · exact ⟨w, ['\n'], List.take_of_length_le (by simp; omega), hw, Or.inr rfl⟩
    · refine ⟨w.take 81, [], ?_, fun hm => hw (List.mem_of_mem_take hm), Or.inl rfl⟩
      rw [List.append_nil, List.take_append, show 81 - w.length = 0 by omega]; simp

theorem headed_match {l : Str} (h : RawLine l) : (reMatch headerRegex l).isSome = true ↔ headed l := by
  obtain ⟨w, t, rfl, hw, ht⟩ := h
  rw [header_match hw ht]
  unfold headed
  have e : headerWords = headerKeys := rfl
  have h3 : ∀ k ∈ headerKeys, k.length = 3 ∧ '\n' ∉ k := by decide
  rw [e]
  by_cases hl : 4 ≤ w.length
  · have e1 : (w ++ t).take 3 = w.take 3 := List.take_append_of_le_length (by omega)
    have e2 : (w ++ t)[3]? = w[3]? := List.getElem?_append_left (by omega)
    rw [e1, e2]
    split <;> simp_all
  · rw [if_neg (by rintro ⟨_, h4⟩; exact absurd (List.getElem?_eq_some_iff.1 h4).1 (by omega))]
    simp only [Option.isSome_none, Bool.false_eq_true, false_iff, not_and]
    intro h1 h2
    have hlt := (List.getElem?_eq_some_iff.1 h2).1
    rcases ht with rfl | rfl
    · simp at hlt; omega
    · simp at hlt
      have : w.length = 3 := by omega
      rw [List.getElem?_append_right (by omega), this] at h2
      simp at h2

theorem headed_cut (l : Str) : headed (cut l) ↔ headed l := by
  unfold headed cut
  rw [List.take_take, List.getElem?_take]
  simp

theorem col15_cut (l : Str) : (cut l)[14]? = l[14]? := by
  unfold cut
  rw [List.getElem?_take]; simp

theorem strip_used {t : Str} : strip t ≠ [] ↔ ∃ c ∈ t, isSpace c = false := by
  constructor
  · intro h
    obtain ⟨c, hc⟩ := List.exists_mem_of_ne_nil _ h
    have hd := Psv.strip_ends t
    cases hs : strip t with
    | nil => exact absurd hs h
    | cons x u =>
      refine ⟨x, ?_, hd.1 x (by rw [hs]; rfl)⟩
      have : x ∈ strip t := by rw [hs]; simp
      unfold strip at this
      have h1 : x ∈ rstrip t := mem_of_dropWhile x this
      unfold rstrip at h1
      have h2 := mem_of_dropWhile x (List.mem_reverse.1 h1)
      exact List.mem_reverse.1 h2
  · rintro ⟨c, hc, hs⟩ e
    have hall : ∀ c ∈ t, isSpace c = true := by
      have key : ∀ l : Str, l.dropWhile isSpace = [] → ∀ x ∈ l, isSpace x = true := by
        intro l
        induction l with
        | nil => simp
        | cons a l ih =>
          intro hl
          rw [List.dropWhile_cons] at hl
          split at hl
          · rename_i ha
            intro x hx
            rcases List.mem_cons.1 hx with rfl | hx
            · exact ha
            · exact ih hl x hx
          · simp at hl
      rw [strip_comm] at e
      unfold rstrip lstrip at e
      have e1 := key _ (List.reverse_eq_nil_iff.1 e)
      by_cases hn : t.dropWhile isSpace = []
      · exact key t hn
      · exfalso
        cases hd : t.dropWhile isSpace with
        | nil => exact hn hd
        | cons a u =>
          have ha := e1 a (by rw [hd]; simp)
          have : ∀ l : Str, ∀ a u, l.dropWhile isSpace = a :: u → isSpace a = false := by
            intro l
            induction l with
            | nil => simp
            | cons b l ih =>
              intro a u h
              rw [List.dropWhile_cons] at h
              split at h
              · exact ih a u h
              · rename_i hb
                simp at h
                rw [← h.1]; simpa using hb
          rw [this t a u hd] at ha; simp at ha
    rw [hall c hc] at hs; simp at hs

theorem used_strip {l : Str} {i j : Nat} (hj : j ≤ 81) : strip (slice (cut l) i j) ≠ [] ↔ used i j l := by
  rw [strip_used]
  have e : slice (cut l) i j = (l.take j).drop i := by
    unfold slice cut
    rw [← List.drop_take, List.take_take]; congr 2; omega
  rw [e]; rfl

theorem parse_parts {l : Str} {c : Char} (h : l[14]? = some c) :
    parseRadarLine l = .ok ⟨slice l 0 14, c, slice l 15 34, slice l 34 47, slice l 47 61, l.drop 61⟩ ∧
    slice l 0 14 ++ [c] ++ slice l 15 34 ++ slice l 34 47 ++ sp 14 ++ l.drop 61 = blanked 47 61 l ∧
    slice l 0 14 ++ [c] ++ slice l 15 34 ++ sp 13 ++ slice l 47 61 ++ l.drop 61 = blanked 34 47 l := by
  have e1 : [c] = slice l 14 15 := by
    obtain ⟨h1, h2⟩ := List.getElem?_eq_some_iff.1 h
    unfold slice
    rw [List.drop_eq_getElem_cons h1, h2]; simp
  refine ⟨by simp [parseRadarLine, h], ?_, ?_⟩
  · rw [e1, slice_append _ (by omega) (by omega), slice_append _ (by omega) (by omega), slice_append _ (by omega) (by omega)]
    simp [blanked, slice, sp]
  · rw [e1, slice_append _ (by omega) (by omega), slice_append _ (by omega) (by omega)]
    have : slice l 47 61 ++ l.drop 61 = l.drop 47 := by
      unfold slice
      have : l.drop 61 = (l.drop 47).drop 14 := by rw [List.drop_drop]
      rw [this, List.take_append_drop]
    rw [List.append_assoc (_ ++ _), this]
    simp [blanked, slice, sp]

theorem split_one {n : Nat} {l : Str} {ls : List Str} (hr : RawLine l) (h : (Piece.one l).Ok) :
    splitRadar n (l :: ls) = ((n, cut l) :: (splitRadar (n + 1) ls).1, (splitRadar (n + 1) ls).2.1, (splitRadar (n + 1) ls).2.2) := by
  rw [splitRadar]
  change (if (reMatch headerRegex (cut l)).isSome = true then _ else _) = _
  have hm := headed_match (raw_cut hr)
  by_cases hh : headed l
  · rw [if_pos (hm.2 ((headed_cut l).2 hh))]; rfl
  · rw [if_neg (fun e => hh ((headed_cut l).1 (hm.1 e)))]
    obtain ⟨c, h1, h2⟩ := h.resolve_left hh
    have := (parse_parts (l := cut l) (c := c) (by rw [col15_cut]; exact h1)).1
    change (match parseRadarLine (cut l) with | .error _ => _ | .ok a => _) = _
    rw [this]
    simp only [ne_eq, h2, not_false_eq_true, if_true]
    rfl

theorem split_two {n : Nat} {a b : Str} {ls : List Str} (hr : RawLine a) (h : (Piece.two a b).Ok) :
    (splitRadar n (a :: b :: ls)).1 = (Piece.two a b).read n ++ (splitRadar (n + 2) ls).1 ∧ (splitRadar n (a :: b :: ls)).2.1 = (splitRadar (n + 2) ls).2.1 ∧
    (splitRadar n (a :: b :: ls)).2.2 = (Piece.two a b).twice n ++ (splitRadar (n + 2) ls).2.2 := by
  obtain ⟨h1, h2, h3⟩ := h
  obtain ⟨p1, p2, p3⟩ := parse_parts (l := cut a) (c := 'R') (by rw [col15_cut]; exact h2)
  obtain ⟨q1, q2, q3⟩ := parse_parts (l := cut b) (c := 'r') (by rw [col15_cut]; exact h3)
  have hm := headed_match (raw_cut hr)
  rw [splitRadar]
  simp only
  rw [show List.take 81 a = cut a from rfl, show List.take 81 b = cut b from rfl, if_neg (fun e => h1 ((headed_cut a).1 (hm.1 e))), p1]
  simp only [ne_eq, not_true, if_false]
  rw [q1]
  simp only [ne_eq, not_true, if_false]
  rw [p2, p3, q2, q3]
  have u1 := used_strip (l := a) (i := 34) (j := 47) (by omega)
  have u2 := used_strip (l := a) (i := 47) (j := 61) (by omega)
  simp only [Piece.read, Piece.twice]
  by_cases hu : used 34 47 a ∧ used 47 61 a
  · rw [if_pos ⟨u1.2 hu.1, u2.2 hu.2⟩, if_pos hu, if_pos hu]
    exact ⟨rfl, rfl, rfl⟩
  · rw [if_neg (fun e => hu ⟨u1.1 e.1, u2.1 e.2⟩), if_neg hu, if_neg hu]
    exact ⟨rfl, rfl, rfl⟩

theorem split_stop {n : Nat} {ls : List Str} (hr : ∀ l ∈ ls, RawLine l) (h : Stop ls) : splitRadar n ls = ([], some .runtimeError, []) := by
  obtain ⟨l, rest, rfl, h1, h2⟩ := h
  have hm := headed_match (raw_cut (hr l (by simp)))
  rw [splitRadar]
  simp only
  rw [show List.take 81 l = cut l from rfl, if_neg (fun e => h1 ((headed_cut l).1 (hm.1 e)))]
  rcases h2 with h2 | ⟨h2, h3⟩
  · have : parseRadarLine (cut l) = raiseRT := by
      unfold parseRadarLine; rw [col15_cut, h2]
    rw [this]; rfl
  · have := (parse_parts (l := cut l) (c := 'R') (by rw [col15_cut]; exact h2)).1
    rw [this]
    simp only [ne_eq, not_true, if_false]
    cases rest with
    | nil => rfl
    | cons b rest =>
      simp only
      have hb := h3 b (by simp)
      rw [show List.take 81 b = cut b from rfl]
      cases hc : b[14]? with
      | none =>
        have : parseRadarLine (cut b) = raiseRT := by
          unfold parseRadarLine; rw [col15_cut, hc]
        rw [this]; rfl
      | some c =>
        have := (parse_parts (l := cut b) (c := c) (by rw [col15_cut]; exact hc)).1
        rw [this]
        have hne : c ≠ 'r' := by rintro rfl; exact hb hc
        simp only [ne_eq, hne, not_false_eq_true, if_true]

theorem split_pieces : ∀ (ps : List Piece) (n : Nat) {rest : List Str}, (∀ p ∈ ps, p.Ok ∧ ∀ l ∈ p.lines, RawLine l) → (∀ l ∈ rest, RawLine l) → (rest = [] ∨ Stop rest) →
    (splitRadar n (ps.flatMap Piece.lines ++ rest)).1 = readFrom n ps ∧ ((splitRadar n (ps.flatMap Piece.lines ++ rest)).2.1 = if rest = [] then none else some .runtimeError) ∧
    (rest = [] → (splitRadar n (ps.flatMap Piece.lines ++ rest)).2.2 = twiceFrom n ps)
  | [], n, rest, _, hr, h => by
    rcases h with rfl | h
    · exact ⟨rfl, rfl, fun _ => rfl⟩
    · have hne : rest ≠ [] := by obtain ⟨l, r, rfl, _⟩ := h; simp
      rw [List.flatMap_nil, List.nil_append, split_stop hr h, if_neg hne]
      exact ⟨rfl, rfl, fun e => absurd e hne⟩
  | p :: ps, n, rest, hp, hr, h => by
    have hh := hp p (by simp)
    cases p with
    | one l =>
      have ih := split_pieces ps (n + 1) (rest := rest) (fun q hq => hp q (by simp [hq])) hr h
      rw [List.flatMap_cons, Piece.lines, List.append_assoc, List.singleton_append, split_one (hh.2 l (by simp [Piece.lines])) hh.1]
      exact ⟨by simp only [readFrom, Piece.read, Piece.lines, List.length_singleton, ih.1, List.singleton_append], ih.2.1,
        fun e => by simp only [twiceFrom, Piece.twice, Piece.lines, List.length_singleton, List.nil_append]; exact ih.2.2 e⟩
    | two a b =>
      have ih := split_pieces ps (n + 2) (rest := rest) (fun q hq => hp q (by simp [hq])) hr h
      have e : List.flatMap Piece.lines (Piece.two a b :: ps) ++ rest = a :: b :: (List.flatMap Piece.lines ps ++ rest) := by simp [Piece.lines]
      obtain ⟨s1, s2, s3⟩ := split_two (n := n) (ls := List.flatMap Piece.lines ps ++ rest) (hh.2 a (by simp [Piece.lines])) hh.1
      rw [e, s1, s2, s3, ih.1]
      exact ⟨by rfl, ih.2.1, fun e => by rw [ih.2.2 e]; rfl⟩

theorem pieces_exist : ∀ (m : Nat) (ls : List Str), ls.length ≤ m → ∃ (ps : List Piece) (rest : List Str), ls = ps.flatMap Piece.lines ++ rest ∧ (∀ p ∈ ps, p.Ok) ∧ (rest = [] ∨ Stop rest)
  | _, [], _ => ⟨[], [], rfl, by simp, Or.inl rfl⟩
  | 0, _ :: _, h => by simp at h
  | m + 1, l :: ls, h => by
    have hlen : ls.length ≤ m := by simpa using h
    by_cases hok : (Piece.one l).Ok
    · obtain ⟨ps, rest, h1, h2, h3⟩ := pieces_exist m ls hlen
      refine ⟨.one l :: ps, rest, by rw [h1]; simp [Piece.lines], ?_, h3⟩
      intro p hp
      rcases List.mem_cons.1 hp with rfl | hp
      · exact hok
      · exact h2 p hp
    · have hh : ¬ headed l := fun e => hok (Or.inl e)
      have hc : l[14]? = none ∨ l[14]? = some 'R' := by
        cases hc : l[14]? with
        | none => exact Or.inl rfl
        | some c =>
          refine Or.inr ?_
          by_cases e : c = 'R'
          · rw [e]
          · exact absurd (Or.inr ⟨c, hc, e⟩) hok
      rcases hc with hc | hc
      · exact ⟨[], l :: ls, rfl, by simp, Or.inr ⟨l, ls, rfl, hh, Or.inl hc⟩⟩
      · cases ls with
        | nil => exact ⟨[], [l], rfl, by simp, Or.inr ⟨l, [], rfl, hh, Or.inr ⟨hc, by simp⟩⟩⟩
        | cons b ls =>
          by_cases hb : b[14]? = some 'r'
          · obtain ⟨ps, rest, h1, h2, h3⟩ := pieces_exist m ls (by simp at hlen; omega)
            refine ⟨.two l b :: ps, rest, by rw [h1]; simp [Piece.lines], ?_, h3⟩
            intro p hp
            rcases List.mem_cons.1 hp with rfl | hp
            · exact ⟨hh, hc, hb⟩
            · exact h2 p hp
          · exact ⟨[], l :: b :: ls, rfl, by simp, Or.inr ⟨l, b :: ls, rfl, hh, Or.inr ⟨hc, by simpa using hb⟩⟩⟩

theorem noSplit_eq : ∀ (ls : List Str) (n : Nat), doNotSplitRadar n ls = (ls.zipIdx (n + 1)).map fun x => (x.2, cut x.1)
  | [], _ => rfl
  | l :: ls, n => by simp [doNotSplitRadar, noSplit_eq ls (n + 1), cut]

/-- lines as Python gives them -/
theorem fileLines_raw : ∀ (s : Str), ∀ l ∈ Psv.fileLines s, RawLine l := by
  intro s
  induction s with
  | nil => simp [Psv.fileLines]
  | cons c s ih =>
    intro l hl
    unfold Psv.fileLines at hl
    by_cases hc : c = '\n'
    · rw [if_pos hc] at hl
      rcases List.mem_cons.1 hl with rfl | hl
      · exact ⟨[], [c], rfl, by simp, Or.inr (by rw [hc])⟩
      · exact ih l hl
    · rw [if_neg hc] at hl
      cases hs : Psv.fileLines s with
      | nil =>
        rw [hs] at hl
        simp at hl
        subst hl
        exact ⟨[c], [], rfl, by simpa using fun e => hc e.symm, Or.inl rfl⟩
      | cons m ls =>
        rw [hs] at hl ih
        rcases List.mem_cons.1 hl with rfl | hl
        · obtain ⟨w, t, rfl, h1, h2⟩ := ih m (by simp)
          exact ⟨c :: w, t, rfl, by simpa [h1] using fun e => hc e.symm, h2⟩
        · exact ih l (by simp [hl])

end Verif.Mpc80
