import Verif.Spec.References
import Verif.Props.Codes
import Verif.Lemmas.XmlToPsv
import Verif.Lemmas.Packing
/-!
  Lemmas.References : Python's `int` and `split` on any text.
-/
namespace Verif.References
open Verif Verif.PackUtil Verif.Spec Verif.Spec.References
open Verif.Spec.Packing (Number value)

theorem underscore_not {c : Char} (h : isDec c = true) : (c == '_') = false := by
  cases hq : c == '_' with
  | false => rfl
  | true => rw [eq_of_beq hq] at h; exact absurd h (by decide)

theorem dec_not_space {c : Char} (h : isDec c = true) : isSpace c = false := by
  simp only [isDec, decVal, Option.isSome_map] at h
  rw [List.find?_isSome] at h
  obtain ⟨z, hz, h⟩ := h
  have hall : decZeros.all (fun z => (List.range 10).all fun i => !(
      let n := z + i
      (decide (9 ≤ n) && decide (n ≤ 13)) || (decide (28 ≤ n) && decide (n ≤ 32)) || n == 133 || n == 160 ||
      n == 5760 || (decide (8192 ≤ n) && decide (n ≤ 8202)) || n == 8232 || n == 8233 || n == 8239 ||
      n == 8287 || n == 12288)) = true := by decide +kernel
  have h1 := List.all_eq_true.1 hall z hz
  have h2 := List.all_eq_true.1 h1 (c.toNat - z) (by simp at h ⊢; omega)
  simp only [Bool.and_eq_true, decide_eq_true_eq] at h
  rw [show z + (c.toNat - z) = c.toNat by omega] at h2
  simpa only [isSpace, Bool.not_eq_true'] using h2

/-- digits and underscores, after a digit (`b = true`) or not -/
theorem intDigits_groups : ∀ (s : Str) (acc : Nat) (b : Bool) (n : Nat), intDigits acc b s = some n ↔
    ∃ g gs, s = joined (g :: gs) ∧ (∀ x ∈ g, isDec x = true) ∧ (g ≠ [] ∨ b = true) ∧ (∀ x ∈ gs, Number x) ∧ n = (g ++ gs.flatten).foldl (fun n c => 10 * n + (decVal c).getD 0) acc
  | [], acc, b, n => by
    simp only [intDigits]
    constructor
    · intro h
      split at h
      · cases h
        exact ⟨[], [], rfl, by simp, .inr (by assumption), by simp, rfl⟩
      · cases h
    · rintro ⟨g, gs, h1, h2, h3, h4, rfl⟩
      cases gs with
      | nil =>
        simp only [joined] at h1
        subst h1
        simp at h3
        simp [h3]
      | cons a gs => simp [joined] at h1
  | c :: s, acc, b, n => by
    simp only [intDigits]
    cases hu : c == '_' with
    | true =>
      have hc := eq_of_beq hu
      subst hc
      simp only [if_true]
      cases b with
      | false =>
        simp only [Bool.false_eq_true, if_false]
        constructor
        · intro h; cases h
        · rintro ⟨g, gs, h1, h2, h3, h4, h5⟩
          cases g with
          | nil => simp at h3
          | cons x g =>
            exfalso
            have : x = '_' := by
              cases gs <;> simp [joined] at h1 <;> exact h1.1.symm
            subst this
            exact absurd (h2 '_' (by simp)) (by decide)
      | true =>
        simp only [if_true]
        rw [intDigits_groups s acc false n]
        constructor
        · rintro ⟨g, gs, h1, h2, h3, h4, h5⟩
          refine ⟨[], g :: gs, by rw [h1]; rfl, by simp, .inr trivial, ?_, by simpa using h5⟩
          intro x hx
          rcases List.mem_cons.1 hx with rfl | hx
          · exact ⟨by simpa using h3, h2⟩
          · exact h4 x hx
        · rintro ⟨g, gs, h1, h2, h3, h4, h5⟩
          cases g with
          | nil =>
            cases gs with
            | nil => simp [joined] at h1
            | cons a gs =>
              simp only [joined, List.nil_append, List.cons.injEq, true_and] at h1
              have ha := h4 a List.mem_cons_self
              exact ⟨a, gs, h1, ha.2, .inl ha.1, fun x hx => h4 x (List.mem_cons_of_mem _ hx), by simpa using h5⟩
          | cons x g =>
            exfalso
            have : x = '_' := by
              cases gs <;> simp [joined] at h1 <;> exact h1.1.symm
            subst this
            exact absurd (h2 '_' (by simp)) (by decide)
    | false =>
      simp only [Bool.false_eq_true, if_false]
      cases hd : decVal c with
      | none =>
        constructor
        · intro h; cases h
        · rintro ⟨g, gs, h1, h2, h3, h4, h5⟩
          exfalso
          cases g with
          | nil =>
            cases gs with
            | nil => simp [joined] at h1
            | cons a gs => simp [joined] at h1; rw [h1.1] at hu; simp at hu
          | cons x g =>
            have : c = x := by cases gs <;> simp [joined] at h1 <;> exact h1.1
            subst this
            have := h2 c (by simp)
            rw [isDec, hd] at this
            cases this
      | some d =>
        simp only
        rw [intDigits_groups s (acc * 10 + d) true n]
        constructor
        · rintro ⟨g, gs, h1, h2, h3, h4, h5⟩
          refine ⟨c :: g, gs, by rw [h1]; cases gs <;> rfl, ?_, .inl (by simp), h4, ?_⟩
          · intro x hx
            rcases List.mem_cons.1 hx with rfl | hx
            · rw [isDec, hd]; rfl
            · exact h2 x hx
          · rw [h5]
            simp only [List.cons_append, List.foldl_cons, hd, Option.getD_some]
            rw [Nat.mul_comm 10 acc]
        · rintro ⟨g, gs, h1, h2, h3, h4, h5⟩
          cases g with
          | nil =>
            exfalso
            cases gs with
            | nil => simp [joined] at h1
            | cons a gs => simp [joined] at h1; rw [h1.1] at hu; simp at hu
          | cons x g =>
            have : c = x ∧ s = joined (g :: gs) := by cases gs <;> simpa [joined] using h1
            obtain ⟨rfl, k1⟩ := this
            refine ⟨g, gs, k1, fun y hy => h2 y (List.mem_cons_of_mem _ hy), .inr rfl, h4, ?_⟩
            rw [h5]
            simp only [List.cons_append, List.foldl_cons, hd, Option.getD_some]
            rw [Nat.mul_comm 10 acc]

theorem intDigits_iff {s : Str} {n : Nat} : intDigits 0 false s = some n ↔ ∃ gs, gs ≠ [] ∧ (∀ g ∈ gs, Number g) ∧ s = joined gs ∧ n = value gs.flatten := by
  rw [intDigits_groups]
  constructor
  · rintro ⟨g, gs, h1, h2, h3, h4, h5⟩
    refine ⟨g :: gs, by simp, ?_, h1, by simpa [value] using h5⟩
    intro x hx
    rcases List.mem_cons.1 hx with rfl | hx
    · exact ⟨by simpa using h3, h2⟩
    · exact h4 x hx
  · rintro ⟨gs, h1, h2, h3, h4⟩
    cases gs with
    | nil => exact absurd rfl h1
    | cons g gs =>
      have := h2 g List.mem_cons_self
      exact ⟨g, gs, h3, this.2, .inl this.1, fun x hx => h2 x (List.mem_cons_of_mem _ hx), by simpa [value] using h4⟩

theorem strip_around : ∀ (a b m : Str), (∀ c ∈ a, isSpace c = true) → (∀ c ∈ b, isSpace c = true) → (∀ c ∈ m.head?, isSpace c = false) → (∀ c ∈ m.getLast?, isSpace c = false) → strip (a ++ m ++ b) = m := by
  intro a
  induction a with
  | cons x a ih =>
    intro b m ha hb h1 h2
    rw [List.cons_append, List.cons_append, ToPsv.strip_cons_space (ha x (by simp))]
    exact ih b m (fun c hc => ha c (by simp [hc])) hb h1 h2
  | nil =>
    intro b
    generalize hn : b.length = n
    induction n generalizing b with
    | zero =>
      intro m _ _ h1 h2
      have : b = [] := List.length_eq_zero_iff.1 hn
      subst this
      simpa using strip_of_ends h1 h2
    | succ n ih =>
      intro m ha hb h1 h2
      have hne : b ≠ [] := by rintro rfl; simp at hn
      have := List.dropLast_concat_getLast hne
      rw [← this]
      simp only [List.nil_append]
      rw [← List.append_assoc, ToPsv.strip_snoc_space (hb _ (List.getLast_mem hne))]
      exact ih _ (by simp [hn]) m ha (fun c hc => hb c (List.dropLast_subset _ hc)) h1 h2

theorem strip_parts (s : Str) : ∃ a b, s = a ++ strip s ++ b ∧ (∀ c ∈ a, isSpace c = true) ∧ ∀ c ∈ b, isSpace c = true := by
  refine ⟨(rstrip s).takeWhile isSpace, (s.reverse.takeWhile isSpace).reverse, ?_, ?_, ?_⟩
  · have h1 : (rstrip s).takeWhile isSpace ++ strip s = rstrip s := List.takeWhile_append_dropWhile
    rw [h1, rstrip, ← List.reverse_append, List.takeWhile_append_dropWhile, List.reverse_reverse]
  · intro c hc; exact List.all_eq_true.1 List.all_takeWhile c hc
  · intro c hc; exact List.all_eq_true.1 List.all_takeWhile c (List.mem_reverse.1 hc)

theorem joined_ends : ∀ {gs : List Str}, gs ≠ [] → (∀ g ∈ gs, Number g) → (∃ c, (joined gs).head? = some c ∧ isDec c = true) ∧ ∃ c, (joined gs).getLast? = some c ∧ isDec c = true
  | [], h, _ => absurd rfl h
  | [g], _, h => by
    obtain ⟨h1, h2⟩ := h g (by simp)
    constructor
    · cases g with
      | nil => exact absurd rfl h1
      | cons c g => exact ⟨c, rfl, h2 c (by simp)⟩
    · exact ⟨g.getLast h1, List.getLast?_eq_some_getLast h1, h2 _ (List.getLast_mem h1)⟩
  | g :: g2 :: gs, _, h => by
    obtain ⟨h1, h2⟩ := h g (by simp)
    obtain ⟨-, c, h3, h4⟩ := joined_ends (gs := g2 :: gs) (by simp) (fun x hx => h x (List.mem_cons_of_mem _ hx))
    constructor
    · cases g with
      | nil => exact absurd rfl h1
      | cons c g => exact ⟨c, rfl, h2 c (by simp)⟩
    · refine ⟨c, ?_, h4⟩
      show (g ++ '_' :: joined (g2 :: gs)).getLast? = some c
      rw [List.getLast?_append, List.getLast?_cons, h3]
      rfl

theorem pyInt_iff {s : Str} {n : Int} : pyInt s = .ok n ↔ IsInt s n := by
  have plus : isSpace '+' = false := by decide
  have minus : isSpace '-' = false := by decide
  constructor
  · intro h
    obtain ⟨a, b, e, ha, hb⟩ := strip_parts s
    unfold pyInt at h
    cases hs : strip s with
    | nil => rw [hs] at h; cases h
    | cons c cs =>
      rw [hs] at h e
      simp only at h
      split at h
      · rename_i m hm
        cases h
        split at hm
        · rename_i hc
          have := eq_of_beq hc
          subst this
          rw [Option.map_eq_some_iff] at hm
          obtain ⟨k, hk, rfl⟩ := hm
          obtain ⟨gs, h1, h2, rfl, rfl⟩ := intDigits_iff.1 hk
          exact ⟨a, b, gs, ha, hb, h1, h2, .inr (.inr ⟨by simpa using e, rfl⟩)⟩
        · split at hm
          · rename_i hc
            have := eq_of_beq hc
            subst this
            rw [Option.map_eq_some_iff] at hm
            obtain ⟨k, hk, rfl⟩ := hm
            obtain ⟨gs, h1, h2, rfl, rfl⟩ := intDigits_iff.1 hk
            exact ⟨a, b, gs, ha, hb, h1, h2, .inr (.inl ⟨by simpa using e, rfl⟩)⟩
          · rw [Option.map_eq_some_iff] at hm
            obtain ⟨k, hk, rfl⟩ := hm
            obtain ⟨gs, h1, h2, h3, rfl⟩ := intDigits_iff.1 hk
            rw [h3] at e
            exact ⟨a, b, gs, ha, hb, h1, h2, .inl ⟨e, rfl⟩⟩
      · cases h
  · rintro ⟨a, b, gs, ha, hb, h1, h2, h3⟩
    obtain ⟨⟨c, hc1, hc2⟩, d, hd1, hd2⟩ := joined_ends h1 h2
    have hi := intDigits_iff.2 ⟨gs, h1, h2, rfl, rfl⟩
    have last : ∀ x, ∀ y ∈ (x :: joined gs).getLast?, isSpace y = false := by
      intro x y hy
      rw [List.getLast?_cons, hd1] at hy
      simp at hy; subst hy
      exact dec_not_space hd2
    rcases h3 with ⟨rfl, rfl⟩ | ⟨rfl, rfl⟩ | ⟨rfl, rfl⟩
    · rw [pyInt, strip_around a b _ ha hb (by rw [hc1]; intro x hx; simp at hx; subst hx; exact dec_not_space hc2)
        (by rw [hd1]; intro x hx; simp at hx; subst hx; exact dec_not_space hd2)]
      cases hj : joined gs with
      | nil => rw [hj] at hc1; cases hc1
      | cons x xs =>
        rw [hj] at hc1 hi
        simp at hc1; subst hc1
        have n1 : (x == '-') = false := by
          cases hq : x == '-' with
          | false => rfl
          | true => rw [eq_of_beq hq] at hc2; exact absurd hc2 (by decide)
        have n2 : (x == '+') = false := by
          cases hq : x == '+' with
          | false => rfl
          | true => rw [eq_of_beq hq] at hc2; exact absurd hc2 (by decide)
        simp [n1, n2, hi]
    · rw [pyInt, strip_around a b _ ha hb (by simp [plus]) (last _)]
      simp [hi]
    · rw [pyInt, strip_around a b _ ha hb (by simp [minus]) (last _)]
      simp [hi]

theorem pyInt_error {s : Str} {e : PyErr} : pyInt s = .error e ↔ e = .valueError ∧ ∀ n, ¬ IsInt s n := by
  constructor
  · intro h
    refine ⟨?_, fun n hn => by rw [pyInt_iff.2 hn] at h; cases h⟩
    unfold pyInt at h
    split at h
    · cases h; rfl
    · simp only at h
      split at h <;> cases h
      rfl
  · rintro ⟨rfl, h⟩
    cases hp : pyInt s with
    | ok n => exact absurd (pyInt_iff.1 hp) (h n)
    | error e =>
      unfold pyInt at hp
      split at hp
      · cases hp; rfl
      · simp only at hp
        split at hp <;> cases hp
        rfl

end Verif.References

namespace Verif.References
open Verif Verif.PackUtil Verif.Spec Verif.Spec.References
open Verif.Spec.Packing (Number value)

/-! ### words -/

theorem aux_word : ∀ (w cur t : Str), (∀ c ∈ w, isSpace c = false) → splitWsAux cur (w ++ t) = splitWsAux (cur ++ w) t
  | [], cur, t, _ => by simp
  | c :: w, cur, t, h => by
    rw [List.cons_append, splitWsAux, h c (by simp)]
    simp only [Bool.false_eq_true, if_false]
    rw [aux_word w _ t (fun x hx => h x (by simp [hx])), List.append_assoc]
    rfl

theorem aux_gap : ∀ (g t : Str), (∀ c ∈ g, isSpace c = true) → splitWsAux [] (g ++ t) = splitWsAux [] t
  | [], t, _ => rfl
  | c :: g, t, h => by
    rw [List.cons_append, splitWsAux, h c (by simp)]
    simp only [if_true, List.isEmpty_nil]
    exact aux_gap g t fun x hx => h x (by simp [hx])

theorem aux_end {cur g t : Str} (hc : cur ≠ []) (hg : g ≠ []) (h : ∀ c ∈ g, isSpace c = true) : splitWsAux cur (g ++ t) = cur :: splitWsAux [] t := by
  cases g with
  | nil => exact absurd rfl hg
  | cons c g =>
    rw [List.cons_append, splitWsAux, h c (by simp)]
    simp only [if_true]
    rw [if_neg (by simpa using hc), aux_gap g t fun x hx => h x (by simp [hx])]

theorem aux_rest {cur rest : Str} (hc : cur ≠ []) (h : ∀ c ∈ rest.head?, isSpace c = true) : ∃ l, splitWsAux cur rest = cur :: l := by
  cases rest with
  | nil => exact ⟨[], by simp [splitWsAux, hc]⟩
  | cons c t =>
    rw [splitWsAux, h c (by simp)]
    simp only [if_true]
    exact ⟨_, if_neg (by simpa using hc)⟩

theorem second_ok {s w : Str} (h : SecondWord s w) : listAt (splitWs s) 1 = .ok w := by
  obtain ⟨first, gap, rest, rfl, h1, h2, h3, h4, h5, h6, h7⟩ := h
  obtain ⟨l, hl⟩ := aux_rest (cur := w) (rest := rest) h5 h7
  rw [splitWs, List.append_assoc, List.append_assoc, aux_word first [] _ h2, List.nil_append, aux_end h1 h3 h4, aux_word w [] _ h6, List.nil_append, hl]
  rfl

theorem take_all {p : Char → Bool} (l : Str) : ∀ c ∈ l.takeWhile p, p c = true := fun c hc => List.all_eq_true.1 List.all_takeWhile c hc

theorem drop_head {p : Char → Bool} : ∀ (l : Str), ∀ c ∈ (l.dropWhile p).head?, p c = false
  | [], c, hc => by simp at hc
  | x :: l, c, hc => by
    rw [List.dropWhile_cons] at hc
    split at hc
    · exact drop_head l c hc
    · rename_i hp; simp at hc; subst hc; simpa using hp

theorem second_cases {s : Str} (hs : s ≠ []) (hh : ∀ c ∈ s.head?, isSpace c = false) : (∃ w, SecondWord s w) ∨ listAt (splitWs s) 1 = .error .indexError := by
  have e1 := (List.takeWhile_append_dropWhile (p := fun c => !isSpace c) (l := s)).symm
  have f1 := take_all (p := fun c => !isSpace c) s
  have f2 := drop_head (p := fun c => !isSpace c) s
  have f0 : s.takeWhile (fun c => !isSpace c) ≠ [] := by
    cases s with
    | nil => exact absurd rfl hs
    | cons c s => simp [hh c (by simp)]
  generalize s.takeWhile (fun c => !isSpace c) = first at e1 f1 f0
  generalize s.dropWhile (fun c => !isSpace c) = t at e1 f2
  subst e1
  simp only [Bool.not_eq_true', Bool.not_eq_false'] at f1 f2
  have e2 := (List.takeWhile_append_dropWhile (p := isSpace) (l := t)).symm
  have g1 := take_all (p := isSpace) t
  have g2 := drop_head (p := isSpace) t
  have g0 : t ≠ [] → t.takeWhile isSpace ≠ [] := by
    intro ht
    cases t with
    | nil => exact absurd rfl ht
    | cons c t => simp [f2 c (by simp)]
  generalize t.takeWhile isSpace = gap at e2 g1 g0
  generalize t.dropWhile isSpace = u at e2 g2
  subst e2
  have e3 := (List.takeWhile_append_dropWhile (p := fun c => !isSpace c) (l := u)).symm
  have k1 := take_all (p := fun c => !isSpace c) u
  have k2 := drop_head (p := fun c => !isSpace c) u
  have k0 : u ≠ [] → u.takeWhile (fun c => !isSpace c) ≠ [] := by
    intro hu
    cases u with
    | nil => exact absurd rfl hu
    | cons c u => simp [g2 c (by simp)]
  generalize u.takeWhile (fun c => !isSpace c) = w at e3 k1 k0
  generalize u.dropWhile (fun c => !isSpace c) = rest at e3 k2
  simp only [Bool.not_eq_true', Bool.not_eq_false'] at k1 k2
  by_cases hu : u = []
  · right
    subst hu
    rw [splitWs, aux_word first [] _ f1, List.nil_append]
    by_cases hg : gap = []
    · subst hg
      simp [splitWsAux, f0, listAt]
    · rw [aux_end f0 hg g1]
      simp [splitWsAux, listAt]
  · left
    have hg : gap ≠ [] := by
      refine g0 ?_
      simp [hu]
    subst e3
    exact ⟨w, first, gap, rest, by simp, f0, f1, hg, g1, k0 hu, k1, k2⟩

/-! ### packRef -/

def out (r : Str) : Str := ljust 5 (r.drop (r.length - 5))

def mpcCols (s : Int) : Str :=
  if s < 100000 then (intStr (s + 100000)).drop 1
  else if s < 200000 then '@' :: (intStr (s - 100000 + 10000)).drop 1
  else '#' :: (radix62_4 (s - 110000)).drop 1

def mpsCols (s : Int) : Py Str :=
  if s < 259999 then (charAtInt lower26 (s.tdiv 10000)).map fun c => c :: (intStr (s % 10000 + 10000)).drop 1
  else .ok (radix62_4 (s - 260000))

theorem packRef_eq (t : Str) : packRef t =
    if t.take 3 = c! "MPC" then (listAt (splitWs t) 1 >>= pyInt) >>= fun s => .ok (out (mpcCols s))
    else if t.take 3 = c! "MPS" then (listAt (splitWs t) 1 >>= pyInt) >>= fun s => mpsCols s >>= fun r => .ok (out r)
    else .ok (out t) := by
  have e : slice t 0 3 = t.take 3 := by simp [slice]
  unfold packRef
  simp only [e]
  split
  · cases h1 : listAt (splitWs t) 1 with
    | error x => rfl
    | ok w =>
      simp only [bind, Except.bind]
      cases h2 : pyInt w with
      | error x => rfl
      | ok n =>
        simp only [mpcCols]
        split
        · rfl
        · split <;> rfl
  · split
    · cases h1 : listAt (splitWs t) 1 with
      | error x => rfl
      | ok w =>
        simp only [bind, Except.bind]
        cases h2 : pyInt w with
        | error x => rfl
        | ok n =>
          simp only [mpsCols]
          split
          · cases charAtInt lower26 (n.tdiv 10000) <;> rfl
          · rfl
    · rfl

theorem letters_error {i : Int} {e : PyErr} (hi : i < 26) : charAtInt lower26 i = .error e ↔ e = .indexError ∧ i < -26 := by
  have hl : lower26.length = 26 := rfl
  unfold charAtInt
  rw [hl]
  constructor
  · intro h
    split at h
    · exfalso
      unfold charAt at h
      rw [List.getElem?_eq_getElem (by rw [hl]; omega)] at h
      cases h
    · split at h
      · exfalso
        unfold charAt at h
        rw [List.getElem?_eq_getElem (by rw [hl]; omega)] at h
        cases h
      · cases h
        exact ⟨rfl, by omega⟩
  · rintro ⟨rfl, h⟩
    rw [if_neg (by omega), if_neg (by omega)]

end Verif.References
