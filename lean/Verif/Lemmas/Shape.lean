import Verif.Lemmas.Designation
/-! Shape of the captures of a match, and consequences for `packTupleID`/`unpackPackedID` on arbitrary input. -/
namespace Verif
open Verif.PackUtil

/-- possible capture lists of a pattern -/
def Re.shape : Re → Caps → Prop
  | .eps, k => k = []
  | .cls _, k => k = []
  | .rep .., k => k = []
  | .seq a b, k => ∃ k1 k2, a.shape k1 ∧ b.shape k2 ∧ k = k1 ++ k2
  | .alt a b, k => a.shape k ∨ b.shape k
  | .grp n r, k => ∃ u k', r.lang u ∧ r.shape k' ∧ k = (n, u) :: k'
  | .eos, k => k = []

theorem run_shape {r : Re} : ∀ {s c t : Str} {k : Caps}, (c, t, k) ∈ run r s → r.shape k := by
  induction r with
  | eps => intro s c t k h; simp [run] at h; exact h.2.2
  | cls p =>
    intro s c t k h
    cases s with
    | nil => simp [run] at h
    | cons d s => simp only [run] at h; split at h <;> simp at h; exact h.2.2
  | rep lo hi p => intro s c t k h; simp [run] at h; obtain ⟨j, _, _, _, h⟩ := h; exact h.symm ▸ rfl
  | seq a b iha ihb =>
    intro s c t k h
    simp only [run, List.mem_flatMap, List.mem_map] at h
    obtain ⟨⟨c1, t1, k1⟩, h1, ⟨c2, t2, k2⟩, h2, e⟩ := h
    simp only [Prod.mk.injEq] at e
    exact ⟨k1, k2, iha h1, ihb h2, e.2.2.symm⟩
  | alt a b iha ihb =>
    intro s c t k h
    simp only [run, List.mem_append] at h
    exact h.imp iha ihb
  | grp n r ih =>
    intro s c t k h
    simp only [run, List.mem_map] at h
    obtain ⟨⟨c1, t1, k1⟩, h1, e⟩ := h
    simp only [Prod.mk.injEq] at e
    exact ⟨c1, k1, run_lang h1, ih h1, e.2.2.symm⟩
  | eos => intro s c t k h; simp only [run] at h; split at h <;> simp at h; exact h.2.2

theorem reMatch_shape {r : Re} {s : Str} {m : Caps} (h : reMatch r s = some m) : r.shape m := by
  simp only [reMatch, Option.map_eq_some_iff] at h
  obtain ⟨⟨c, t, k⟩, h, rfl⟩ := h
  exact run_shape (List.mem_of_mem_head? h)

/-! ### numbers -/

theorem decVal_lt {c : Char} {d : Nat} (h : decVal c = some d) : d < 10 := by
  simp only [decVal, Option.map_eq_some_iff] at h
  obtain ⟨z, h1, rfl⟩ := h
  have := List.find?_some h1
  simp at this
  omega

theorem intDigits_bound : ∀ (s : Str) (acc v : Nat) (b : Bool), intDigits acc b s = some v → v < (acc + 1) * 10 ^ s.length
  | [], acc, v, b, h => by
    simp only [intDigits] at h
    split at h <;> simp at h
    subst h; simp
  | c :: s, acc, v, b, h => by
    simp only [intDigits] at h
    have hp : 10 ^ (c :: s).length = 10 * 10 ^ s.length := by simp [Nat.pow_succ, Nat.mul_comm]
    split at h
    · split at h
      · have := intDigits_bound s acc v _ h
        rw [hp]
        have h2 : (acc + 1) * 10 ^ s.length ≤ (acc + 1) * (10 * 10 ^ s.length) :=
          Nat.mul_le_mul_left _ (Nat.le_mul_of_pos_left _ (by omega))
        omega
      · simp at h
    · split at h
      · rename_i d hd
        have := intDigits_bound s _ v _ h
        have hd := decVal_lt hd
        rw [hp]
        have h2 : (acc * 10 + d + 1) * 10 ^ s.length ≤ (acc + 1) * 10 * 10 ^ s.length :=
          Nat.mul_le_mul_right _ (by omega)
        rw [Nat.mul_assoc] at h2
        omega
      · simp at h

theorem pyNat_bound {s : Str} {n : Nat} (h : pyNat s = .ok n) : n < 10 ^ s.length := by
  simp only [pyNat] at h
  split at h
  · rename_i v hv
    injection h with h; subst h
    simpa using intDigits_bound s 0 v false hv
  · simp at h

theorem underscore_notDec : isDec '_' = false := by decide

theorem intDigits_total : ∀ (s : Str) (acc : Nat) (b : Bool), (∀ c ∈ s, isDec c = true) → (s ≠ [] ∨ b = true) →
    ∃ v, intDigits acc b s = some v
  | [], acc, b, _, h => by
    rcases h with h | h
    · exact absurd rfl h
    · exact ⟨acc, by simp [intDigits, h]⟩
  | c :: s, acc, b, hd, _ => by
    have hc := hd c (by simp)
    have hne : (c == '_') = false := by
      rw [beq_eq_false_iff_ne]
      rintro rfl; rw [underscore_notDec] at hc; simp at hc
    simp only [isDec, Option.isSome_iff_exists] at hc
    obtain ⟨d, hd'⟩ := hc
    obtain ⟨v, hv⟩ := intDigits_total s (acc * 10 + d) true (fun c hc => hd c (by simp [hc])) (Or.inr rfl)
    exact ⟨v, by simp [intDigits, hne, hd', hv]⟩

theorem pyNat_total {s : Str} (hs : s ≠ []) (h : ∀ c ∈ s, isDec c = true) : ∃ n, pyNat s = .ok n ∧ n < 10 ^ s.length := by
  obtain ⟨v, hv⟩ := intDigits_total s 0 false h (Or.inl hs)
  have : pyNat s = .ok v := by simp [pyNat, hv]
  exact ⟨v, this, pyNat_bound this⟩

theorem natStr_length {n k : Nat} (hk : 0 < k) (h1 : 10 ^ k ≤ n) (h2 : n < 10 ^ (k + 1)) : (natStr n).length = k + 1 := by
  induction k generalizing n with
  | zero => omega
  | succ k ih =>
    rw [natStr_ge (by have : 10 ^ 1 ≤ 10 ^ (k + 1) := Nat.pow_le_pow_right (by omega) (by omega); omega)]
    simp only [List.length_append, List.length_cons, List.length_nil, Nat.zero_add, Nat.add_right_cancel_iff]
    by_cases hk0 : k = 0
    · subst hk0
      rw [natStr_lt (by simp at h2; omega)]; rfl
    · exact ih (by omega) (by rw [Nat.le_div_iff_mul_le (by omega), ← Nat.pow_succ]; exact h1)
        (by rw [Nat.div_lt_iff_lt_mul (by omega), ← Nat.pow_succ]; exact h2)

theorem padded_length {k n : Nat} (hk : 0 < k) (h : n < 10 ^ k) : (padded (10 ^ k) n).length = k := by
  have : (natStr (n + 10 ^ k)).length = k + 1 := natStr_length hk (by omega) (by rw [Nat.pow_succ]; omega)
  simp [padded, this]

end Verif
