import Verif.Lemmas.Shape
/-! Decimal rendering: zero padding of any width, `int()` of padded numbers, white-space splitting. -/
namespace Verif
open Verif.PackUtil

theorem fixed_eq (k n : Nat) : Spec.fixed k n = List.replicate (k - (natStr n).length) '0' ++ natStr n := by
  simp [Spec.fixed, dec_eq, List.leftpad]

theorem fixed_succ {k : Nat} (hk : 1 ≤ k) (n : Nat) : Spec.fixed (k + 1) n = Spec.fixed k (n / 10) ++ [digitChar (n % 10)] := by
  rw [fixed_eq, fixed_eq]
  by_cases h : n < 10
  · have e1 : n / 10 = 0 := by omega
    have e2 : n % 10 = n := by omega
    rw [e1, e2, natStr_lt h, natStr_lt (show 0 < 10 by omega)]
    simp only [List.length_cons, List.length_nil]
    have : k + 1 - (0 + 1) = (k - (0 + 1)) + 1 := by omega
    rw [this, List.replicate_succ']
    simp; rfl
  · rw [natStr_ge (by omega)]
    simp

theorem fixed_one (n : Nat) (h : n < 10) : Spec.fixed 1 n = [digitChar n] := fixed1 h

theorem natStr_add_pow : ∀ {k : Nat}, 1 ≤ k → ∀ {n : Nat}, n < 10 ^ k → natStr (n + 10 ^ k) = '1' :: Spec.fixed k n
  | 0, h, _, _ => by omega
  | 1, _, n, hn => by
    rw [natStr_ge (by omega), natStr_lt (by omega), fixed_one n (by omega)]
    have e1 : (n + 10 ^ 1) / 10 = 1 := by omega
    have e2 : (n + 10 ^ 1) % 10 = n := by omega
    rw [e1, e2]; rfl
  | k + 2, _, n, hn => by
    have hp : 10 ^ (k + 2) = 10 * 10 ^ (k + 1) := by rw [Nat.pow_succ]; omega
    have hpos : 1 ≤ 10 ^ (k + 1) := Nat.one_le_pow _ _ (by omega)
    rw [natStr_ge (by omega), fixed_succ (by omega)]
    have e1 : (n + 10 ^ (k + 2)) / 10 = n / 10 + 10 ^ (k + 1) := by omega
    have e2 : (n + 10 ^ (k + 2)) % 10 = n % 10 := by omega
    rw [e1, e2, natStr_add_pow (k := k + 1) (by omega) (by omega)]
    rfl

theorem padded_fixed {k n : Nat} (hk : 1 ≤ k) (h : n < 10 ^ k) : padded (10 ^ k) n = Spec.fixed k n := by
  rw [padded, natStr_add_pow hk h]; rfl

theorem fixed_length {k n : Nat} (hk : 1 ≤ k) (h : n < 10 ^ k) : (Spec.fixed k n).length = k := by
  rw [← padded_fixed hk h]; exact padded_length hk h

theorem fixed_mem (k n : Nat) : ∀ c ∈ Spec.fixed k n, c ∈ digits10 := by
  rw [fixed_eq]
  simp only [List.mem_append, List.mem_replicate]
  rintro c (⟨-, rfl⟩ | h)
  · decide
  · exact natStr_mem n c h

theorem fixed_isDec (k n : Nat) : ∀ c ∈ Spec.fixed k n, isDec c = true := fun c hc => isDec_of_mem (fixed_mem k n c hc)

theorem intDigits_zeros (s : Str) (n : Nat) (h : intDigits 0 true s = some n) : ∀ j b, (0 < j ∨ b = true) → intDigits 0 b (List.replicate j '0' ++ s) = some n
  | 0, b, hj => by
    have : b = true := by rcases hj with h | h; · omega
                          · exact h
    subst this; simpa using h
  | j + 1, b, _ => by
    have := intDigits_cons (d := 0) (by omega) 0 b (List.replicate j '0' ++ s)
    rw [show digitChar 0 = '0' from rfl] at this
    rw [List.replicate_succ, List.cons_append, this]
    exact intDigits_zeros s n h j true (Or.inr rfl)

theorem intDigits_nonempty {s : Str} {acc : Nat} (hs : ∀ c ∈ s, isDec c = true) (hne : s ≠ []) (b : Bool) : intDigits acc b s = intDigits acc false s := by
  cases s with
  | nil => exact absurd rfl hne
  | cons c s =>
    have hc := hs c (by simp)
    have hne : (c == '_') = false := by
      rw [beq_eq_false_iff_ne]; rintro rfl; rw [underscore_notDec] at hc; simp at hc
    simp [intDigits, hne]

theorem intDigits_fixed (k n : Nat) : intDigits 0 false (Spec.fixed k n) = some n := by
  rw [fixed_eq]
  generalize k - (natStr n).length = j
  cases j with
  | zero => simpa using intDigits_natStr n
  | succ j =>
    refine intDigits_zeros _ _ ?_ _ _ (Or.inl (by omega))
    rw [intDigits_nonempty (natStr_isDec n) (natStr_ne_nil n)]
    exact intDigits_natStr n

theorem digit_not_space {c : Char} (h : c ∈ digits10) : isSpace c = false := by
  have : digits10.all (fun c => !isSpace c) = true := by decide
  simpa using List.all_eq_true.1 this c h

/-- no white space at either end -/
theorem strip_of_ends {s : Str} (h1 : ∀ c ∈ s.head?, isSpace c = false) (h2 : ∀ c ∈ s.getLast?, isSpace c = false) : strip s = s := by
  have r : rstrip s = s := by
    rw [rstrip]
    have : s.reverse.dropWhile isSpace = s.reverse := by
      cases hs : s.reverse with
      | nil => rfl
      | cons c t =>
        have : s.getLast? = some c := by rw [← List.head?_reverse, hs]; rfl
        rw [List.dropWhile_cons, h2 c (by simp [this])]; simp
    rw [this]; simp
  rw [strip, r, lstrip]
  cases s with
  | nil => rfl
  | cons c t => rw [List.dropWhile_cons, h1 c (by simp)]; simp

theorem strip_of_none {s : Str} (h : ∀ c ∈ s, isSpace c = false) : strip s = s :=
  strip_of_ends (fun c hc => h c (List.mem_of_mem_head? hc)) (fun c hc => h c (List.mem_of_getLast? hc))

theorem pyInt_digits {s : Str} (hs : s ≠ []) (h : ∀ c ∈ s, c ∈ digits10) {n : Nat} (hn : intDigits 0 false s = some n) : pyInt s = .ok (n : Int) := by
  rw [pyInt, strip_of_none fun c hc => digit_not_space (h c hc)]
  cases s with
  | nil => exact absurd rfl hs
  | cons c t =>
    have hc : c ∈ digits10 := h c (by simp)
    have h1 : (c == '-') = false := by
      rw [beq_eq_false_iff_ne]; rintro rfl; exact absurd hc (by decide)
    have h2 : (c == '+') = false := by
      rw [beq_eq_false_iff_ne]; rintro rfl; exact absurd hc (by decide)
    simp [h1, h2, hn]

theorem pyInt_fixed {k n : Nat} : pyInt (Spec.fixed k n) = .ok (n : Int) := by
  refine pyInt_digits ?_ (fixed_mem k n) (intDigits_fixed k n)
  rw [fixed_eq]; simp [natStr_ne_nil]

theorem pyInt_natStr (n : Nat) : pyInt (natStr n) = .ok (n : Int) :=
  pyInt_digits (natStr_ne_nil n) (natStr_mem n) (intDigits_natStr n)

theorem splitWsAux_word : ∀ (w cur : Str), (∀ c ∈ w, isSpace c = false) → splitWsAux cur w = if (cur ++ w).isEmpty then [] else [cur ++ w]
  | [], cur, _ => by simp [splitWsAux]
  | c :: w, cur, h => by
    rw [splitWsAux, h c (by simp)]
    simp only [Bool.false_eq_true, if_false]
    rw [splitWsAux_word w (cur ++ [c]) (fun d hd => h d (by simp [hd]))]
    simp

theorem splitWs_word {w : Str} (hw : w ≠ []) (h : ∀ c ∈ w, isSpace c = false) : splitWs w = [w] := by
  rw [splitWs, splitWsAux_word w [] h]
  have : w.isEmpty = false := by cases w <;> simp_all
  simp [this]

theorem intStr_nat (n : Nat) : intStr (n : Int) = natStr n := by simp [intStr]

end Verif
