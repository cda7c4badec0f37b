import Verif.PackUtil
import Verif.Spec.Designation
/-! Decimal and base-62 rendering lemmas. -/
namespace Verif
open Verif.PackUtil

theorem lt10_cases {d : Nat} (h : d < 10) :
    d = 0 ∨ d = 1 ∨ d = 2 ∨ d = 3 ∨ d = 4 ∨ d = 5 ∨ d = 6 ∨ d = 7 ∨ d = 8 ∨ d = 9 := by omega

/-- lift a decidable fact on all naturals below a bound -/
theorem forall_lt_of_all {P : Nat → Bool} (n : Nat) (h : (List.range n).all P = true) :
    ∀ k, k < n → P k = true := by
  intro k hk
  exact List.all_eq_true.1 h k (List.mem_range.2 hk)

/-- the ten ASCII digits -/
def digits10 : Str := c! "0123456789"

theorem digitChar_mem {d : Nat} (h : d < 10) : digitChar d ∈ digits10 := by
  revert d; decide

theorem digitChar_eq_natDigitChar {d : Nat} (h : d < 10) : digitChar d = Nat.digitChar d := by
  revert d; decide

theorem decVal_digitChar {d : Nat} (h : d < 10) : decVal (digitChar d) = some d := by
  have := forall_lt_of_all (P := fun k => decVal (digitChar k) == some k) 10 (by decide) d h
  simpa using this

theorem digitChar_ne_underscore {d : Nat} (h : d < 10) : (digitChar d == '_') = false := by
  revert d; decide

theorem isDec_of_mem {c : Char} (h : c ∈ digits10) : isDec c = true := by
  have : digits10.all isDec = true := by decide
  exact List.all_eq_true.1 this c h

theorem b62_digit {d : Nat} (h : d < 10) : Spec.b62 d = digitChar d := by
  have := forall_lt_of_all (P := fun k => Spec.b62 k == digitChar k) 10 (by decide) d h
  simpa using this

/-! ### natStr -/

theorem natStrAux_fuel : ∀ (f g n : Nat), n < f → n < g → natStrAux f n = natStrAux g n
  | 0, _, n, h, _ => by omega
  | f + 1, 0, n, _, h => by omega
  | f + 1, g + 1, n, h1, h2 => by
    simp only [natStrAux]
    split
    · rfl
    · rw [natStrAux_fuel f g (n / 10) (by omega) (by omega)]

theorem natStr_lt {n : Nat} (h : n < 10) : natStr n = [digitChar n] := by
  simp [natStr, natStrAux, h]

theorem natStr_ge {n : Nat} (h : 10 ≤ n) : natStr n = natStr (n / 10) ++ [digitChar (n % 10)] := by
  conv => lhs; simp only [natStr, natStrAux]
  rw [if_neg (by omega), natStr]
  rw [natStrAux_fuel n (n / 10 + 1) (n / 10) (by omega) (by omega)]

theorem natStr_eq_toDigits (n : Nat) : natStr n = Nat.toDigits 10 n := by
  induction n using Nat.strongRecOn with
  | _ n ih =>
    by_cases h : n < 10
    · rw [natStr_lt h, Nat.toDigits_of_lt_base h, digitChar_eq_natDigitChar h]
    · rw [natStr_ge (by omega), Nat.toDigits_of_base_le (by omega) (by omega), ih (n / 10) (by omega),
        digitChar_eq_natDigitChar (by omega)]

theorem dec_eq (n : Nat) : Spec.dec n = natStr n := (natStr_eq_toDigits n).symm

theorem natStr_mem (n : Nat) : ∀ c ∈ natStr n, c ∈ digits10 := by
  induction n using Nat.strongRecOn with
  | _ n ih =>
    intro c hc
    by_cases h : n < 10
    · rw [natStr_lt h] at hc
      simp at hc; subst hc; exact digitChar_mem h
    · rw [natStr_ge (by omega)] at hc
      rcases List.mem_append.1 hc with hc | hc
      · exact ih (n / 10) (by omega) c hc
      · simp at hc; subst hc; exact digitChar_mem (by omega)

theorem natStr_isDec (n : Nat) : ∀ c ∈ natStr n, isDec c = true :=
  fun c hc => isDec_of_mem (natStr_mem n c hc)

theorem natStr_length_pos (n : Nat) : 0 < (natStr n).length := by
  rw [natStr_eq_toDigits]; exact Nat.length_toDigits_pos

theorem natStr_ne_nil (n : Nat) : natStr n ≠ [] := by
  have := natStr_length_pos n
  intro h; simp [h] at this

theorem natStr_length_le {n k : Nat} (hk : 0 < k) (h : n < 10 ^ k) : (natStr n).length ≤ k := by
  rw [natStr_eq_toDigits]; exact (Nat.length_toDigits_le_iff (by omega) hk).2 h

/-- value of a digit string with accumulator -/
theorem intDigits_append_digit (ds : Str) (d : Nat) (hd : d < 10) : ∀ (acc v : Nat) (b : Bool),
    intDigits acc b ds = some v → intDigits acc b (ds ++ [digitChar d]) = some (v * 10 + d) := by
  induction ds with
  | nil =>
    intro acc v b h
    simp only [intDigits] at h
    split at h
    · simp at h; subst h
      simp [intDigits, digitChar_ne_underscore hd, decVal_digitChar hd]
    · simp at h
  | cons c cs ih =>
    intro acc v b h
    simp only [List.cons_append, intDigits] at h ⊢
    split at h
    · split at h
      · rename_i h1 h2; simp only [h1, h2, if_true]; exact ih _ _ _ h
      · simp at h
    · rename_i h1
      rw [if_neg h1]
      split at h
      · exact ih _ _ _ h
      · simp at h

theorem intDigits_natStr (n : Nat) : intDigits 0 false (natStr n) = some n := by
  induction n using Nat.strongRecOn with
  | _ n ih =>
    by_cases h : n < 10
    · rw [natStr_lt h]
      simp [intDigits, digitChar_ne_underscore h, decVal_digitChar h]
    · rw [natStr_ge (by omega), intDigits_append_digit _ _ (by omega) 0 _ false (ih (n / 10) (by omega))]
      congr 1; omega

theorem pyNat_natStr (n : Nat) : pyNat (natStr n) = .ok n := by
  simp [pyNat, intDigits_natStr]

theorem intDigits_cons {d : Nat} (hd : d < 10) (acc : Nat) (b : Bool) (s : Str) :
    intDigits acc b (digitChar d :: s) = intDigits (acc * 10 + d) true s := by
  simp [intDigits, digitChar_ne_underscore hd, decVal_digitChar hd]

theorem pyNat_zero_natStr (n : Nat) : pyNat ('0' :: natStr n) = .ok n := by
  have h0 : '0' = digitChar 0 := rfl
  simp only [pyNat, h0]
  rw [intDigits_cons (by omega)]
  have := intDigits_natStr n
  cases hs : natStr n with
  | nil => exact absurd hs (natStr_ne_nil n)
  | cons c cs =>
    rw [hs] at this
    simp only [intDigits, Nat.zero_mul, Nat.zero_add] at this ⊢
    split at this
    · simp at this
    · rename_i h1
      rw [if_neg h1]
      split at this
      · rw [this]
      · simp at this

theorem pyNat1 {a : Nat} (ha : a < 10) : pyNat [digitChar a] = .ok a := by
  rw [pyNat, intDigits_cons ha]; simp [intDigits]
theorem pyNat2 {a b : Nat} (ha : a < 10) (hb : b < 10) :
    pyNat [digitChar a, digitChar b] = .ok (a * 10 + b) := by
  rw [pyNat, intDigits_cons ha, intDigits_cons hb]; simp [intDigits]
theorem pyNat3 {a b c : Nat} (ha : a < 10) (hb : b < 10) (hc : c < 10) :
    pyNat [digitChar a, digitChar b, digitChar c] = .ok ((a * 10 + b) * 10 + c) := by
  rw [pyNat, intDigits_cons ha, intDigits_cons hb, intDigits_cons hc]; simp [intDigits]
theorem pyNat4 {a b c d : Nat} (ha : a < 10) (hb : b < 10) (hc : c < 10) (hd : d < 10) :
    pyNat [digitChar a, digitChar b, digitChar c, digitChar d] = .ok (((a * 10 + b) * 10 + c) * 10 + d) := by
  rw [pyNat, intDigits_cons ha, intDigits_cons hb, intDigits_cons hc, intDigits_cons hd]; simp [intDigits]

/-! ### fixed width -/

theorem natStr1 {n : Nat} (h : n < 10) : natStr n = [digitChar n] := natStr_lt h
theorem natStr2 {n : Nat} (h : n < 100) (h' : 10 ≤ n) : natStr n = [digitChar (n / 10), digitChar (n % 10)] := by
  rw [natStr_ge h', natStr_lt (by omega)]; rfl
theorem natStr3 {n : Nat} (h : n < 1000) (h' : 100 ≤ n) :
    natStr n = [digitChar (n / 100), digitChar (n / 10 % 10), digitChar (n % 10)] := by
  rw [natStr_ge (by omega), natStr2 (by omega) (by omega)]
  simp [Nat.div_div_eq_div_mul]
theorem natStr4 {n : Nat} (h : n < 10000) (h' : 1000 ≤ n) :
    natStr n = [digitChar (n / 1000), digitChar (n / 100 % 10), digitChar (n / 10 % 10), digitChar (n % 10)] := by
  rw [natStr_ge (by omega), natStr3 (by omega) (by omega)]
  simp [Nat.div_div_eq_div_mul]
theorem natStr5 {n : Nat} (h : n < 100000) (h' : 10000 ≤ n) :
    natStr n = [digitChar (n / 10000), digitChar (n / 1000 % 10), digitChar (n / 100 % 10),
      digitChar (n / 10 % 10), digitChar (n % 10)] := by
  rw [natStr_ge (by omega), natStr4 (by omega) (by omega)]
  simp [Nat.div_div_eq_div_mul]

theorem fixed1 {n : Nat} (h : n < 10) : Spec.fixed 1 n = [digitChar n] := by
  simp [Spec.fixed, dec_eq, natStr1 h, List.leftpad]
theorem fixed2 {n : Nat} (h : n < 100) : Spec.fixed 2 n = [digitChar (n / 10), digitChar (n % 10)] := by
  by_cases h1 : n < 10
  · simp [Spec.fixed, dec_eq, natStr1 h1, List.leftpad, Nat.div_eq_of_lt h1, Nat.mod_eq_of_lt h1]; rfl
  · simp [Spec.fixed, dec_eq, natStr2 h (by omega), List.leftpad]
theorem fixed3 {n : Nat} (h : n < 1000) :
    Spec.fixed 3 n = [digitChar (n / 100), digitChar (n / 10 % 10), digitChar (n % 10)] := by
  by_cases h1 : n < 10
  · have e1 : n / 100 = 0 := by omega
    have e2 : n / 10 % 10 = 0 := by omega
    simp [Spec.fixed, dec_eq, natStr1 h1, List.leftpad, e1, e2, Nat.mod_eq_of_lt h1]; decide
  · by_cases h2 : n < 100
    · have e1 : n / 100 = 0 := by omega
      have e2 : n / 10 % 10 = n / 10 := by omega
      simp [Spec.fixed, dec_eq, natStr2 h2 (by omega), List.leftpad, e1, e2]; decide
    · simp [Spec.fixed, dec_eq, natStr3 h (by omega), List.leftpad]
theorem fixed4 {n : Nat} (h : n < 10000) :
    Spec.fixed 4 n = [digitChar (n / 1000), digitChar (n / 100 % 10), digitChar (n / 10 % 10), digitChar (n % 10)] := by
  by_cases h1 : n < 10
  · have e1 : n / 100 % 10 = 0 := by omega
    have e2 : n / 10 % 10 = 0 := by omega
    have e3 : n / 1000 = 0 := by omega
    simp [Spec.fixed, dec_eq, natStr1 h1, List.leftpad, e1, e2, e3, Nat.mod_eq_of_lt h1]; decide
  · by_cases h2 : n < 100
    · have e1 : n / 100 % 10 = 0 := by omega
      have e2 : n / 10 % 10 = n / 10 := by omega
      have e3 : n / 1000 = 0 := by omega
      simp [Spec.fixed, dec_eq, natStr2 h2 (by omega), List.leftpad, e1, e2, e3]; decide
    · by_cases h3 : n < 1000
      · have e1 : n / 100 % 10 = n / 100 := by omega
        have e3 : n / 1000 = 0 := by omega
        simp [Spec.fixed, dec_eq, natStr3 h3 (by omega), List.leftpad, e1, e3]; decide
      · simp [Spec.fixed, dec_eq, natStr4 h (by omega), List.leftpad]

theorem padded10 {n : Nat} (h : n < 10) : padded 10 n = [digitChar n] := by
  rw [padded, natStr2 (by omega) (by omega)]
  have : (n + 10) % 10 = n := by omega
  simp [this]
theorem padded1000 {n : Nat} (h : n < 1000) : padded 1000 n = Spec.fixed 3 n := by
  rw [padded, natStr4 (by omega) (by omega), fixed3 h]
  have e1 : (n + 1000) / 100 % 10 = n / 100 := by omega
  have e2 : (n + 1000) / 10 % 10 = n / 10 % 10 := by omega
  have e3 : (n + 1000) % 10 = n % 10 := by omega
  simp [e1, e2, e3]
theorem padded10000 {n : Nat} (h : n < 10000) : padded 10000 n = Spec.fixed 4 n := by
  rw [padded, natStr5 (by omega) (by omega), fixed4 h]
  have e1 : (n + 10000) / 100 % 10 = n / 100 % 10 := by omega
  have e2 : (n + 10000) / 10 % 10 = n / 10 % 10 := by omega
  have e3 : (n + 10000) % 10 = n % 10 := by omega
  have e4 : (n + 10000) / 1000 % 10 = n / 1000 := by omega
  simp [e1, e2, e3, e4]

/-! ### base 62 -/

theorem packLetters_length : packLetters.length = 62 := by decide

theorem packLetter_ok {k : Nat} (h : k < 62) : packLetter k = .ok (Spec.b62 k) := by
  have := forall_lt_of_all (P := fun k => decide (packLetter k = .ok (Spec.b62 k))) 62 (by decide +kernel) k h
  simpa using this

theorem unpackLetter_b62 {k : Nat} (h : k < 62) : unpackLetter (Spec.b62 k) = .ok k := by
  have := forall_lt_of_all (P := fun k => decide (unpackLetter (Spec.b62 k) = .ok k)) 62 (by decide +kernel) k h
  simpa using this

theorem digit62_eq (n : Nat) : digit62 (n : Int) = Spec.b62 (n % 62) := by
  have h := forall_lt_of_all (P := fun k => packLetters.getD k '0' == Spec.b62 k) 62 (by decide +kernel)
    (n % 62) (Nat.mod_lt _ (by omega))
  have e : ((n : Int) % 62).toNat = n % 62 := by omega
  simp only [digit62, e]
  simpa using h

theorem radix62_4_nat (n : Nat) : radix62_4 (n : Int) = '~' :: Spec.b62x4 n := by
  have e1 : (n : Int) / 62 = ((n / 62 : Nat) : Int) := by omega
  have e2 : ((n / 62 : Nat) : Int) / 62 = ((n / 62 ^ 2 : Nat) : Int) := by
    rw [show n / 62 ^ 2 = n / 62 / 62 by rw [Nat.div_div_eq_div_mul]]; omega
  have e3 : ((n / 62 ^ 2 : Nat) : Int) / 62 = ((n / 62 ^ 3 : Nat) : Int) := by
    rw [show n / 62 ^ 3 = n / 62 ^ 2 / 62 by rw [Nat.div_div_eq_div_mul]]; omega
  simp only [radix62_4, e1, e2, e3, digit62_eq, Spec.b62x4]

theorem unRadix_b62x4 {c : Char} {n : Nat} (h : n < 62 ^ 4) : unRadix62_4 (c :: Spec.b62x4 n) = .ok n := by
  simp only [unRadix62_4, Spec.b62x4, charAt, List.getElem?_cons_succ, List.getElem?_cons_zero,
    bind, Except.bind, pure, Except.pure]
  rw [unpackLetter_b62 (Nat.mod_lt _ (by omega)), unpackLetter_b62 (Nat.mod_lt _ (by omega)),
    unpackLetter_b62 (Nat.mod_lt _ (by omega)), unpackLetter_b62 (Nat.mod_lt _ (by omega))]
  simp only [Except.ok.injEq]
  have e : n / 62 ^ 3 % 62 = n / 62 ^ 3 := Nat.mod_eq_of_lt (by omega)
  rw [e]
  omega

end Verif
