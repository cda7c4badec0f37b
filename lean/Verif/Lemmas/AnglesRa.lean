import Verif.Lemmas.Angles
import Verif.Lemmas.SexDec
/-
  Right ascensions and declinations written for arbitrary decimal degrees.
-/
namespace Verif.Sex
open Verif Flt

/-- the last field, rounded -/
theorem hundredF_round {y : F64} {w : ℚ} {n : Nat} (hn : n ≤ 3) (h1 : |y.val - w| ≤ 1 / 10 ^ 13) (hw : -1 ≤ w) (hw2 : w ≤ 61)
    (hlo : -(1 / 2 / 10 ^ n) + 1 / 10 ^ 12 ≤ w ∨ 0 ≤ w) :
    ∃ k : Nat, hundredF n y = tailText n k ∧ |(k : ℚ) / 10 ^ n - w| ≤ 1 / 2 / 10 ^ n + 1 / 10 ^ 12 := by
  have hP : (0 : ℚ) < 10 ^ n := by positivity
  have hPn : (((10 ^ n : Nat)) : ℚ) = 10 ^ n := by push_cast; rfl
  have hP3 : (10 : ℚ) ^ n ≤ 1000 := by
    have : (10 : ℚ) ^ n ≤ 10 ^ 3 := pow_le_pow_right₀ (by norm_num) hn
    linarith
  rw [abs_le] at h1
  unfold hundredF
  have e1 : add (ofInt 100) y = ⟨false, rnd (100 + y.val)⟩ := by
    rw [i100]
    show ofRat (100 + y.val) (false && y.neg) = _
    exact ofRat_nonneg (by linarith)
  have hr := rnd_near (q := 100 + y.val) (by linarith)
  rw [e1, fmtF_pos]
  generalize rnd (100 + y.val) = z at *
  have hz : |z - (100 + w)| ≤ 1 / 10 ^ 12 - 1 / 10 ^ 13 := by
    rw [abs_le]; constructor <;> linarith
  rw [abs_le] at hz
  have er := roundEven_err (q := z * (10 ^ n : Nat)) (mul_nonneg (by linarith) (by positivity))
  generalize roundEven (z * (10 ^ n : Nat)) = K at *
  rw [hPn, abs_le] at er
  have hK1 : (K : ℚ) / 10 ^ n - z ≤ 1 / 2 / 10 ^ n := by
    rw [sub_le_iff_le_add, div_le_iff₀ hP, add_mul, div_mul_cancel₀ _ hP.ne']; linarith
  have hK2 : -(1 / 2 / 10 ^ n) ≤ (K : ℚ) / 10 ^ n - z := by
    rw [le_sub_iff_add_le, le_div_iff₀ hP, add_mul, neg_mul, div_mul_cancel₀ _ hP.ne']; linarith
  have t1 : (0.001 : ℚ) ≤ 1 / 10 ^ n := by rw [le_div_iff₀ hP]; linarith
  have hhalf : (1 : ℚ) / 2 / 10 ^ n = 1 / 2 * (1 / 10 ^ n) := by ring
  rw [hhalf] at hK1 hK2 hlo ⊢
  have ht : (1 : ℚ) / 10 ^ n ≤ 1 := by rw [div_le_iff₀ hP]; have : (1 : ℚ) ≤ 10 ^ n := one_le_pow₀ (by norm_num)
                                       linarith
  have hge : 100 * 10 ^ n ≤ K := by
    have : ((100 * 10 ^ n : Nat) : ℚ) < K + 1 := by
      push_cast
      have h3 : (100 : ℚ) - 1 / 10 ^ n < K / 10 ^ n := by
        rcases hlo with h | h <;> linarith
      rw [lt_div_iff₀ hP, sub_mul, div_mul_cancel₀ _ hP.ne'] at h3
      linarith
    have : 100 * 10 ^ n < K + 1 := by exact_mod_cast this
    omega
  obtain ⟨k, rfl⟩ := Nat.exists_eq_add_of_le hge
  have hkq : (((100 * 10 ^ n + k : Nat)) : ℚ) / 10 ^ n = 100 + k / 10 ^ n := by
    push_cast; field_simp
  rw [hkq] at hK1 hK2
  have hk : k < 100 * 10 ^ n := by
    have : (k : ℚ) / 10 ^ n < 100 := by linarith
    rw [div_lt_iff₀ hP] at this
    exact_mod_cast this
  refine ⟨k, hundred_dec hk, ?_⟩
  rw [abs_le]; constructor <;> linarith

theorem tail_le {n k : Nat} {w : ℚ} (hn : n ≤ 3) (h : |(k : ℚ) / 10 ^ n - w| ≤ 1 / 2 / 10 ^ n + 1 / 10 ^ 12) (hw : w ≤ 60) : k ≤ 60 * 10 ^ n := by
  have hP : (0 : ℚ) < 10 ^ n := by positivity
  have hP3 : (10 : ℚ) ^ n ≤ 1000 := by
    have : (10 : ℚ) ^ n ≤ 10 ^ 3 := pow_le_pow_right₀ (by norm_num) hn
    linarith
  rw [abs_le] at h
  have h2 : (k : ℚ) / 10 ^ n ≤ 60 + 1 / 2 / 10 ^ n + 1 / 10 ^ 12 := by linarith
  rw [div_le_iff₀ hP, add_mul, add_mul, div_mul_cancel₀ _ hP.ne'] at h2
  have : (k : ℚ) < ((60 * 10 ^ n + 1 : Nat) : ℚ) := by push_cast; linarith
  have : k < 60 * 10 ^ n + 1 := by exact_mod_cast this
  omega

/-- a precision in seconds: one unit is the `d`th decimal -/
structure SecPrec (p : Num) (d : Nat) : Prop where
  p1 : p.f ≠ ofRat (mkRat 6 10)
  p2 : p.f ≠ ofInt 6
  p3 : p.f ≠ ofInt 60
  digits : precDigits p = .ok d
  half : ∃ g, mul (ofRat (mkRat 1 2)) p.f = ⟨false, g⟩ ∧ 0 ≤ g ∧ |g - 1 / 2 / 10 ^ d| ≤ 1 / 10 ^ 14

/-- a precision in minutes: one unit is the `d`th decimal -/
structure MinPrec (p : Num) (d : Nat) : Prop where
  d2 : d ≤ 2
  eq : p.f = if d = 2 then ofRat (mkRat 6 10) else if d = 1 then ofInt 6 else ofInt 60

theorem secPrec {d : Nat} (hd : d ≤ 3) : SecPrec (.flt ⟨false, rnd (1 / 10 ^ d)⟩) d := by
  have key : ∀ x : F64, x ≠ ofRat (mkRat 6 10) ∧ x ≠ ofInt 6 ∧ x ≠ ofInt 60 ∧ precDigits (.flt x) = .ok d → x = ⟨false, rnd (1 / 10 ^ d)⟩ → SecPrec (.flt ⟨false, rnd (1 / 10 ^ d)⟩) d := by
    intro x hx e
    subst e
    refine ⟨hx.1, hx.2.1, hx.2.2.1, hx.2.2.2, rnd (1 / 2 * rnd (1 / 10 ^ d)), ?_, rnd_nonneg _, ?_⟩
    · rw [show ofRat (mkRat 1 2) = ⟨false, 1 / 2⟩ by decide +kernel]; rfl
    · have hP : (1 : ℚ) / 10 ^ d ≤ 1 := by
        rw [div_le_iff₀ (by positivity)]; have : (1 : ℚ) ≤ 10 ^ d := one_le_pow₀ (by norm_num)
        linarith
      have r1 := rnd_near (q := 1 / 10 ^ d) (by positivity)
      have r0 := rnd_nonneg (1 / 10 ^ d)
      have r2 := rnd_near (q := 1 / 2 * rnd (1 / 10 ^ d)) (by positivity)
      rw [show (1 : ℚ) / 2 / 10 ^ d = 1 / 2 * (1 / 10 ^ d) by ring]
      generalize rnd (1 / 2 * rnd (1 / 10 ^ d)) = w at *
      generalize rnd (1 / 10 ^ d) = v at *
      rw [abs_le]; constructor <;> linarith
  obtain rfl | rfl | rfl | rfl : d = 0 ∨ d = 1 ∨ d = 2 ∨ d = 3 := by omega
  · exact key ⟨false, rnd 1⟩ (by decide +kernel) (by norm_num)
  · exact key ⟨false, rnd (mkRat 1 10)⟩ (by decide +kernel) (by rw [Rat.mkRat_eq_div]; norm_num)
  · exact key ⟨false, rnd (mkRat 1 100)⟩ (by decide +kernel) (by rw [Rat.mkRat_eq_div]; norm_num)
  · exact key ⟨false, rnd (mkRat 1 1000)⟩ (by decide +kernel) (by rw [Rat.mkRat_eq_div]; norm_num)

theorem minPrec {d : Nat} (hd : d ≤ 2) : MinPrec (.flt ⟨false, rnd (60 / 10 ^ d)⟩) d := by
  refine ⟨hd, ?_⟩
  show (⟨false, rnd (60 / 10 ^ d)⟩ : F64) = _
  obtain rfl | rfl | rfl : d = 0 ∨ d = 1 ∨ d = 2 := by omega
  · have : (⟨false, rnd 60⟩ : F64) = ofInt 60 := by decide +kernel
    norm_num; exact this
  · have : (⟨false, rnd 6⟩ : F64) = ofInt 6 := by decide +kernel
    norm_num; exact this
  · have : (⟨false, rnd (mkRat 6 10)⟩ : F64) = ofRat (mkRat 6 10) := by decide +kernel
    rw [show (60 : ℚ) / 10 ^ 2 = mkRat 6 10 by rw [Rat.mkRat_eq_div]; norm_num]
    simp only [if_true]; exact this

/-- the total number of seconds of a right ascension -/
theorem ra_total {q : ℚ} (h0 : 0 ≤ q) (hq : q ≤ 360) : |rnd (rnd q / cRA) - 240 * q| ≤ 1 / 10 ^ 10 ∧ 0 ≤ rnd (rnd q / cRA) := by
  refine ⟨?_, rnd_nonneg _⟩
  have r1 := rnd_near h0
  have r0 := rnd_nonneg q
  rw [cRA_eq]
  have r2 := rnd_near (q := rnd q / (4803839602528529 / 2 ^ 60)) (by positivity)
  generalize rnd (rnd q / (4803839602528529 / 2 ^ 60)) = w at *
  generalize rnd q = v at *
  rw [abs_le]; constructor <;> linarith

theorem numeral_sign {n : Spec.Numeral} (hs : n.sign ≠ some '-') : decide (n.sign = some '-') = false := by simpa using hs

theorem ra_sec {n : Spec.Numeral} (hn : n.Valid) (hs : n.sign ≠ some '-') (hq : n.size ≤ 360) {p : Num} {d : Nat} (hd : d ≤ 3) (hp : SecPrec p d) :
    ∃ h m k : Nat, h ≤ 24 ∧ m < 60 ∧ k ≤ 60 * 10 ^ d ∧ decRaToSexRa n.text p = .ok (ljust 12 (Spec.fixed 2 h ++ [' '] ++ Spec.fixed 2 m ++ [' '] ++ tailText d k)) ∧
      |3600 * (h : ℚ) + 60 * m + k / 10 ^ d - 240 * n.size| ≤ 1 / 2 / 10 ^ d + 1 / 10 ^ 9 := by
  obtain ⟨ht, h0⟩ := ra_total (size_nonneg n) hq
  generalize hrev : rnd (rnd n.size / cRA) = rev at *
  rw [abs_le] at ht
  have hrr : Repr rev := hrev ▸ repr_rnd _
  obtain ⟨h, a1, a2, a3, a4, a5⟩ := split_exact hrr h0 (U := 3600) (by norm_num) (by norm_num) (by norm_num; linarith)
  obtain ⟨m, b1, b2, b3, b4, b5⟩ := split_exact a3 a4 (U := 60) (by norm_num) (by norm_num) (by norm_num at a5 ⊢; linarith)
  push_cast at a1 a2 a3 a4 a5 b1 b2 b3 b4 b5
  have hh : h ≤ 24 := by
    have : (h : ℚ) < 25 := by linarith
    have : h < 25 := by exact_mod_cast this
    omega
  have hm : m < 60 := by
    have : (m : ℚ) < 60 := by linarith
    exact_mod_cast this
  obtain ⟨k, c1, c2⟩ := hundredF_round (y := ⟨false, rev - 3600 * h - 60 * m⟩) (w := rev - 3600 * h - 60 * m) hd (by simp [F64.val]) (by linarith) (by linarith) (.inr b4)
  refine ⟨h, m, k, hh, hm, tail_le hd c2 (by linarith), ?_, ?_⟩
  · rw [decRaToSexRa, parse_numeral hn, okBind, numeral_sign hs, secToDegrees_eq, div_pos', hrev]
    simp only
    rw [a1, a2, if_neg hp.p1, if_neg hp.p2, if_neg hp.p3, b1, b2, hp.digits, okBind, c1, hundred_eq (by omega), hundred_eq (by omega)]
    rfl
  · rw [abs_le] at c2 ⊢
    constructor <;> linarith

theorem ra_min {n : Spec.Numeral} (hn : n.Valid) (hs : n.sign ≠ some '-') (hq : n.size ≤ 360) {p : Num} {d : Nat} (hp : MinPrec p d) :
    ∃ h k : Nat, h ≤ 24 ∧ k ≤ 60 * 10 ^ d ∧ decRaToSexRa n.text p = .ok (ljust 12 (Spec.fixed 2 h ++ [' '] ++ tailText d k)) ∧
      |3600 * (h : ℚ) + 60 * (k / 10 ^ d) - 240 * n.size| ≤ 60 * (1 / 2 / 10 ^ d) + 1 / 10 ^ 9 := by
  obtain ⟨ht, h0⟩ := ra_total (size_nonneg n) hq
  generalize hrev : rnd (rnd n.size / cRA) = rev at *
  rw [abs_le] at ht
  have hrr : Repr rev := hrev ▸ repr_rnd _
  obtain ⟨h, a1, a2, a3, a4, a5⟩ := split_exact hrr h0 (U := 3600) (by norm_num) (by norm_num) (by norm_num; linarith)
  push_cast at a1 a2 a3 a4 a5
  have hh : h ≤ 24 := by
    have : (h : ℚ) < 25 := by linarith
    have : h < 25 := by exact_mod_cast this
    omega
  have hr := rnd_near (q := (rev - 3600 * h) / 60) (by linarith)
  obtain ⟨k, c1, c2⟩ := hundredF_round (n := d) (y := ⟨false, rnd ((rev - 3600 * h) / 60)⟩) (w := (rev - 3600 * h) / 60) (by have := hp.d2; omega) (by
    simp only [F64.val, Bool.false_eq_true, if_false]; rw [abs_le]; constructor <;> linarith) (by linarith) (by linarith) (.inr (by linarith))
  refine ⟨h, k, hh, tail_le (by have := hp.d2; omega) c2 (by linarith), ?_, ?_⟩
  · rw [decRaToSexRa, parse_numeral hn, okBind, numeral_sign hs, secToDegrees_eq, div_pos', hrev]
    simp only
    rw [a1, a2, i60, div_pos', hp.eq]
    rw [hundred_eq (by omega)]
    have := hp.d2
    obtain rfl | rfl | rfl : d = 0 ∨ d = 1 ∨ d = 2 := by omega
    · simp only [show ¬ ((0 : Nat) = 2) by decide, show ¬ ((0 : Nat) = 1) by decide, if_false]
      rw [if_neg (by decide +kernel), if_neg (by decide +kernel), if_pos i60, c1]; rfl
    · simp only [show ¬ ((1 : Nat) = 2) by decide, if_false, if_true]
      rw [if_neg (by decide +kernel), c1]; rfl
    · simp only [if_true]
      rw [c1]; rfl
  · rw [abs_le] at c2 ⊢
    constructor <;> linarith
end Verif.Sex
