import Verif.Lemmas.DateRead
import Verif.Lemmas.SexArith
/-
  Verif.Lemmas.DateArith : fractions of a day to seconds and back, through binary floating point.
-/
namespace Verif.Sex
open Verif Flt

/-- the float product of the fraction `f / 10^n` and 86400 -/
def sig (n f : Nat) : ℚ := rnd (rnd ((f : ℚ) / 10 ^ n) * 86400)

theorem sig_near (n f : Nat) : |sig n f - (f : ℚ) / 10 ^ n * 86400| ≤ (f : ℚ) / 10 ^ n * 86400 / 2 ^ 51 := by
  unfold sig
  generalize hx : (f : ℚ) / 10 ^ n = x
  have hx0 : 0 ≤ x := by rw [← hx]; positivity
  have h1 := rnd_near hx0
  have h0 := rnd_nonneg x
  have h2 := rnd_near (q := rnd x * 86400) (by positivity)
  rw [abs_le]
  constructor <;> linarith

/-- fractions of a day in units of 1/625 s -/
theorem units {n f : Nat} (hn : n ≤ 6) : (f : ℚ) / 10 ^ n * 86400 = ((f * 10 ^ (6 - n) * 54 : Nat) : ℚ) / 625 := by
  have h : (10 : ℚ) ^ n * 10 ^ (6 - n) = 10 ^ 6 := by rw [← pow_add]; congr 1; omega
  have h1 : (10 : ℚ) ^ n ≠ 0 := by positivity
  push_cast
  field_simp
  rw [mul_assoc (f : ℚ) (10 ^ n), h]; ring

theorem units_lt {n f : Nat} (hn : n ≤ 6) (hf : f < 10 ^ n) : f * 10 ^ (6 - n) * 54 < 54000000 := by
  have h : 10 ^ n * 10 ^ (6 - n) = 1000000 := by rw [← pow_add]; norm_num [show n + (6 - n) = 6 by omega]
  have : f * 10 ^ (6 - n) < 10 ^ n * 10 ^ (6 - n) := Nat.mul_lt_mul_of_pos_right hf (by positivity)
  omega

theorem floor_toNat {x : ℚ} {k : Nat} (h1 : (k : ℚ) ≤ x) (h2 : x < k + 1) : x.floor.toNat = k := by
  have := trunc_nat h1 h2
  unfold trunc at this
  simp only [Bool.false_eq_true, if_false] at this
  rw [this]; rfl

/-- seconds `w + r/625` computed from at or above `w` -/
theorem time_good {q : Nat} (hq : q < 54000000) {σ : ℚ} (h : |σ - (q : ℚ) / 625| ≤ (q : ℚ) / 625 / 2 ^ 51) (hw : ((q / 625 : Nat) : ℚ) ≤ σ) :
    trunc ⟨false, σ⟩ = ((q / 625 : Nat) : Int) ∧ timedeltaUs ⟨false, σ⟩ = q / 625 * 1000000 + 1600 * (q % 625) ∧
    Flt.round (mul (sub ⟨false, σ⟩ (ofInt (trunc ⟨false, σ⟩))) (ofInt (10 ^ 3))) = (((16 * (q % 625) + 5) / 10 : Nat) : Int) := by
  have hqq : (q : ℚ) < 54000000 := by exact_mod_cast hq
  have hr : q % 625 < 625 := Nat.mod_lt _ (by norm_num)
  have hdm : (q : ℚ) = 625 * ((q / 625 : Nat) : ℚ) + ((q % 625 : Nat) : ℚ) := by exact_mod_cast (Nat.div_add_mod q 625).symm
  have hw9 : q / 625 < 86400 := by omega
  generalize hW : q / 625 = w at *
  generalize hR : q % 625 = r at *
  have hrq : (r : ℚ) ≤ 624 := by exact_mod_cast (show r ≤ 624 by omega)
  have hr0 : (0 : ℚ) ≤ r := by positivity
  rw [abs_le] at h
  have hs : |(σ - w) - r / 625| ≤ 1 / 10 ^ 10 := by
    rw [abs_le]; constructor <;> linarith
  rw [abs_le] at hs
  have hlt : σ < w + 1 := by linarith
  have ht := trunc_nat hw hlt
  refine ⟨ht, ?_, ?_⟩
  · unfold timedeltaUs
    simp only [floor_toNat hw hlt]
    have e := rnd_near (q := 1000000 * (σ - w)) (by linarith)
    congr 1
    apply roundEven_eq (rnd_nonneg _)
    push_cast
    rw [abs_lt]; constructor <;> linarith
  · rw [ht, ofInt_nat (by omega), sub_pos' hw, show ((10 : Int) ^ 3) = ((1000 : Nat) : Int) from rfl, ofInt_nat (by norm_num), mul_pos']
    unfold Flt.round
    simp only [Bool.false_eq_true, if_false]
    congr 1
    have e := rnd_near (q := σ - w) (by linarith)
    have e0 := rnd_nonneg (σ - w)
    have e2 := rnd_near (q := rnd (σ - w) * (1000 : Nat)) (by positivity)
    apply roundEven_eq (rnd_nonneg _)
    have hk : 10 * ((16 * r + 5) / 10) ≤ 16 * r + 4 ∧ 16 * r ≤ 10 * ((16 * r + 5) / 10) + 4 := by omega
    have hk1 : (10 : ℚ) * (((16 * r + 5) / 10 : Nat) : ℚ) ≤ 16 * r + 4 := by exact_mod_cast hk.1
    have hk2 : (16 : ℚ) * r ≤ 10 * (((16 * r + 5) / 10 : Nat) : ℚ) + 4 := by exact_mod_cast hk.2
    rw [abs_lt]; constructor <;> linarith

/-- a whole number of seconds computed from below -/
theorem time_bad {w : Nat} (hw : w < 86400) (hw0 : 0 < w) {σ : ℚ} (h : |σ - (w : ℚ)| ≤ (w : ℚ) / 2 ^ 51) (hlt : σ < w) :
    timedeltaUs ⟨false, σ⟩ = w * 1000000 ∧
    Flt.round (mul (sub ⟨false, σ⟩ (ofInt (trunc ⟨false, σ⟩))) (ofInt (10 ^ 3))) = 1000 := by
  have hwq : (w : ℚ) < 86400 := by exact_mod_cast hw
  obtain ⟨v, rfl⟩ : ∃ v, w = v + 1 := ⟨w - 1, by omega⟩
  push_cast at hwq h hlt
  rw [abs_le] at h
  have hv0 : (0 : ℚ) ≤ v := by positivity
  have hs1 : 1 - 1 / 10 ^ 10 ≤ σ - v := by linarith
  have h1 : (v : ℚ) ≤ σ := by linarith
  have ht := trunc_nat h1 hlt
  constructor
  · unfold timedeltaUs
    simp only [floor_toNat h1 hlt]
    have e := rnd_near (q := 1000000 * (σ - v)) (by linarith)
    rw [roundEven_eq (k := 1000000) (rnd_nonneg _) (by rw [abs_lt]; constructor <;> linarith)]
    ring
  · rw [ht, ofInt_nat (by omega), sub_pos' h1, show ((10 : Int) ^ 3) = ((1000 : Nat) : Int) from rfl, ofInt_nat (by norm_num), mul_pos']
    unfold Flt.round
    simp only [Bool.false_eq_true, if_false]
    have e := rnd_near (q := σ - v) (by linarith)
    have e0 := rnd_nonneg (σ - v)
    have e2 := rnd_near (q := rnd (σ - v) * (1000 : Nat)) (by positivity)
    rw [roundEven_eq (k := 1000) (rnd_nonneg _)]
    · rfl
    · rw [abs_lt]; constructor <;> linarith

/-- rounding to whole seconds -/
theorem time_whole {q : Nat} (hq : q < 54000000) {σ : ℚ} (h0 : 0 ≤ σ) (h : |σ - (q : ℚ) / 625| ≤ (q : ℚ) / 625 / 2 ^ 51) :
    Flt.round ⟨false, σ⟩ = (((2 * q + 625) / 1250 : Nat) : Int) := by
  have hqq : (q : ℚ) < 54000000 := by exact_mod_cast hq
  unfold Flt.round
  simp only [Bool.false_eq_true, if_false]
  congr 1
  apply roundEven_eq h0
  have hk : 1250 * ((2 * q + 625) / 1250) ≤ 2 * q + 624 ∧ 2 * q ≤ 1250 * ((2 * q + 625) / 1250) + 624 := by omega
  have hk1 : (1250 : ℚ) * (((2 * q + 625) / 1250 : Nat) : ℚ) ≤ 2 * q + 624 := by exact_mod_cast hk.1
  have hk2 : (2 : ℚ) * q ≤ 1250 * (((2 * q + 625) / 1250 : Nat) : ℚ) + 624 := by exact_mod_cast hk.2
  rw [abs_le] at h
  rw [abs_lt]; constructor <;> linarith

/-- the float fraction of a day computed from a time -/
def fday (w us : Nat) : F64 := add (div (ofInt w) (ofInt 86400)) (div (div (ofInt us) (ofInt 86400)) (ofInt 1000000))

theorem fday_near {w us : Nat} (hw : w < 86400) (hus : us < 1000000) : ∃ x : ℚ, fday w us = ⟨false, x⟩ ∧ 0 ≤ x ∧
    |x - ((w : ℚ) + us / 1000000) / 86400| ≤ 1 / 2 ^ 50 := by
  have hwq : (w : ℚ) < 86400 := by exact_mod_cast hw
  have huq : (us : ℚ) < 1000000 := by exact_mod_cast hus
  have hw0 : (0 : ℚ) ≤ w := by positivity
  have hu0 : (0 : ℚ) ≤ us := by positivity
  refine ⟨_, by
    unfold fday
    rw [ofInt_nat (n := w) (by omega), ofInt_nat (n := us) (by omega), show (86400 : Int) = ((86400 : Nat) : Int) from rfl, ofInt_nat (by norm_num),
      show (1000000 : Int) = ((1000000 : Nat) : Int) from rfl, ofInt_nat (by norm_num), div_pos', div_pos', div_pos', add_pos (rnd_nonneg _) (rnd_nonneg _)],
    rnd_nonneg _, ?_⟩
  have e1 := rnd_near (q := (w : ℚ) / (86400 : Nat)) (by positivity)
  have e2 := rnd_near (q := (us : ℚ) / (86400 : Nat)) (by positivity)
  have p1 := rnd_nonneg ((w : ℚ) / (86400 : Nat))
  have p2 := rnd_nonneg ((us : ℚ) / (86400 : Nat))
  have e3 := rnd_near (q := rnd ((us : ℚ) / (86400 : Nat)) / (1000000 : Nat)) (by positivity)
  have p3 := rnd_nonneg (rnd ((us : ℚ) / (86400 : Nat)) / (1000000 : Nat))
  have e4 := rnd_near (q := rnd ((w : ℚ) / (86400 : Nat)) + rnd (rnd ((us : ℚ) / (86400 : Nat)) / (1000000 : Nat))) (by positivity)
  generalize rnd ((w : ℚ) / (86400 : Nat)) = a at *
  generalize rnd ((us : ℚ) / (86400 : Nat)) = b at *
  generalize rnd (b / (1000000 : Nat)) = c at *
  generalize rnd (a + c) = x at *
  rw [abs_le]; push_cast at *; constructor <;> linarith

/-- 10^(6-n) as the precision -/
theorem prec_digits {n : Nat} (h1 : 1 ≤ n) (h6 : n ≤ 6) :
    ¬ (Num.int (10 ^ (6 - n))).f.val ≤ 0 ∧ ¬ (Num.int (10 ^ (6 - n))).f.val < 1 ∧ 6 - truncLog10 (Num.int (10 ^ (6 - n))).f.val = (n : Int) := by
  interval_cases n <;> decide +kernel

end Verif.Sex
