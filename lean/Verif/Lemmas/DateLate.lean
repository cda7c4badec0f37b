import Verif.Lemmas.DateRun
import Mathlib.Tactic.LinearCombination
/-
  Verif.Lemmas.DateLate : the fractions of a day for which the float product with 86400 falls below the exact whole number of seconds.
-/
namespace Verif
open Sex Flt

theorem sig_unlucky : (List.range 1600).all (fun j => decide (rnd (rnd (mkRat j 1600) * 86400) < 54 * j) == Spec.unlucky.contains j) = true := by
  decide +kernel

/-- which dates are computed from below -/
theorem late_iff {n f : Nat} (hn : n ≤ 6) (hf : f < 10 ^ n) :
    (f * 10 ^ (6 - n) * 54 % 625 = 0 ∧ sig n f < ((f * 10 ^ (6 - n) * 54 / 625 : Nat) : ℚ)) ↔ ∃ j ∈ Spec.unlucky, f * 1600 = j * 10 ^ n := by
  have hp : 10 ^ n * 10 ^ (6 - n) = 1000000 := by rw [← pow_add]; norm_num [show n + (6 - n) = 6 by omega]
  have hpq : (10 : ℚ) ^ n * 10 ^ (6 - n) = 1000000 := by exact_mod_cast hp
  have h0 : 0 < 10 ^ (6 - n) := by positivity
  have hl : f * 10 ^ (6 - n) < 1000000 := by rw [← hp]; exact Nat.mul_lt_mul_of_pos_right hf h0
  have hsig : ∀ j, f * 10 ^ (6 - n) = 625 * j → sig n f = rnd (rnd (mkRat j 1600) * 86400) ∧ f * 10 ^ (6 - n) * 54 / 625 = 54 * j ∧ j < 1600 ∧
      f * 1600 = j * 10 ^ n := by
    intro j hj
    have hjq : (f : ℚ) * 10 ^ (6 - n) = 625 * j := by exact_mod_cast hj
    refine ⟨?_, by omega, by omega, ?_⟩
    · unfold sig
      rw [Rat.mkRat_eq_div]
      congr 3
      have h1 : (10 : ℚ) ^ n ≠ 0 := by positivity
      push_cast
      rw [div_eq_div_iff h1 (by norm_num)]
      have h2 : (10 : ℚ) ^ (6 - n) ≠ 0 := by positivity
      apply mul_right_cancel₀ h2
      linear_combination 1600 * hjq - (j : ℚ) * hpq
    · apply Nat.eq_of_mul_eq_mul_right h0
      calc f * 1600 * 10 ^ (6 - n) = f * 10 ^ (6 - n) * 1600 := by ring
        _ = j * (10 ^ n * 10 ^ (6 - n)) := by rw [hj, hp]; ring
        _ = _ := by ring
  have hall := fun j hj => List.all_eq_true.1 sig_unlucky j (List.mem_range.2 hj)
  constructor
  · rintro ⟨h1, h2⟩
    have hj : f * 10 ^ (6 - n) = 625 * (f * 10 ^ (6 - n) / 625) := by omega
    generalize f * 10 ^ (6 - n) / 625 = j at hj
    obtain ⟨e1, e2, e3, e4⟩ := hsig _ hj
    refine ⟨_, ?_, e4⟩
    have := hall _ e3
    rw [e1, e2] at h2
    rw [show ((54 * j : Nat) : ℚ) = 54 * (j : ℚ) by push_cast; rfl] at h2
    rw [decide_eq_true h2] at this
    simpa using this
  · rintro ⟨j, hj, e⟩
    have hj' : f * 10 ^ (6 - n) = 625 * j := by
      have : f * 10 ^ (6 - n) * 1600 = 625 * j * 1600 := by
        calc f * 10 ^ (6 - n) * 1600 = f * 1600 * 10 ^ (6 - n) := by ring
          _ = j * (10 ^ n * 10 ^ (6 - n)) := by rw [e]; ring
          _ = _ := by rw [hp]; ring
      omega
    obtain ⟨e1, e2, e3, e4⟩ := hsig _ hj'
    refine ⟨by omega, ?_⟩
    have := hall _ e3
    rw [e1, e2]
    push_cast
    have hc : Spec.unlucky.contains j = true := by simpa using hj
    rw [hc] at this
    simpa using this

theorem not_late {n f : Nat} (hn : n ≤ 6) (hf : f < 10 ^ n) (h : ¬ ∃ j ∈ Spec.unlucky, f * 1600 = j * 10 ^ n) :
    ((f * 10 ^ (6 - n) * 54 / 625 : Nat) : ℚ) ≤ sig n f := by
  by_contra hc
  rw [not_le] at hc
  apply h
  rw [← late_iff hn hf]
  refine ⟨?_, hc⟩
  by_contra hr
  have hq := units_lt hn hf
  have hs := sig_near n f
  rw [units hn] at hs
  generalize f * 10 ^ (6 - n) * 54 = q at *
  rw [abs_le] at hs
  have hqq : (q : ℚ) < 54000000 := by exact_mod_cast hq
  have hdm : 625 * ((q / 625 : Nat) : ℚ) + 1 ≤ q := by
    have : 625 * (q / 625) + 1 ≤ q := by omega
    exact_mod_cast this
  linarith

end Verif
