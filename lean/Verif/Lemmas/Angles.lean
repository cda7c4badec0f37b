import Verif.Lemmas.Numeral
import Verif.Lemmas.Widths
/-
  Exactness of the divisions with remainder that split an angle into hours, minutes and seconds.
-/
namespace Verif.Sex
open Verif Flt

/-- zero, or representable -/
def Repr (x : ℚ) : Prop := x = 0 ∨ Rep x

theorem repr_rnd (q : ℚ) : Repr (rnd q) := by
  rcases le_or_gt q 0 with h | h
  · left; unfold rnd; rw [if_pos h]
  · exact .inr (rep_rnd h)

theorem roundEven_ge {q : ℚ} (hq : 0 ≤ q) {k : Nat} (h : (k : ℚ) ≤ q) : k ≤ roundEven q := by
  have hf : 0 ≤ q.floor := by rw [Rat.floor_def]; exact Int.ediv_nonneg (Rat.num_nonneg.mpr hq) (by omega)
  have h1 : k ≤ q.floor.toNat := by
    have : (k : Int) ≤ q.floor := Int.le_floor.mpr (by exact_mod_cast h)
    omega
  unfold roundEven
  simp only
  split
  · exact h1
  · split
    · omega
    · split <;> omega

theorem floor_exact {x : ℚ} (hx : Rep x) (hb : x < 2 ^ 53) {U : Nat} (hU : 0 < U) {k : Nat} (h1 : (U * k : ℚ) ≤ x) (h2 : x < U * (k + 1)) :
    (k : ℚ) ≤ rnd (x / U) ∧ rnd (x / U) < k + 1 := by
  obtain ⟨m, e, m1, m2, rfl⟩ := hx
  have hUq : (1 : ℚ) ≤ U := by exact_mod_cast hU
  have m1q : (2 ^ 52 : ℚ) ≤ m := by exact_mod_cast m1
  have m2q : (m : ℚ) < 2 ^ 53 := by exact_mod_cast m2
  have hp := two_pos e
  have he : e ≤ 0 := by
    by_contra hc
    have : two 1 ≤ two e := two_mono (by omega)
    have t1 : two 1 = 2 := by rw [two_eq]; norm_num
    rw [t1] at this
    nlinarith
  obtain ⟨n2, rfl⟩ : ∃ n : Nat, e = -(n : Int) := ⟨(-e).toNat, by omega⟩
  have t2 : two (-(n2 : Int)) = 1 / 2 ^ n2 := by rw [two_eq, zpow_neg, zpow_natCast, one_div]
  have hP2 : (0 : ℚ) < 2 ^ n2 := by positivity
  generalize hz : (m * two (-(n2 : Int)) : ℚ) / U = z
  have hz0 : 0 < z := by rw [← hz]; have : (0 : ℚ) < m := by linarith
                         positivity
  have hxz : (m : ℚ) = z * U * 2 ^ n2 := by rw [← hz, t2]; field_simp
  have hzk : (k : ℚ) ≤ z := by rw [← hz, le_div_iff₀ (by linarith)]; linarith
  have hzk2 : z < k + 1 := by rw [← hz, div_lt_iff₀ (by linarith)]; linarith
  have sp := ilog2_spec hz0
  have hlz : ilog2 z ≤ 52 := by
    by_contra hc
    have : two 53 ≤ two (ilog2 z) := two_mono (by omega)
    have t1 : two 53 = 2 ^ 53 := by rw [two_eq]; norm_num
    have hzb : z < 2 ^ 53 := by
      rw [← hz, div_lt_iff₀ (by linarith)]
      nlinarith
    linarith
  unfold rnd
  rw [if_neg (by linarith)]
  simp only
  generalize hw : ilog2 z = w at *
  obtain ⟨n, rfl⟩ : ∃ n : Nat, w = 52 - (n : Int) := ⟨(52 - w).toNat, by omega⟩
  rw [show (52 - (n : Int) - 52) = -(n : Int) by ring]
  have tn : two (-(n : Int)) = 1 / 2 ^ n := by rw [two_eq, zpow_neg, zpow_natCast, one_div]
  have hP : (0 : ℚ) < 2 ^ n := by positivity
  have tw : two (52 - (n : Int)) = 2 ^ 52 / 2 ^ n := by rw [two_eq, zpow_sub₀ (by norm_num), zpow_natCast]; norm_num
  rw [tw] at sp
  rw [tn, show z / (1 / 2 ^ n) = z * 2 ^ n by field_simp]
  have key : (U : ℚ) * 2 ^ n2 < 2 * 2 ^ n := by
    have a1 : 2 ^ 52 / 2 ^ n ≤ z := sp.1
    rw [div_le_iff₀ hP] at a1
    have a2 : z * U * 2 ^ n2 < 2 ^ 53 := hxz ▸ m2q
    by_contra hc
    have : z * (2 * 2 ^ n) ≤ z * (U * 2 ^ n2) := mul_le_mul_of_nonneg_left (not_lt.mp hc) hz0.le
    linarith
  have gap : m + 1 ≤ U * (k + 1) * 2 ^ n2 := by
    have : (m : ℚ) < ((U * (k + 1) * 2 ^ n2 : Nat) : ℚ) := by
      rw [hxz]; push_cast
      have : z * U < (k + 1) * U := mul_lt_mul_of_pos_right hzk2 (by linarith)
      nlinarith
    exact_mod_cast this
  have gapq : (m : ℚ) + 1 ≤ U * (k + 1) * 2 ^ n2 := by exact_mod_cast gap
  constructor
  · have := roundEven_ge (q := z * 2 ^ n) (by positivity) (k := k * 2 ^ n) (by push_cast; nlinarith)
    have : ((k * 2 ^ n : Nat) : ℚ) ≤ roundEven (z * 2 ^ n) := by exact_mod_cast this
    push_cast at this
    rw [mul_one_div, le_div_iff₀ hP]; linarith
  · have e1 := roundEven_err (q := z * 2 ^ n) (by positivity)
    rw [abs_le] at e1
    rw [mul_one_div, div_lt_iff₀ hP]
    -- (k+1) - z ≥ 1 / (U 2^n2) > 1 / (2 2^n)
    have g1 : 1 ≤ (k + 1 - z) * (U * 2 ^ n2) := by rw [hxz] at gapq; linarith
    have g2 : (k + 1 - z) * (U * 2 ^ n2) < (k + 1 - z) * (2 * 2 ^ n) := mul_lt_mul_of_pos_left key (by linarith)
    linarith

/-- the remainder is exact -/
theorem rem_exact {x : ℚ} (hx : Rep x) (hb : x < 2 ^ 53) {N : Nat} (h : (N : ℚ) ≤ x) : Repr (x - N) := by
  obtain ⟨m, e, m1, m2, rfl⟩ := hx
  have m1q : (2 ^ 52 : ℚ) ≤ m := by exact_mod_cast m1
  have hp := two_pos e
  have he : e ≤ 0 := by
    by_contra hc
    have : two 1 ≤ two e := two_mono (by omega)
    have t1 : two 1 = 2 := by rw [two_eq]; norm_num
    rw [t1] at this
    nlinarith
  obtain ⟨n2, rfl⟩ : ∃ n : Nat, e = -(n : Int) := ⟨(-e).toNat, by omega⟩
  have t2 : two (-(n2 : Int)) = 1 / 2 ^ n2 := by rw [two_eq, zpow_neg, zpow_natCast, one_div]
  have hP2 : (0 : ℚ) < 2 ^ n2 := by positivity
  have hle : N * 2 ^ n2 ≤ m := by
    rw [t2, mul_one_div, le_div_iff₀ hP2] at h
    exact_mod_cast h
  have e1 : (m * two (-(n2 : Int)) - N : ℚ) = ((m - N * 2 ^ n2 : Nat) : ℚ) * two (-(n2 : Int)) := by
    rw [t2, Nat.cast_sub hle]; push_cast; field_simp
  rw [e1]
  rcases Nat.eq_zero_or_pos (m - N * 2 ^ n2) with h0 | h0
  · left; rw [h0]; simp
  · exact .inr (.of_dyadic h0 (by omega))

theorem rnd_repr {x : ℚ} (h : Repr x) : rnd x = x := by
  rcases h with rfl | h
  · exact rnd_zero
  · exact rnd_rep h

/-- dividing with remainder by `U`, as the program does it: exactly -/
theorem split_exact {x : ℚ} (hx : Repr x) (h0 : 0 ≤ x) {U : Nat} (hU : 0 < U) (hU2 : U ≤ 3600) (hb : x < 2 ^ 40) :
    ∃ k : Nat, trunc (div ⟨false, x⟩ (ofInt U)) = (k : Int) ∧ sub ⟨false, x⟩ (mul (ofInt k) (ofInt U)) = ⟨false, x - U * k⟩ ∧ Repr (x - U * k) ∧
      0 ≤ x - U * k ∧ x - U * k < U := by
  have hUq : (1 : ℚ) ≤ U := by exact_mod_cast hU
  have iU : ofInt U = ⟨false, U⟩ := ofInt_nat (by omega)
  obtain ⟨k, hk1, hk2⟩ : ∃ k : Nat, (U * k : ℚ) ≤ x ∧ x < U * (k + 1) := by
    refine ⟨⌊x / U⌋₊, ?_, ?_⟩
    · have := Nat.floor_le (a := x / U) (by positivity)
      rw [le_div_iff₀ (by linarith)] at this; linarith
    · have := Nat.lt_floor_add_one (x / U)
      rw [div_lt_iff₀ (by linarith)] at this; linarith
  have hkb : k < 2 ^ 40 := by
    have : (k : ℚ) < 2 ^ 40 := by nlinarith [show (0 : ℚ) ≤ k by positivity]
    exact_mod_cast this
  have hr : Repr (x - U * k) := by
    rcases hx with rfl | hx
    · have : (U * k : ℚ) = 0 := le_antisymm hk1 (by positivity)
      left; rw [this]; simp
    · have := rem_exact hx (by linarith) (N := U * k) (by push_cast; exact hk1)
      push_cast at this; exact this
  have hf : (k : ℚ) ≤ rnd (x / U) ∧ rnd (x / U) < k + 1 := by
    rcases hx with rfl | hx
    · have : (k : ℚ) ≤ 0 := by nlinarith
      rw [zero_div, rnd_zero]; exact ⟨this, by positivity⟩
    · exact floor_exact hx (by linarith) hU hk1 hk2
  refine ⟨k, ?_, ?_, hr, by linarith, by linarith⟩
  · rw [iU, div_pos']; exact trunc_nat hf.1 hf.2
  · have hm : k * U < 2 ^ 53 := by
      have : ((k * U : Nat) : ℚ) < 2 ^ 53 := by push_cast; linarith
      exact_mod_cast this
    rw [iU, ofInt_nat (by omega), mul_pos', rnd_natcast (k := k * U) hm (by push_cast; ring), sub_pos' (by push_cast; linarith)]
    have : x - ((k * U : Nat) : ℚ) = x - U * k := by push_cast; ring
    rw [this, rnd_repr hr]

end Verif.Sex
