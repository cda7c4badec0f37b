import Verif.Float
import Mathlib.Tactic.Linarith
import Mathlib.Tactic.Positivity
import Mathlib.Tactic.FieldSimp
import Mathlib.Tactic.Ring
import Mathlib.Tactic.NormNum
import Mathlib.Data.Rat.Floor
import Mathlib.Algebra.Order.Field.Power
/-
  Verif.Lemmas.Float : error bounds for rounding to 53 bits.
-/
namespace Verif.Flt
open Verif

theorem two_eq (e : Int) : two e = (2 : ℚ) ^ e := by
  unfold two
  split
  · rename_i h
    conv => rhs; rw [← Int.toNat_of_nonneg h, zpow_natCast]
    push_cast; rfl
  · rename_i h
    have : e = -((-e).toNat : Int) := by omega
    conv => rhs; rw [this, zpow_neg, zpow_natCast]
    rw [Rat.mkRat_eq_div]; push_cast; ring

theorem two_pos (e : Int) : 0 < two e := by rw [two_eq]; positivity

theorem two_add (a b : Int) : two (a + b) = two a * two b := by
  simp only [two_eq]; exact zpow_add₀ (by norm_num) _ _

theorem two_succ (e : Int) : two (e + 1) = 2 * two e := by
  rw [two_add, mul_comm]; congr 1

theorem two_mono {a b : Int} (h : a ≤ b) : two a ≤ two b := by
  simp only [two_eq]; exact zpow_le_zpow_right₀ (by norm_num) h

theorem two_lt {a b : Int} (h : two a < two b) : a < b := by
  by_contra hc
  exact absurd h (not_lt.mpr (two_mono (by omega)))

theorem two_nat (n : Nat) : two (n : Int) = (2 ^ n : Nat) := by
  rw [two_eq, zpow_natCast]; push_cast; rfl

theorem ilog2_spec {q : ℚ} (hq : 0 < q) : two (ilog2 q) ≤ q ∧ q < two (ilog2 q + 1) := by
  have hn : 0 < q.num := Rat.num_pos.mpr hq
  have hd : 0 < q.den := q.den_pos
  have hnz : q.num.natAbs ≠ 0 := by omega
  have hqe : q = (q.num.natAbs : ℚ) / q.den := by
    conv => lhs; rw [← Rat.num_div_den q]
    congr 1
    have : (q.num : ℚ) = ((q.num.natAbs : Int) : ℚ) := by rw [Int.natAbs_of_nonneg hn.le]
    exact this.trans (Int.cast_natCast _)
  generalize hN : q.num.natAbs = N at *
  generalize hD : q.den = D at *
  have a1 : ((2 ^ Nat.log2 N : Nat) : ℚ) ≤ N := by exact_mod_cast Nat.log2_self_le hnz
  have a2 : (N : ℚ) < ((2 ^ (Nat.log2 N + 1) : Nat) : ℚ) := by exact_mod_cast Nat.lt_log2_self
  have b1 : ((2 ^ Nat.log2 D : Nat) : ℚ) ≤ D := by exact_mod_cast Nat.log2_self_le (by omega)
  have b2 : (D : ℚ) < ((2 ^ (Nat.log2 D + 1) : Nat) : ℚ) := by exact_mod_cast Nat.lt_log2_self
  rw [← two_nat] at a1 a2 b1 b2
  have hDq : (0 : ℚ) < D := by exact_mod_cast hd
  set e : Int := (Nat.log2 N : Int) - Nat.log2 D with he
  have u1 : q < two (e + 1) := by
    rw [hqe, div_lt_iff₀ hDq]
    have : two (e + 1) * two (Nat.log2 D : Int) = two ((Nat.log2 N + 1 : Nat) : Int) := by
      rw [← two_add]; congr 1; push_cast; omega
    calc (N : ℚ) < _ := a2
      _ = _ := this.symm
      _ ≤ _ := by exact mul_le_mul_of_nonneg_left b1 (two_pos _).le
  have u2 : two (e - 1) < q := by
    rw [hqe, lt_div_iff₀ hDq]
    have : two (e - 1) * two ((Nat.log2 D + 1 : Nat) : Int) = two (Nat.log2 N : Int) := by
      rw [← two_add]; congr 1; push_cast; omega
    calc two (e - 1) * D < two (e - 1) * two ((Nat.log2 D + 1 : Nat) : Int) := by exact mul_lt_mul_of_pos_left b2 (two_pos _)
      _ = _ := this
      _ ≤ _ := a1
  unfold ilog2
  rw [hN, hD]
  show two (if q < two e then e - 1 else e) ≤ q ∧ q < two ((if q < two e then e - 1 else e) + 1)
  split
  · refine ⟨u2.le, ?_⟩
    rw [Int.sub_add_cancel]; assumption
  · exact ⟨by linarith, u1⟩

theorem roundEven_err {q : ℚ} (hq : 0 ≤ q) : |(roundEven q : ℚ) - q| ≤ 1 / 2 := by
  have hf : 0 ≤ q.floor := by rw [Rat.floor_def]; exact Int.ediv_nonneg (Rat.num_nonneg.mpr hq) (by omega)
  have h1 : (q.floor.toNat : ℚ) ≤ q := by
    have := Int.floor_le q
    have e : ((q.floor.toNat : Int) : ℚ) = q.floor := by rw [Int.toNat_of_nonneg hf]
    have e2 : (q.floor.toNat : ℚ) = q.floor := by exact_mod_cast e
    rw [e2]; exact this
  have h2 : q < (q.floor.toNat : ℚ) + 1 := by
    have := Int.lt_floor_add_one q
    have e : ((q.floor.toNat : Int) : ℚ) = q.floor := by rw [Int.toNat_of_nonneg hf]
    have e2 : (q.floor.toNat : ℚ) = q.floor := by exact_mod_cast e
    rw [e2]; exact this
  have hm : mkRat 1 2 = (1 / 2 : ℚ) := by rw [Rat.mkRat_eq_div]; norm_num
  unfold roundEven
  simp only [hm]
  generalize q.floor.toNat = f at *
  rw [abs_le]
  split
  · constructor <;> linarith
  · split
    · push_cast; constructor <;> linarith
    · split <;> push_cast <;> constructor <;> linarith

theorem roundEven_eq {q : ℚ} {k : Nat} (hq : 0 ≤ q) (h : |q - k| < 1 / 2) : roundEven q = k := by
  have e := roundEven_err hq
  rw [abs_le] at e; rw [abs_lt] at h
  have l1 : (roundEven q : ℚ) < k + 1 := by linarith
  have l2 : (k : ℚ) < roundEven q + 1 := by linarith
  have l1' : roundEven q < k + 1 := by exact_mod_cast l1
  have l2' : k < roundEven q + 1 := by exact_mod_cast l2
  omega

theorem rnd_nonneg (q : ℚ) : 0 ≤ rnd q := by
  unfold rnd
  split
  · exact le_refl _
  · exact mul_nonneg (by exact_mod_cast Nat.zero_le _) (two_pos _).le

@[simp] theorem rnd_zero : rnd 0 = 0 := by simp [rnd]

/-- relative error -/
theorem rnd_err {q : ℚ} (hq : 0 ≤ q) : |rnd q - q| ≤ q / 2 ^ 53 := by
  rcases hq.eq_or_lt with h | h
  · subst h; simp
  · unfold rnd
    rw [if_neg (by linarith)]
    simp only
    set e := ilog2 q - 52 with he
    have hp := two_pos e
    have r := roundEven_err (q := q / two e) (by positivity)
    have h1 := (ilog2_spec h).1
    have : two (ilog2 q) = two e * 2 ^ 52 := by
      rw [show ilog2 q = e + (52 : Nat) from by omega, two_add, two_nat]; norm_num
    rw [this] at h1
    have e1 : (roundEven (q / two e) : ℚ) * two e - q = ((roundEven (q / two e) : ℚ) - q / two e) * two e := by
      field_simp
    rw [e1, abs_mul, abs_of_pos hp]
    calc _ ≤ 1 / 2 * two e := mul_le_mul_of_nonneg_right r hp.le
      _ ≤ q / 2 ^ 53 := by linarith

/-- a number with a 53 bit significand -/
def Rep (y : ℚ) : Prop := ∃ (m : Nat) (e : Int), 2 ^ 52 ≤ m ∧ m < 2 ^ 53 ∧ y = m * two e

theorem Rep.of_dyadic {k : Nat} {e : Int} (h0 : 0 < k) (h : k < 2 ^ 53) : Rep (k * two e) := by
  have hl : Nat.log2 k < 53 := (Nat.log2_lt (by omega)).mpr h
  refine ⟨k * 2 ^ (52 - Nat.log2 k), e - (52 - Nat.log2 k : Nat), ?_, ?_, ?_⟩
  · calc 2 ^ 52 = 2 ^ Nat.log2 k * 2 ^ (52 - Nat.log2 k) := by rw [← Nat.pow_add]; congr 1; omega
      _ ≤ _ := Nat.mul_le_mul_right _ (Nat.log2_self_le (by omega))
  · calc _ < 2 ^ (Nat.log2 k + 1) * 2 ^ (52 - Nat.log2 k) := Nat.mul_lt_mul_of_pos_right Nat.lt_log2_self (by positivity)
      _ = 2 ^ 53 := by rw [← Nat.pow_add]; congr 1; omega
  · push_cast
    rw [mul_assoc]
    congr 1
    have : ((2 : ℚ) ^ (52 - Nat.log2 k)) = two ((52 - Nat.log2 k : Nat) : Int) := by rw [two_nat]; push_cast; rfl
    rw [this, ← two_add]; congr 1; omega

theorem Rep.of_nat {k : Nat} (h0 : 0 < k) (h : k < 2 ^ 53) : Rep k := by
  have := Rep.of_dyadic (e := 0) h0 h
  simpa [two_eq] using this

/-- a result close enough to a representable number is that number -/
theorem rnd_snap {q y : ℚ} (hy : Rep y) (h : |q - y| ≤ y / 2 ^ 55) : rnd q = y := by
  obtain ⟨m, e0, h1, h2, rfl⟩ := hy
  have hp := two_pos e0
  have h1q : (2 ^ 52 : ℚ) ≤ m := by exact_mod_cast h1
  have h2q : (m : ℚ) + 1 ≤ 2 ^ 53 := by exact_mod_cast h2
  rw [abs_le] at h
  have hym : (m : ℚ) * two e0 ≤ 2 ^ 53 * two e0 := mul_le_mul_of_nonneg_right (by linarith) hp.le
  have hyl : (2 ^ 52 : ℚ) * two e0 ≤ m * two e0 := mul_le_mul_of_nonneg_right h1q hp.le
  have hq : 0 < q := by linarith
  have sp := ilog2_spec hq
  unfold rnd
  rw [if_neg (by linarith)]
  simp only
  set e := ilog2 q - 52 with he
  have hpe := two_pos e
  have s1 : two (ilog2 q) = two e * 2 ^ 52 := by
    rw [show ilog2 q = e + (52 : Nat) from by omega, two_add, two_nat]; norm_num
  rw [two_succ, s1] at sp
  have hle : e ≤ e0 := by
    by_contra hc
    have : two (e0 + 1) ≤ two e := two_mono (by omega)
    rw [two_succ] at this
    have : (m : ℚ) * two e0 + two e0 ≤ 2 ^ 53 * two e0 := by
      have := mul_le_mul_of_nonneg_right h2q hp.le
      linarith
    linarith
  obtain ⟨j, hj⟩ : ∃ j : Nat, e0 = e + j := ⟨(e0 - e).toNat, by omega⟩
  have hk : (m : ℚ) * two e0 / two e = ((m * 2 ^ j : Nat) : ℚ) := by
    rw [hj, two_add, two_nat]; push_cast; field_simp
  have hr : roundEven (q / two e) = m * 2 ^ j := by
    apply roundEven_eq (by positivity)
    rw [← hk, ← sub_div, abs_lt, lt_div_iff₀ hpe, div_lt_iff₀ hpe]
    constructor <;> linarith
  rw [hr, ← hk]; field_simp

theorem rnd_rep {y : ℚ} (h : Rep y) : rnd y = y := rnd_snap h (by
  obtain ⟨m, e, h1, _, rfl⟩ := h
  have := two_pos e
  simp; positivity)

theorem rnd_nat {k : Nat} (h : k < 2 ^ 53) : rnd k = k := by
  rcases Nat.eq_zero_or_pos k with rfl | h0
  · simp
  · exact rnd_rep (.of_nat h0 h)

theorem rep_rnd {q : ℚ} (hq : 0 < q) : Rep (rnd q) := by
  have sp := ilog2_spec hq
  unfold rnd
  rw [if_neg (by linarith)]
  simp only
  set e := ilog2 q - 52 with he
  have hpe := two_pos e
  have s1 : two (ilog2 q) = two e * 2 ^ 52 := by
    rw [show ilog2 q = e + (52 : Nat) from by omega, two_add, two_nat]; norm_num
  rw [two_succ, s1] at sp
  have r := roundEven_err (q := q / two e) (by positivity)
  have l1 : (2 : ℚ) ^ 52 ≤ q / two e := by rw [le_div_iff₀ hpe]; linarith
  have l2 : q / two e < (2 : ℚ) ^ 53 := by rw [div_lt_iff₀ hpe]; linarith
  rw [abs_le] at r
  generalize hk : roundEven (q / two e) = k at *
  have k1 : (2 ^ 52 : ℚ) < k + 1 := by linarith
  have k2 : (k : ℚ) < 2 ^ 53 + 1 := by linarith
  have k1' : 2 ^ 52 < k + 1 := by exact_mod_cast k1
  have k2' : k < 2 ^ 53 + 1 := by exact_mod_cast k2
  rcases Nat.lt_or_ge k (2 ^ 53) with h | h
  · exact ⟨k, e, by omega, h, rfl⟩
  · have : k = 2 ^ 53 := by omega
    subst this
    refine ⟨2 ^ 52, e + 1, le_refl _, by norm_num, ?_⟩
    rw [two_succ]; push_cast; ring

theorem rnd_rnd (q : ℚ) : rnd (rnd q) = rnd q := by
  rcases le_or_gt q 0 with h | h
  · have : rnd q = 0 := by unfold rnd; rw [if_pos h]
    rw [this, rnd_zero]
  · exact rnd_rep (rep_rnd h)

end Verif.Flt
