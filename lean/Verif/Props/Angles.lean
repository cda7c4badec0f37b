import Verif.Lemmas.AnglesDec
import Verif.Spec.Angles
import Verif.Props.Sexagesimal
/-!
  C42: the right ascension and declination columns written for arbitrary decimal degrees.

  C30 and C31 are about degrees that come from a sexagesimal column.  In an ADES document the degrees are arbitrary decimal
  numerals (`Spec.Numeral`), of any number of digits, and the precision is one of the schema's.  The specification is
  `Spec.Sexagesimal` (the reading, its exact amount and its unit) and `Spec.Angles` (the units; readings with an uncarried 60).
-/
namespace Verif
open Verif.Sex Verif.Flt

theorem parse_unit {u : Spec.Numeral} (hu : u.Valid) {v : ℚ} (hv : 0 < v) (h : u.value = v) : Flt.parse u.text = .ok ⟨false, rnd v⟩ := by
  have h0 := size_nonneg u
  unfold Spec.Numeral.value at h
  split at h
  · linarith
  · rename_i hs
    rw [parse_numeral hu, h]; simp [hs]

theorem seconds_reading {d h m k : Nat} (hd : d ≤ 3) (hh : h ≤ 90) (hk : m < 60 ∧ k ≤ 60 * 10 ^ d ∨ m = 60 ∧ k = 0) (t : Str) :
    ∃ r : Spec.Sexagesimal, t ++ r.text = t ++ (Spec.fixed 2 h ++ [' '] ++ Spec.fixed 2 m ++ [' '] ++ tailText d k) ∧ r.unit = 1 / ((10 ^ d : Nat) : ℚ) ∧
      r.amount = 3600 * (h : ℚ) + 60 * m + k / 10 ^ d ∧ (r.Valid (max d 1) ∨ r.Uncarried (max d 1)) := by
  have hp : 0 < 10 ^ d := by positivity
  have hm : k % 10 ^ d < 10 ^ d := Nat.mod_lt _ hp
  have hs := Nat.div_add_mod k (10 ^ d)
  have hcase : m < 60 ∧ k / 10 ^ d < 60 ∨ (m < 60 ∧ k / 10 ^ d = 60 ∨ m = 60 ∧ k / 10 ^ d = 0) ∧ k % 10 ^ d = 0 := by
    rcases hk with ⟨h1, h2⟩ | ⟨h1, h2⟩
    · rcases h2.eq_or_lt with h3 | h3
      · right; subst h3; exact ⟨.inl ⟨h1, Nat.mul_div_cancel _ hp⟩, Nat.mul_mod_left _ _⟩
      · left; exact ⟨h1, (Nat.div_lt_iff_lt_mul hp).2 h3⟩
    · right; subst h2; exact ⟨.inr ⟨h1, by simp⟩, by simp⟩
  rcases Nat.eq_zero_or_pos d with rfl | hd1
  · refine ⟨.wholeSeconds h m k, ?_, ?_, ?_, ?_⟩
    · rw [tailText_whole]; rfl
    · simp [Spec.Sexagesimal.unit]
    · simp [Spec.Sexagesimal.amount]
    · simp only [pow_zero, Nat.div_one] at hcase
      rcases hcase with ⟨a, b⟩ | ⟨a, -⟩
      · exact .inl ⟨by omega, a, b⟩
      · exact .inr ⟨by omega, a⟩
  · refine ⟨.seconds h m (k / 10 ^ d) d (k % 10 ^ d), ?_, ?_, ?_, ?_⟩
    · conv_rhs => rw [← hs, Nat.mul_comm (10 ^ d)]
      rw [tailText_frac hd1 hm]
      simp [Spec.Sexagesimal.text, List.append_assoc]
    · rfl
    · have := frac_cast (k / 10 ^ d) d (k % 10 ^ d)
      rw [Nat.mul_comm, hs] at this
      rw [this, Spec.Sexagesimal.amount]; push_cast; ring
    · have hmax : max d 1 = d := by omega
      rw [hmax]
      rcases hcase with ⟨a, b⟩ | ⟨a, b⟩
      · exact .inl ⟨by omega, a, b, hd1, le_refl _, hm⟩
      · exact .inr ⟨by omega, a, hd1, le_refl _, b⟩

theorem minutes_reading {d h k : Nat} (hd : d ≤ 2) (hh : h ≤ 90) (hk : k ≤ 60 * 10 ^ d) (t : Str) :
    ∃ r : Spec.Sexagesimal, t ++ r.text = t ++ (Spec.fixed 2 h ++ [' '] ++ tailText d k) ∧ r.unit = 60 / ((10 ^ d : Nat) : ℚ) ∧
      r.amount = 3600 * (h : ℚ) + 60 * (k / 10 ^ d) ∧ (∀ n, r.Valid n ∨ r.Uncarried n) := by
  have hp : 0 < 10 ^ d := by positivity
  have hm : k % 10 ^ d < 10 ^ d := Nat.mod_lt _ hp
  have hs := Nat.div_add_mod k (10 ^ d)
  have hcase : k / 10 ^ d < 60 ∨ k / 10 ^ d = 60 ∧ k % 10 ^ d = 0 := by
    rcases hk.eq_or_lt with h3 | h3
    · right; subst h3; exact ⟨Nat.mul_div_cancel _ hp, Nat.mul_mod_left _ _⟩
    · left; exact (Nat.div_lt_iff_lt_mul hp).2 h3
  rcases Nat.eq_zero_or_pos d with rfl | hd1
  · refine ⟨.wholeMinutes h k, ?_, ?_, ?_, fun n => ?_⟩
    · rw [tailText_whole]; rfl
    · simp [Spec.Sexagesimal.unit]
    · simp [Spec.Sexagesimal.amount]
    · simp only [pow_zero, Nat.div_one] at hcase
      rcases hcase with a | ⟨a, -⟩
      · exact .inl ⟨by omega, a⟩
      · exact .inr ⟨by omega, a⟩
  · refine ⟨.minutes h (k / 10 ^ d) d (k % 10 ^ d), ?_, ?_, ?_, fun n => ?_⟩
    · conv_rhs => rw [← hs, Nat.mul_comm (10 ^ d)]
      rw [tailText_frac hd1 hm]
      simp [Spec.Sexagesimal.text, List.append_assoc]
    · rfl
    · have := frac_cast (k / 10 ^ d) d (k % 10 ^ d)
      rw [Nat.mul_comm, hs] at this
      rw [this, Spec.Sexagesimal.amount]; push_cast; ring
    · rcases hcase with a | ⟨a, b⟩
      · exact .inl ⟨by omega, a, hd1, hd, hm⟩
      · exact .inr ⟨by omega, a, hd1, hd, b⟩

theorem valid_mono {r : Spec.Sexagesimal} {a b : Nat} (hab : a ≤ b) (h : r.Valid a ∨ r.Uncarried a) : r.Valid b ∨ r.Uncarried b := by
  rcases h with h | h
  · left; cases r <;> simp only [Spec.Sexagesimal.Valid] at h ⊢
    · obtain ⟨h1, h2, h3, h4, h5, h6⟩ := h; exact ⟨h1, h2, h3, h4, by omega, h6⟩
    all_goals exact h
  · right; cases r <;> simp only [Spec.Sexagesimal.Uncarried] at h ⊢
    · obtain ⟨h1, h2, h4, h5, h6⟩ := h; exact ⟨h1, h2, h4, by omega, h6⟩
    all_goals exact h

/-- **C42.** For every unsigned numeral of at most 360 degrees and every precision of the schema, the right ascension column is a
    reading whose unit is the precision and whose amount is within half a unit (and 10⁻⁹ seconds) of the exact value.  The last
    field may be 60. -/
theorem C42_ra (n u : Spec.Numeral) (hn : n.Valid) (hs : n.sign ≠ some '-') (hq : n.value ≤ 360) (hu : u.Valid) (hunit : Spec.AngleUnit u.value) :
    ∃ (p : F64) (r : Spec.Sexagesimal), Flt.parse u.text = .ok p ∧ decRaToSexRa n.text (.flt p) = .ok (Spec.column 12 r.text) ∧
      r.unit = u.value ∧ (r.Valid 3 ∨ r.Uncarried 3) ∧ |r.amount - 240 * n.value| ≤ u.value / 2 + 1 / 10 ^ 9 := by
  have hv : n.value = n.size := by simp [Spec.Numeral.value, hs]
  rw [hv] at hq ⊢
  rcases hunit with ⟨d, hd, hd2⟩ | ⟨d, hd, hd2⟩
  · obtain ⟨h, m, k, a1, a2, a3, a4, a5⟩ := ra_sec hn hs hq hd (secPrec hd)
    obtain ⟨r, b1, b2, b3, b4⟩ := seconds_reading hd (by omega : h ≤ 90) (.inl ⟨a2, a3⟩) []
    have hp := parse_unit hu (v := 1 / 10 ^ d) (by positivity) (by rw [hd2]; push_cast; rfl)
    refine ⟨_, r, hp, ?_, by rw [b2, hd2], valid_mono (by omega) b4, ?_⟩
    · rw [a4, column_ljust]; simp only [List.nil_append] at b1; rw [b1]
    · rw [b3, hd2]; push_cast
      rw [show (1 : ℚ) / 10 ^ d / 2 = 1 / 2 / 10 ^ d by ring]; exact a5
  · obtain ⟨h, k, a1, a3, a4, a5⟩ := ra_min hn hs hq (minPrec hd)
    obtain ⟨r, b1, b2, b3, b4⟩ := minutes_reading hd (by omega : h ≤ 90) a3 []
    have hp := parse_unit hu (v := 60 / 10 ^ d) (by positivity) (by rw [hd2]; push_cast; rfl)
    refine ⟨_, r, hp, ?_, by rw [b2, hd2], b4 3, ?_⟩
    · rw [a4, column_ljust]; simp only [List.nil_append] at b1; rw [b1]
    · rw [b3, hd2]; push_cast
      rw [show (60 : ℚ) / 10 ^ d / 2 = 60 * (1 / 2 / 10 ^ d) by ring]; exact a5

theorem fullField_sec (d : Nat) : Spec.fullField (1 / ((10 ^ d : Nat) : ℚ)) = 60 := by
  unfold Spec.fullField
  have hP1 : (1 : ℚ) ≤ ((10 ^ d : Nat) : ℚ) := by exact_mod_cast Nat.one_le_pow _ _ (by norm_num)
  rw [if_neg]
  rintro (h | h)
  · rw [lt_div_iff₀ (by linarith)] at h; linarith
  · rw [div_eq_div_iff (by linarith) (by norm_num)] at h
    have h : 1 * 10 = 6 * 10 ^ d := by exact_mod_cast h
    omega

theorem fullField_min {d : Nat} (hd : d ≤ 2) : Spec.fullField (60 / ((10 ^ d : Nat) : ℚ)) = 3600 := by
  unfold Spec.fullField
  rw [if_pos]
  obtain rfl | rfl | rfl : d = 0 ∨ d = 1 ∨ d = 2 := by omega
  all_goals norm_num

/-- **C42.** For every numeral, of either sign and of at most 90 degrees, the declination column is the sign and such a reading.  With a precision in
    seconds this needs that the value plus half a unit is not within 10⁻⁹ seconds of a whole minute. -/
theorem C42_dec (n u : Spec.Numeral) (hn : n.Valid) (hq : n.size ≤ 90) (hu : u.Valid) (hunit : Spec.AngleUnit u.value)
    (htie : Spec.fullField u.value = 60 → Spec.FarFrom 60 (3600 * n.size + u.value / 2) (1 / 10 ^ 9)) :
    ∃ (p : F64) (r : Spec.Sexagesimal), Flt.parse u.text = .ok p ∧
      degDeclToSexDecl n.text (.flt p) = .ok (Spec.column 12 ((if n.sign = some '-' then '-' else '+') :: r.text)) ∧
      r.unit = u.value ∧ (r.Valid 3 ∨ r.Uncarried 3) ∧ |r.amount - 3600 * n.size| ≤ u.value / 2 + 1 / 10 ^ 9 := by
  rcases hunit with ⟨d, hd, hd2⟩ | ⟨d, hd, hd2⟩
  · have ht := htie (by rw [hd2, fullField_sec])
    obtain ⟨h, m, k, a1, a2, a3, a6, a4, a5⟩ := dec_sec hn hq hd (secPrec hd) (fun j => by
      have := ht j
      rw [hd2] at this
      push_cast at this
      rw [lt_abs, show (1 : ℚ) / 2 / 10 ^ d = 1 / 10 ^ d / 2 by ring]
      rcases this with h | h
      · left; exact h
      · right; linarith)
    obtain ⟨r, b1, b2, b3, b4⟩ := seconds_reading hd a1 (k := k) (m := m) (by
      rcases Nat.lt_or_eq_of_le a2 with h | h
      · exact .inl ⟨h, a3.le⟩
      · exact .inr ⟨h, a6 h⟩) [if n.sign = some '-' then '-' else '+']
    have hp := parse_unit hu (v := 1 / 10 ^ d) (by positivity) (by rw [hd2]; push_cast; rfl)
    refine ⟨_, r, hp, ?_, by rw [b2, hd2], valid_mono (by omega) b4, ?_⟩
    · rw [a4, column_ljust]; simp only [List.append_assoc, List.cons_append, List.nil_append] at b1 ⊢; rw [b1]
    · rw [b3, hd2]; push_cast
      rw [show (1 : ℚ) / 10 ^ d / 2 = 1 / 2 / 10 ^ d by ring]; exact a5
  · obtain ⟨h, k, a1, a3, a4, a5⟩ := dec_min hn hq (minPrec hd)
    obtain ⟨r, b1, b2, b3, b4⟩ := minutes_reading hd a1 a3 [if n.sign = some '-' then '-' else '+']
    have hp := parse_unit hu (v := 60 / 10 ^ d) (by positivity) (by rw [hd2]; push_cast; rfl)
    refine ⟨_, r, hp, ?_, by rw [b2, hd2], b4 3, ?_⟩
    · rw [a4, column_ljust]; simp only [List.append_assoc, List.cons_append, List.nil_append] at b1 ⊢; rw [b1]
    · rw [b3, hd2]; push_cast
      rw [show (60 : ℚ) / 10 ^ d / 2 = 60 * (1 / 2 / 10 ^ d) by ring]; exact a5

theorem unit_pos {u : ℚ} (h : Spec.AngleUnit u) : 0 < u := by
  rcases h with ⟨d, -, rfl⟩ | ⟨d, -, rfl⟩ <;> positivity

/-- an uncarried reading is a whole number of full fields -/
theorem uncarried_amount {r : Spec.Sexagesimal} {n : Nat} (h : r.Uncarried n) : ∃ j : Nat, r.amount = Spec.fullField r.unit * j := by
  cases r with
  | seconds a m s d f =>
    obtain ⟨-, h1, h2, h3, rfl⟩ := h
    refine ⟨60 * a + m + s / 60, ?_⟩
    rw [Spec.Sexagesimal.unit, fullField_sec, Spec.Sexagesimal.amount]
    rcases h1 with ⟨-, rfl⟩ | ⟨-, rfl⟩ <;> (push_cast; ring)
  | wholeSeconds a m s =>
    obtain ⟨-, h1⟩ := h
    refine ⟨60 * a + m + s / 60, ?_⟩
    have := fullField_sec 0
    norm_num at this
    rw [Spec.Sexagesimal.unit, this, Spec.Sexagesimal.amount]
    rcases h1 with ⟨-, rfl⟩ | ⟨-, rfl⟩ <;> (push_cast; ring)
  | minutes a m d f =>
    obtain ⟨-, rfl, h1, h2, rfl⟩ := h
    refine ⟨a + 1, ?_⟩
    rw [Spec.Sexagesimal.unit, fullField_min h2, Spec.Sexagesimal.amount]
    push_cast; ring
  | wholeMinutes a m =>
    obtain ⟨-, rfl⟩ := h
    refine ⟨a + 1, ?_⟩
    have := fullField_min (d := 0) (by norm_num)
    norm_num at this
    rw [Spec.Sexagesimal.unit, this, Spec.Sexagesimal.amount]
    push_cast; ring

/-- readings far from a carry are valid -/
theorem carried {r : Spec.Sexagesimal} {x u : ℚ} (h : r.Valid 3 ∨ r.Uncarried 3) (hu : r.unit = u) (ha : |r.amount - x| ≤ u / 2 + 1 / 10 ^ 9)
    (hfar : Spec.FarFrom (Spec.fullField u) x (u / 2 + 1 / 10 ^ 9)) : r.Valid 3 := by
  rcases h with h | h
  · exact h
  · obtain ⟨j, hj⟩ := uncarried_amount h
    have := hfar j
    rw [hu] at hj
    rw [abs_le, hj] at ha
    rcases this with h | h <;> linarith

theorem ra_close {r : Spec.Sexagesimal} (h : r.Valid 3) : 1 / 2 / 10 ^ r.raDecimals + 1 / 10 ^ 11 + (r.unit / 2 + 1 / 10 ^ 9) / 240 < r.unit / 240 := by
  cases r with
  | seconds a m s d f =>
    obtain ⟨-, -, -, h1, h2, -⟩ := h
    simp only [Spec.Sexagesimal.raDecimals, Spec.Sexagesimal.unit]
    obtain rfl | rfl | rfl : d = 1 ∨ d = 2 ∨ d = 3 := by omega
    all_goals norm_num
  | wholeSeconds a m s => norm_num [Spec.Sexagesimal.raDecimals, Spec.Sexagesimal.unit]
  | minutes a m d f =>
    obtain ⟨-, -, h1, h2, -⟩ := h
    simp only [Spec.Sexagesimal.raDecimals, Spec.Sexagesimal.unit]
    obtain rfl | rfl : d = 1 ∨ d = 2 := by omega
    all_goals norm_num
  | wholeMinutes a m => norm_num [Spec.Sexagesimal.raDecimals, Spec.Sexagesimal.unit]

theorem dec_close {r : Spec.Sexagesimal} (h : r.Valid 3) : 1 / 2 / 10 ^ r.decDecimals + 1 / 10 ^ 11 + (r.unit / 2 + 1 / 10 ^ 9) / 3600 < r.unit / 3600 := by
  cases r with
  | seconds a m s d f =>
    obtain ⟨-, -, -, h1, h2, -⟩ := h
    simp only [Spec.Sexagesimal.decDecimals, Spec.Sexagesimal.unit]
    obtain rfl | rfl | rfl : d = 1 ∨ d = 2 ∨ d = 3 := by omega
    all_goals norm_num
  | wholeSeconds a m s => norm_num [Spec.Sexagesimal.decDecimals, Spec.Sexagesimal.unit]
  | minutes a m d f =>
    obtain ⟨-, -, h1, h2, -⟩ := h
    simp only [Spec.Sexagesimal.decDecimals, Spec.Sexagesimal.unit]
    obtain rfl | rfl : d = 1 ∨ d = 2 := by omega
    all_goals norm_num
  | wholeMinutes a m => norm_num [Spec.Sexagesimal.decDecimals, Spec.Sexagesimal.unit]

/-- **C42.** If the right ascension is not within half a unit of a carry (a whole minute; with a precision in minutes a whole hour), the column that
    is written can be read again, with the same precision, as degrees that differ from the original by less than one unit. -/
theorem C42_ra_reread (n u : Spec.Numeral) (hn : n.Valid) (hs : n.sign ≠ some '-') (hq : n.value ≤ 360) (hu : u.Valid) (hunit : Spec.AngleUnit u.value)
    (hfar : Spec.FarFrom (Spec.fullField u.value) (240 * n.value) (u.value / 2 + 1 / 10 ^ 9)) :
    ∃ (p : F64) (col : Str) (D K : Nat) (q : Num), Flt.parse u.text = .ok p ∧ decRaToSexRa n.text (.flt p) = .ok col ∧
      checkRa col = .ok (Spec.decimal D K, q) ∧ q.f = ofRat u.value ∧ |(K : ℚ) / 10 ^ D - n.value| < u.value / 240 := by
  obtain ⟨p, r, h1, h2, h3, h4, h5⟩ := C42_ra n u hn hs hq hu hunit
  have hr := carried h4 h3 h5 hfar
  obtain ⟨K, k1, k2⟩ := C30_accepted r hr
  refine ⟨p, _, _, K, _, h1, h2, k1, by rw [precision_is_unit hr, h3], ?_⟩
  have hc := ra_close hr
  rw [← h3] at h5 ⊢
  rw [abs_le] at k2 h5
  rw [abs_lt]; constructor <;> linarith

/-- **C42.** The same for declinations, with the sign. -/
theorem C42_dec_reread (n u : Spec.Numeral) (hn : n.Valid) (hq : n.size ≤ 90) (hu : u.Valid) (hunit : Spec.AngleUnit u.value) (h001 : u.value ≠ 1 / 1000)
    (hfar : Spec.FarFrom (Spec.fullField u.value) (3600 * n.size) (u.value / 2 + 1 / 10 ^ 9)) :
    ∃ (p : F64) (col : Str) (D K : Nat) (q : Num), Flt.parse u.text = .ok p ∧ degDeclToSexDecl n.text (.flt p) = .ok col ∧
      checkDec col = .ok (if n.sign = some '-' then '-' :: Spec.decimal D K else Spec.decimal D K, q) ∧ q.f = ofRat u.value ∧
      |(K : ℚ) / 10 ^ D - n.size| < u.value / 3600 := by
  have hpos := unit_pos hunit
  obtain ⟨p, r, h1, h2, h3, h4, h5⟩ := C42_dec n u hn hq hu hunit (fun h j => by
    have := hfar j
    rw [h] at this
    rcases this with h | h
    · left; linarith
    · right; linarith)
  have hr := carried h4 h3 h5 hfar
  have hr2 : r.Valid 2 := by
    cases r with
    | seconds a m s d f =>
      obtain ⟨a1, a2, a3, a4, a5, a6⟩ := hr
      refine ⟨a1, a2, a3, a4, ?_, a6⟩
      rcases Nat.lt_or_eq_of_le a5 with h | h
      · omega
      · subst h
        exact absurd h3.symm (by rw [Spec.Sexagesimal.unit]; push_cast; norm_num; norm_num at h001; exact h001)
    | wholeSeconds a m s => exact hr
    | minutes a m d f => exact hr
    | wholeMinutes a m => exact hr
  obtain ⟨K, k1, k2⟩ := C31_accepted (decide (n.sign = some '-')) r hr2
  simp only [decide_eq_true_eq] at k1
  refine ⟨p, _, _, K, _, h1, h2, k1, by rw [precision_is_unit hr, h3], ?_⟩
  have hc := dec_close hr
  rw [← h3] at h5 ⊢
  rw [abs_le] at k2 h5
  rw [abs_lt]; constructor <;> linarith

/-! ### Instances and what goes wrong -/
namespace SampleAngles
open Verif.Spec

theorem far_of {m x half : ℚ} (a : Nat) (hm : 0 < m) (h1 : half < x - m * a) (h2 : x - m * (a + 1) < -half) : FarFrom m x half := by
  intro j
  rcases Nat.lt_or_ge a j with h | h
  · right
    have : ((a : ℚ) + 1) ≤ j := by exact_mod_cast h
    have := mul_le_mul_of_nonneg_left this hm.le
    linarith
  · left
    have : (j : ℚ) ≤ a := by exact_mod_cast h
    have := mul_le_mul_of_nonneg_left this hm.le
    linarith

/-- 187.70593123456789 degrees -/
def ra : Numeral := ⟨none, c! "187", some (c! "70593123456789")⟩
/-- -0.2999986111 degrees -/
def dec : Numeral := ⟨some '-', c! "0", some (c! "2999986111")⟩
def milli : Numeral := ⟨none, c! "0", some (c! "001")⟩
def centi : Numeral := ⟨none, c! "0", some (c! "01")⟩
def minute : Numeral := ⟨none, c! "60", none⟩

theorem ra_valid : ra.Valid := ⟨by simp [ra], by decide, by intro f hf; cases hf; decide, .inl (by decide)⟩
theorem dec_valid : dec.Valid := ⟨by simp [dec], by decide, by intro f hf; cases hf; decide, .inl (by decide)⟩
theorem milli_valid : milli.Valid := ⟨by simp [milli], by decide, by intro f hf; cases hf; decide, .inl (by decide)⟩
theorem centi_valid : centi.Valid := ⟨by simp [centi], by decide, by intro f hf; cases hf; decide, .inl (by decide)⟩
theorem minute_valid : minute.Valid := ⟨by simp [minute], by decide, by simp [minute], .inl (by decide)⟩
theorem ra_value : ra.value = 187 + 70593123456789 / 10 ^ 14 := by
  have : ra.value = mkRat 18770593123456789 100000000000000 := by decide +kernel
  rw [this, Rat.mkRat_eq_div]; norm_num
theorem dec_size : dec.size = 2999986111 / 10 ^ 10 := by
  have : dec.size = mkRat 2999986111 10000000000 := by decide +kernel
  rw [this, Rat.mkRat_eq_div]; norm_num
theorem milli_value : milli.value = 1 / 1000 := by
  have : milli.value = mkRat 1 1000 := by decide +kernel
  rw [this, Rat.mkRat_eq_div]; norm_num
theorem centi_value : centi.value = 1 / 100 := by
  have : centi.value = mkRat 1 100 := by decide +kernel
  rw [this, Rat.mkRat_eq_div]; norm_num
theorem minute_value : minute.value = 60 := by
  have : minute.value = mkRat 60 1 := by decide +kernel
  rw [this, Rat.mkRat_eq_div]; norm_num
theorem milli_unit : AngleUnit milli.value := .inl ⟨3, by norm_num, by rw [milli_value]; norm_num⟩
theorem centi_unit : AngleUnit centi.value := .inl ⟨2, by norm_num, by rw [centi_value]; norm_num⟩
theorem minute_unit : AngleUnit minute.value := .inr ⟨0, by norm_num, by rw [minute_value]; norm_num⟩

/-- the hypotheses of `C42_ra_reread` are met by 187.70593123456789 with precision 0.001, and with precision 60 -/
example : FarFrom (fullField milli.value) (240 * ra.value) (milli.value / 2 + 1 / 10 ^ 9) ∧ ra.value ≤ 360 := by
  have : fullField milli.value = 60 := by rw [milli_value]; norm_num [fullField]
  rw [this, milli_value, ra_value]
  exact ⟨far_of 750 (by norm_num) (by norm_num) (by norm_num), by norm_num⟩
example : FarFrom (fullField minute.value) (240 * ra.value) (minute.value / 2 + 1 / 10 ^ 9) := by
  have : fullField minute.value = 3600 := by rw [minute_value]; norm_num [fullField]
  rw [this, minute_value, ra_value]
  exact far_of 12 (by norm_num) (by norm_num) (by norm_num)
example : (Flt.parse milli.text >>= fun p => decRaToSexRa ra.text (.flt p)) = .ok (c! "12 30 49.423") := by decide +kernel
example : (Flt.parse minute.text >>= fun p => decRaToSexRa ra.text (.flt p)) = .ok (c! "12 31       ") := by decide +kernel

/-- the hypotheses of `C42_dec` are met by -0.2999986111 with precision 0.01, less than a millionth of a second from a tie -/
example : FarFrom 60 (3600 * dec.size + centi.value / 2) (1 / 10 ^ 9) ∧ dec.size ≤ 90 := by
  rw [centi_value, dec_size]
  exact ⟨far_of 17 (by norm_num) (by norm_num) (by norm_num), by norm_num⟩
example : (Flt.parse centi.text >>= fun p => degDeclToSexDecl dec.text (.flt p)) = .ok (c! "-00 17 59.99") := by decide +kernel
end SampleAngles

/-- Rounding is not carried: the seconds of a right ascension can be 60, and such a column is refused when it is read. -/
theorem C42_sixty_seconds : (∃ p, Flt.parse (c! "0.001") = .ok p ∧ decRaToSexRa (c! "0.2499999") (.flt p) = .ok (c! "00 00 60.000") ∧
      decRaToSexRa (c! "359.9999999") (.flt p) = .ok (c! "23 59 60.000")) ∧ checkRa (c! "00 00 60.000") = raiseRT := by
  refine ⟨⟨_, rfl, ?_⟩, ?_⟩ <;> decide +kernel
/-- and the minutes, with a precision in minutes -/
theorem C42_sixty_minutes : (∃ p, Flt.parse (c! "0.6") = .ok p ∧ decRaToSexRa (c! "359.9999999") (.flt p) = .ok (c! "23 60.00    ")) ∧
    checkRa (c! "23 60.00    ") = raiseRT := by
  refine ⟨⟨_, rfl, ?_⟩, ?_⟩ <;> decide +kernel
/-- In declinations the seconds are carried, the minutes are not. -/
theorem C42_dec_sixty : (∃ p, Flt.parse (c! "0.01") = .ok p ∧ degDeclToSexDecl (c! "12.9999999") (.flt p) = .ok (c! "+12 60 00.00") ∧
      degDeclToSexDecl (c! "-12.0166666") (.flt p) = .ok (c! "-12 01 00.00")) ∧ checkDec (c! "+12 60 00.00") = raiseRT := by
  refine ⟨⟨_, rfl, ?_⟩, ?_⟩ <;> decide +kernel
/-- Within 10⁻⁹ seconds of a tie the declination column can be anything: a field of one digit, or seconds of 60. -/
theorem C42_dec_tie : (∃ p, Flt.parse (c! "0.01") = .ok p ∧ degDeclToSexDecl (c! "0.2999986111111111111") (.flt p) = .ok (c! "+00 18 9.99 ") ∧
      degDeclToSexDecl (c! "0.016665277777777777") (.flt p) = .ok (c! "+00 00 60.00")) := by
  refine ⟨_, rfl, ?_⟩; decide +kernel

end Verif
