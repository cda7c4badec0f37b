import Verif.Lemmas.Checked80Numbers
import Verif.Lemmas.DateRead
/-!
  Lemmas.Checked80Bounds : times, and angles after rounding.
-/
namespace Verif.Checked
open Verif.Xml Verif.Spec Verif.Check Verif.Xsd Verif.Fields Verif.Submission Verif.PackUtil Verif.Mpc80
open Verif.Spec.Mpc80 (leafOf nodeOf val Optical RefCols)

/-! ### times -/

theorem iso_ascii {y m d w : Nat} {t : Str} (ht : AsciiText t) : AsciiText (isoTime y m d w t) := by
  have dg : ∀ c ∈ c! "0123456789", c.toNat < 128 := by decide
  have fx : ∀ k n, ∀ c ∈ fixed k n, c.toNat < 128 := fun k n c hc => dg c (fixed_mem k n c hc)
  intro c hc
  simp only [isoTime, List.mem_append, List.mem_singleton] at hc
  rcases hc with ((((((((((h | h) | h) | h) | h) | h) | h) | h) | h) | h) | h) | h
  · exact dg c (dec_mem y c h)
  all_goals first | exact fx _ _ c h | (subst h; decide) | exact ht c h

theorem iso_field {y m d w : Nat} {f : Str} (hy : 1600 ≤ y) (hy' : y ≤ 9999) (hm : 1 ≤ m) (hm' : m ≤ 12) (hd : 1 ≤ d) (hd' : d ≤ monthDays y m) (hw : w < 86400)
    (hf : f = [] ∨ ∃ ds, 1 ≤ ds.length ∧ ds.length ≤ 6 ∧ (∀ c ∈ ds, c ∈ c! "0123456789") ∧ f = '.' :: ds) : Field (c! "obsTime") (isoTime y m d w (f ++ ['Z'])) := by
  have ha : AsciiText (f ++ ['Z']) := by
    have dg : ∀ c ∈ c! "0123456789", c.toNat < 128 := by decide
    intro c hc
    rcases List.mem_append.1 hc with hc | hc
    · rcases hf with rfl | ⟨ds, -, -, h, rfl⟩
      · simp at hc
      · rcases List.mem_cons.1 hc with rfl | hc
        · decide
        · exact dg c (h c hc)
    · simp at hc; subst hc; decide
  refine (C49_time (.inr rfl) (iso_ascii ha)).2 (.inl ?_)
  rw [trim_of_strip (ToMpc80.nospace_strip ?_)]
  · refine ⟨y, m, d, w / 3600, w / 60 % 60, w % 60, f, by omega, hy', hm, hm', hd, hd', hf, .inl ⟨by omega, by omega, by omega⟩, ?_⟩
    rw [isoTime, Submit80.dec_fixed (by omega) hy']
    simp
  · have dg : ∀ c ∈ c! "0123456789", isSpace c = false := by decide
    intro c hc
    simp only [isoTime, List.mem_append, List.mem_singleton] at hc
    rcases hc with ((((((((((h | h) | h) | h) | h) | h) | h) | h) | h) | h) | h) | h | h
    · exact dg c (dec_mem y c h)
    all_goals first | exact dg c (fixed_mem _ _ c h) | (subst h; decide) | skip
    rcases hf with rfl | ⟨ds, -, -, h', rfl⟩
    · simp at h
    · rcases List.mem_cons.1 h with rfl | h
      · decide
      · exact dg c (h' c h)

/-! ### angles -/

/-- readings are whole multiples of their unit -/
theorem multiple {n : Nat} (s : Sexagesimal) (h : s.Valid n) : ∃ N K : Nat, s.amount = (N : Rat) * s.unit ∧ (60 : Rat) = (K : Rat) * s.unit ∧ 0 < s.unit := by
  cases s with
  | seconds a b c d f =>
    have hp : (0 : Rat) < ((10 ^ d : Nat) : Rat) := by exact_mod_cast Nat.pow_pos (by decide)
    refine ⟨(3600 * a + 60 * b + c) * 10 ^ d + f, 60 * 10 ^ d, ?_, ?_, ?_⟩
    · simp only [Sexagesimal.amount, Sexagesimal.unit]; push_cast; field_simp
    · simp only [Sexagesimal.unit]; push_cast; field_simp
    · simp only [Sexagesimal.unit]; positivity
  | wholeSeconds a b c =>
    refine ⟨3600 * a + 60 * b + c, 60, ?_, ?_, ?_⟩ <;> simp [Sexagesimal.amount, Sexagesimal.unit]
  | minutes a b d f =>
    have hp : (0 : Rat) < ((10 ^ d : Nat) : Rat) := by exact_mod_cast Nat.pow_pos (by decide)
    refine ⟨(60 * a + b) * 10 ^ d + f, 10 ^ d, ?_, ?_, ?_⟩
    · simp only [Sexagesimal.amount, Sexagesimal.unit]; push_cast; field_simp; ring
    · simp only [Sexagesimal.unit]; push_cast; field_simp
    · simp only [Sexagesimal.unit]; positivity
  | wholeMinutes a b =>
    refine ⟨60 * a + b, 1, ?_, ?_, ?_⟩ <;> simp [Sexagesimal.amount, Sexagesimal.unit]
    ring

theorem amount_lt {n : Nat} {s : Sexagesimal} (h : s.Valid n) {m : Nat} (hlt : s.amount < 60 * (m : Rat)) : s.amount + s.unit ≤ 60 * (m : Rat) := by
  obtain ⟨N, K, h1, h2, h3⟩ := multiple s h
  rw [h1, h2] at hlt ⊢
  have : (N : Rat) < (K * m : Nat) := by push_cast; nlinarith
  have : N + 1 ≤ K * m := by exact_mod_cast this
  have : (N : Rat) + 1 ≤ (K : Rat) * m := by exact_mod_cast this
  nlinarith

theorem amount_gt {n : Nat} {s : Sexagesimal} (h : s.Valid n) {m : Nat} (hlt : 60 * (m : Rat) < s.amount) : 60 * (m : Rat) + s.unit ≤ s.amount := by
  obtain ⟨N, K, h1, h2, h3⟩ := multiple s h
  rw [h1, h2] at hlt ⊢
  have : ((K * m : Nat) : Rat) < N := by push_cast; nlinarith
  have : K * m + 1 ≤ N := by exact_mod_cast this
  have : (K : Rat) * m + 1 ≤ (N : Rat) := by exact_mod_cast this
  nlinarith

theorem unit_ra {s : Sexagesimal} (h : s.Valid 3) : 600 ≤ s.unit * ((10 ^ s.raDecimals : Nat) : Rat) ∧ 1 ≤ s.raDecimals ∧ s.raDecimals ≤ 6 := by
  cases s with
  | seconds a b c d f =>
    have hp : (0 : Rat) < ((10 ^ d : Nat) : Rat) := by exact_mod_cast Nat.pow_pos (by decide)
    obtain ⟨-, -, -, h1, h2, -⟩ := h
    refine ⟨?_, by simp [Sexagesimal.raDecimals], by simp [Sexagesimal.raDecimals]; omega⟩
    simp only [Sexagesimal.unit, Sexagesimal.raDecimals, Nat.pow_add]
    push_cast; field_simp; norm_num
  | wholeSeconds a b c => refine ⟨?_, by simp [Sexagesimal.raDecimals], by simp [Sexagesimal.raDecimals]⟩; norm_num [Sexagesimal.unit, Sexagesimal.raDecimals]
  | minutes a b d f =>
    have hp : (0 : Rat) < ((10 ^ d : Nat) : Rat) := by exact_mod_cast Nat.pow_pos (by decide)
    obtain ⟨-, -, h1, h2, -⟩ := h
    refine ⟨?_, by simp [Sexagesimal.raDecimals], by simp [Sexagesimal.raDecimals]; omega⟩
    simp only [Sexagesimal.unit, Sexagesimal.raDecimals, Nat.pow_add]
    push_cast; field_simp; norm_num
  | wholeMinutes a b => refine ⟨?_, by simp [Sexagesimal.raDecimals], by simp [Sexagesimal.raDecimals]⟩; norm_num [Sexagesimal.unit, Sexagesimal.raDecimals]

theorem unit_dec {s : Sexagesimal} (h : s.Valid 2) : 6000 ≤ s.unit * ((10 ^ s.decDecimals : Nat) : Rat) ∧ 1 ≤ s.decDecimals ∧ s.decDecimals ≤ 6 := by
  cases s with
  | seconds a b c d f =>
    have hp : (0 : Rat) < ((10 ^ d : Nat) : Rat) := by exact_mod_cast Nat.pow_pos (by decide)
    obtain ⟨-, -, -, h1, h2, -⟩ := h
    refine ⟨?_, by simp [Sexagesimal.decDecimals], by simp [Sexagesimal.decDecimals]; omega⟩
    simp only [Sexagesimal.unit, Sexagesimal.decDecimals, Nat.pow_add]
    push_cast; field_simp; norm_num
  | wholeSeconds a b c => refine ⟨?_, by simp [Sexagesimal.decDecimals], by simp [Sexagesimal.decDecimals]⟩; norm_num [Sexagesimal.unit, Sexagesimal.decDecimals]
  | minutes a b d f =>
    have hp : (0 : Rat) < ((10 ^ d : Nat) : Rat) := by exact_mod_cast Nat.pow_pos (by decide)
    obtain ⟨-, -, h1, h2, -⟩ := h
    refine ⟨?_, by simp [Sexagesimal.decDecimals], by simp [Sexagesimal.decDecimals]; omega⟩
    simp only [Sexagesimal.unit, Sexagesimal.decDecimals, Nat.pow_add]
    push_cast; field_simp; norm_num
  | wholeMinutes a b => refine ⟨?_, by simp [Sexagesimal.decDecimals], by simp [Sexagesimal.decDecimals]⟩; norm_num [Sexagesimal.unit, Sexagesimal.decDecimals]

theorem pow6 {n : Nat} (h : n ≤ 6) : (0 : Rat) < ((10 ^ n : Nat) : Rat) ∧ ((10 ^ n : Nat) : Rat) ≤ 1000000 := by
  have : 10 ^ n ≤ 10 ^ 6 := Nat.pow_le_pow_right (by decide) h
  exact ⟨by exact_mod_cast Nat.pow_pos (by decide), by exact_mod_cast this⟩

/-- right ascensions reach 360 degrees after rounding only if they did before -/
theorem ra_bound {o : Optical} (h : o.ra.Valid 3) {k : Nat}
    (h1 : (k : Rat) / ((10 ^ o.ra.raDecimals : Nat) : Rat) - o.ra.amount * 15 / 3600 ≤ (1 : Rat) / 2 / ((10 ^ o.ra.raDecimals : Nat) : Rat) + (1 : Rat) / ((10 ^ 11 : Nat) : Rat))
    (h2 : -((k : Rat) / ((10 ^ o.ra.raDecimals : Nat) : Rat) - o.ra.amount * 15 / 3600) ≤ (1 : Rat) / 2 / ((10 ^ o.ra.raDecimals : Nat) : Rat) + (1 : Rat) / ((10 ^ 11 : Nat) : Rat)) :
    k < 360 * 10 ^ o.ra.raDecimals ↔ o.ra.amount < 24 * 3600 := by
  obtain ⟨u, -, n6⟩ := unit_ra h
  obtain ⟨p0, p6⟩ := pow6 n6
  generalize hA : o.ra.amount = A at *
  have hlt := fun q => amount_lt h (m := 1440) (by rw [hA]; exact q)
  rw [hA] at hlt
  generalize o.ra.unit = U at *
  generalize hP : (10 ^ o.ra.raDecimals : Nat) = P at *
  have e11 : ((10 ^ 11 : Nat) : Rat) = 100000000000 := by norm_num
  rw [e11] at h1 h2
  have k1 : (k : Rat) ≤ A * (P : Rat) / 240 + 1 / 2 + (P : Rat) / 100000000000 := by
    have := mul_le_mul_of_nonneg_right h1 p0.le
    field_simp at this
    linarith
  have k2 : A * (P : Rat) / 240 ≤ (k : Rat) + 1 / 2 + (P : Rat) / 100000000000 := by
    have := mul_le_mul_of_nonneg_right h2 p0.le
    field_simp at this
    linarith
  constructor
  · intro hk
    by_contra hn
    have hn : 24 * 3600 ≤ A := not_lt.1 hn
    have hk : k + 1 ≤ 360 * P := hk
    have hk : (k : Rat) + 1 ≤ 360 * (P : Rat) := by exact_mod_cast hk
    have := mul_le_mul_of_nonneg_right hn p0.le
    linarith
  · intro ha
    have := hlt (by norm_num; linarith)
    have := mul_le_mul_of_nonneg_right this p0.le
    have : (k : Rat) < 360 * (P : Rat) := by norm_num at this; linarith
    exact_mod_cast this

theorem dec_bound {o : Optical} (h : o.dec.Valid 2) {k : Nat}
    (h1 : (k : Rat) / ((10 ^ o.dec.decDecimals : Nat) : Rat) - o.dec.amount / 3600 ≤ (1 : Rat) / 2 / ((10 ^ o.dec.decDecimals : Nat) : Rat) + (1 : Rat) / ((10 ^ 11 : Nat) : Rat))
    (h2 : -((k : Rat) / ((10 ^ o.dec.decDecimals : Nat) : Rat) - o.dec.amount / 3600) ≤ (1 : Rat) / 2 / ((10 ^ o.dec.decDecimals : Nat) : Rat) + (1 : Rat) / ((10 ^ 11 : Nat) : Rat)) :
    k ≤ 90 * 10 ^ o.dec.decDecimals ↔ o.dec.amount ≤ 90 * 3600 := by
  obtain ⟨u, -, n6⟩ := unit_dec h
  obtain ⟨p0, p6⟩ := pow6 n6
  generalize hA : o.dec.amount = A at *
  have hgt := fun q => amount_gt h (m := 5400) (by rw [hA]; exact q)
  rw [hA] at hgt
  generalize o.dec.unit = U at *
  generalize hP : (10 ^ o.dec.decDecimals : Nat) = P at *
  have e11 : ((10 ^ 11 : Nat) : Rat) = 100000000000 := by norm_num
  rw [e11] at h1 h2
  have k1 : (k : Rat) ≤ A * (P : Rat) / 3600 + 1 / 2 + (P : Rat) / 100000000000 := by
    have := mul_le_mul_of_nonneg_right h1 p0.le
    field_simp at this
    linarith
  have k2 : A * (P : Rat) / 3600 ≤ (k : Rat) + 1 / 2 + (P : Rat) / 100000000000 := by
    have := mul_le_mul_of_nonneg_right h2 p0.le
    field_simp at this
    linarith
  constructor
  · intro hk
    by_contra hn
    have hn : 90 * 3600 < A := not_le.1 hn
    have hk : (k : Rat) ≤ 90 * (P : Rat) := by exact_mod_cast hk
    have := hgt (by norm_num; linarith)
    have := mul_le_mul_of_nonneg_right this p0.le
    norm_num at this
    linarith
  · intro ha
    have := mul_le_mul_of_nonneg_right ha p0.le
    by_contra hk
    have hk : 90 * P + 1 ≤ k := not_le.1 hk
    have hk : 90 * (P : Rat) + 1 ≤ (k : Rat) := by exact_mod_cast hk
    linarith

end Verif.Checked
