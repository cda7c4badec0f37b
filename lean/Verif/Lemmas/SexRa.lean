import Verif.Lemmas.SexArith
/-
  Verif.Lemmas.SexRa : right ascension, there and back.
-/
namespace Verif.Sex
open Verif Flt

theorem pow_bounds {D : Nat} (h : D ≤ 9) : (1 : ℚ) / 10 ^ 9 ≤ 1 / 10 ^ D ∧ (1 : ℚ) / 10 ^ D ≤ 1 := by
  have hP : (0 : ℚ) < 10 ^ D := by positivity
  refine ⟨one_div_le_one_div_of_le hP (pow_le_pow_right₀ (by norm_num) h), ?_⟩
  rw [div_le_one hP]; exact one_le_pow₀ (by norm_num)

/-- seconds forms: what comes back -/
theorem ra_sec_core {h m n k : Nat} {prec : Num} (hh : h < 100) (hm : m < 60) (hn : n ≤ 3) (hk : k < 60 * 10 ^ n)
    (p1 : prec.f ≠ ofRat (mkRat 6 10)) (p2 : prec.f ≠ ofInt 6) (p3 : prec.f ≠ ofInt 60) (p4 : precDigits prec = .ok n) :
    let K := roundEven (rnd (rnd (3600 * h + 60 * m + rnd ((k : ℚ) / 10 ^ n)) * cRA) * (10 ^ (n + 3) : Nat))
    |(K : ℚ) / 10 ^ (n + 3) - (3600 * h + 60 * m + (k : ℚ) / 10 ^ n) / 240| ≤ 1 / 2 / 10 ^ (n + 3) + 1 / 10 ^ 11 ∧
    decRaToSexRa (decText (n + 3) K) prec =
      .ok (ljust 12 (Spec.fixed 2 h ++ [' '] ++ Spec.fixed 2 m ++ [' '] ++ tailText n k)) := by
  obtain ⟨k1, k2, k3, k4, k5⟩ := kdiv_bounds (by omega) hk
  have hhq : (h : ℚ) ≤ 99 := by exact_mod_cast (by omega : h ≤ 99)
  have hmq : (m : ℚ) ≤ 59 := by exact_mod_cast (by omega : m ≤ 59)
  have hh0 : (0 : ℚ) ≤ h := by positivity
  have hm0 : (0 : ℚ) ≤ m := by positivity
  have hT := total_seconds_near (h := h) (m := m) k5
  have hF := ra_forward (by positivity) (by linarith) hT (n + 3)
  intro K
  refine ⟨hF, ?_⟩
  have hb := pow_bounds (show n + 3 ≤ 9 by omega)
  have e2 : (1 : ℚ) / 10 ^ (n + 3) = 1 / 1000 * (1 / 10 ^ n) := by rw [pow_add]; field_simp; norm_num
  have hB := ra_backward (y := (K : ℚ) / 10 ^ (n + 3)) (N := 3600 * h + 60 * m + (k : ℚ) / 10 ^ n) (p := 1 / 10 ^ (n + 3)) (by positivity) (by positivity) (by linarith)
    hb.1 hb.2 (by have e : (1 : ℚ) / 2 / 10 ^ (n + 3) = 1 / 2 * (1 / 10 ^ (n + 3)) := by ring
                  rw [← e]; exact hF)
  have ex : k = 0 → rnd (rnd ((K : ℚ) / 10 ^ (n + 3)) / cRA) = 3600 * h + 60 * m := by
    rintro rfl
    have hK : ((((60 * h + m) * 250 * 10 ^ n : Nat) : ℚ)) / 10 ^ (n + 3) = ((60 * h + m : Nat) : ℚ) / 4 := by
      rw [pow_add]; push_cast; field_simp; ring
    have := ra_exact (M := 60 * h + m) (by omega) hK
    have eK : K = (60 * h + m) * 250 * 10 ^ n := by
      rw [← this.1]
      show roundEven _ = _
      congr 3
      simp only [Nat.cast_zero, zero_div, rnd_zero, add_zero]
      rw [rnd_natcast (q := 3600 * (h : ℚ) + 60 * m) (k := 60 * (60 * h + m)) (by omega) (by push_cast; ring)]
      push_cast; rfl
    rw [eK, this.2]; push_cast; ring
  have st := seconds_text (rev := rnd (rnd ((K : ℚ) / 10 ^ (n + 3)) / cRA)) (k := k) hh hm (by omega) hk (rnd_nonneg _)
    (hB.trans (by rw [e2]; linarith)) ex
  simp only at st
  obtain ⟨s1, s2, s3⟩ := st
  unfold decRaToSexRa
  rw [parse_decText (by omega)]
  simp only [bind, Except.bind, pure, Except.pure, secToDegrees_eq, div_pos']
  rw [if_neg p1, if_neg p2, if_neg p3, p4]
  simp only
  rw [s1, s2, s3]

/-- minutes forms: what comes back -/
theorem ra_min_core {h n k : Nat} {prec : Num} (hh : h < 100) (hn : n ≤ 2) (hk : k < 60 * 10 ^ n)
    (hp : prec.f = if n = 2 then ofRat (mkRat 6 10) else if n = 1 then ofInt 6 else ofInt 60) :
    let K := roundEven (rnd (rnd (3600 * h + rnd (60 * rnd ((k : ℚ) / 10 ^ n))) * cRA) * (10 ^ (n + 1) : Nat))
    |(K : ℚ) / 10 ^ (n + 1) - (3600 * h + 60 * ((k : ℚ) / 10 ^ n)) / 240| ≤ 1 / 2 / 10 ^ (n + 1) + 1 / 10 ^ 11 ∧
    decRaToSexRa (decText (n + 1) K) prec = .ok (ljust 12 (Spec.fixed 2 h ++ [' '] ++ tailText n k)) := by
  obtain ⟨k1, k2, k3, k4, k5⟩ := kdiv_bounds (show n ≤ 6 by omega) hk
  have hhq : (h : ℚ) ≤ 99 := by exact_mod_cast (by omega : h ≤ 99)
  have hh0 : (0 : ℚ) ≤ h := by positivity
  have hT := total_minutes_near (h := h) k5
  have hF := ra_forward (by positivity) (by linarith) hT (n + 1)
  intro K
  refine ⟨hF, ?_⟩
  have hb := pow_bounds (show n + 1 ≤ 9 by omega)
  have e2 : (1 : ℚ) / 10 ^ (n + 1) = 1 / 10 * (1 / 10 ^ n) := by rw [pow_add]; field_simp
  have hB := ra_backward (y := (K : ℚ) / 10 ^ (n + 1)) (N := 3600 * h + 60 * ((k : ℚ) / 10 ^ n)) (p := 1 / 10 ^ (n + 1)) (by positivity) (by positivity) (by linarith)
    hb.1 hb.2 (by have e : (1 : ℚ) / 2 / 10 ^ (n + 1) = 1 / 2 * (1 / 10 ^ (n + 1)) := by ring
                  rw [← e]; exact hF)
  have ex : k = 0 → rnd (rnd ((K : ℚ) / 10 ^ (n + 1)) / cRA) = 3600 * h := by
    rintro rfl
    have hK : (((15 * h * 10 ^ (n + 1) : Nat) : ℚ)) / 10 ^ (n + 1) = ((60 * h : Nat) : ℚ) / 4 := by
      push_cast; field_simp; ring
    have := ra_exact (M := 60 * h) (by omega) hK
    have eK : K = 15 * h * 10 ^ (n + 1) := by
      rw [← this.1]
      show roundEven _ = _
      congr 3
      simp only [Nat.cast_zero, zero_div, rnd_zero, add_zero, mul_zero]
      rw [rnd_natcast (q := 3600 * (h : ℚ)) (k := 60 * (60 * h)) (by omega) (by push_cast; ring)]
      push_cast; rfl
    rw [eK, this.2]; push_cast; ring
  have st := minutes_text (rev := rnd (rnd ((K : ℚ) / 10 ^ (n + 1)) / cRA)) (k := k) hh hn hk (rnd_nonneg _)
    (hB.trans (by rw [e2]; linarith)) ex
  simp only at st
  obtain ⟨s1, s2⟩ := st
  unfold decRaToSexRa
  rw [parse_decText (by omega)]
  have d1 : ofInt 60 ≠ ofRat (mkRat 6 10) := by decide +kernel
  have d2 : ofInt 60 ≠ ofInt 6 := by decide +kernel
  have d3 : ofInt 6 ≠ ofRat (mkRat 6 10) := by decide +kernel
  simp only [bind, Except.bind, pure, Except.pure, secToDegrees_eq, div_pos']
  obtain rfl | rfl | rfl : n = 0 ∨ n = 1 ∨ n = 2 := by omega
  · simp only [show (0 : Nat) ≠ 2 by omega, show (0 : Nat) ≠ 1 by omega, if_false] at hp
    rw [hp, if_neg d1, if_neg d2, if_pos rfl, s1, s2]
  · simp only [show (1 : Nat) ≠ 2 by omega, if_false, if_true] at hp
    rw [hp, if_neg d3, if_pos rfl, s1, s2]
  · simp only [if_true] at hp
    rw [hp, if_pos rfl, s1, s2]

/-! ### the columns -/

theorem column_ljust (w : Nat) (t : Str) : Spec.column w t = ljust w t := rfl

theorem tailText_frac {d s f : Nat} (hd : 1 ≤ d) (hf : f < 10 ^ d) : tailText d (s * 10 ^ d + f) = Spec.fixed 2 s ++ ['.'] ++ Spec.fixed d f := by
  have hp : 0 < 10 ^ d := by omega
  have e1 : (s * 10 ^ d + f) / 10 ^ d = s := by
    rw [Nat.mul_comm, Nat.mul_add_div hp, Nat.div_eq_of_lt hf]; rfl
  have e2 : (s * 10 ^ d + f) % 10 ^ d = f := by
    rw [Nat.mul_comm, Nat.mul_add_mod, Nat.mod_eq_of_lt hf]
  unfold tailText
  rw [e1, e2, if_neg (by omega)]; simp

theorem tailText_whole (s : Nat) : tailText 0 s = Spec.fixed 2 s := by simp [tailText]

theorem frac_cast (s d f : Nat) : (((s * 10 ^ d + f : Nat) : ℚ)) / 10 ^ d = s + (f : ℚ) / 10 ^ d := by
  push_cast; field_simp

theorem frac_lt {s d f : Nat} (hs : s < 60) (hf : f < 10 ^ d) : s * 10 ^ d + f < 60 * 10 ^ d := by
  have : (s + 1) * 10 ^ d ≤ 60 * 10 ^ d := Nat.mul_le_mul_right _ (by omega)
  rw [Nat.add_mul] at this; omega

/-- the value of a precision: the float nearest to the unit of the last place -/
def unitF (r : Spec.Sexagesimal) : F64 := ofRat r.unit

theorem ten_neg (d : Nat) : ten (-(d : Int)) = 1 / 10 ^ d := by
  unfold ten
  split
  · rename_i h
    have : d = 0 := by omega
    subst this; simp
  · rw [Int.neg_neg, Int.toNat_natCast, Rat.mkRat_eq_div]; push_cast; rfl

theorem read_prec {r : Spec.Sexagesimal} (h : r.Valid 3) : (read r).prec.f = unitF r := by
  unfold unitF
  cases r with
  | seconds h m s d f => show ofRat (ten (-(d : Int))) = ofRat (1 / (10 ^ d : Nat)); rw [ten_neg, natq_pow]
  | wholeSeconds h m s => rfl
  | minutes h m d f =>
    obtain ⟨_, _, h1, h2, _⟩ := h
    obtain rfl | rfl : d = 1 ∨ d = 2 := by omega
    · show (Num.f (if (1 : Nat) = 2 then .flt (ofRat (mkRat 6 10)) else .int 6)) = ofRat (60 / (10 ^ 1 : Nat)); decide +kernel
    · show (Num.f (if (2 : Nat) = 2 then .flt (ofRat (mkRat 6 10)) else .int 6)) = ofRat (60 / (10 ^ 2 : Nat)); decide +kernel
  | wholeMinutes h m => rfl

/-- right ascension: the decimal text, its accuracy, and the way back -/
theorem ra_roundtrip {r : Spec.Sexagesimal} (hr : r.Valid 3) : ∃ K : Nat,
    sexRaToDecRa (Spec.column 12 r.text) = .ok (Spec.decimal r.raDecimals K, (read r).prec) ∧
    |(K : ℚ) / 10 ^ r.raDecimals - r.amount / 240| ≤ 1 / 2 / 10 ^ r.raDecimals + 1 / 10 ^ 11 ∧
    decRaToSexRa (Spec.decimal r.raDecimals K) (read r).prec = .ok (Spec.column 12 r.text) := by
  have hc := check_read hr (w := 12) (.inr rfl)
  unfold sexRaToDecRa
  rw [hc]
  simp only [bind, Except.bind, pure, Except.pure]
  cases r with
  | seconds h m s d f =>
    obtain ⟨h1, h2, h3, h4, h5, h6⟩ := hr
    have p4 : precDigits (.flt (ofRat (ten (-(d : Int))))) = .ok d ∧ (Num.flt (ofRat (ten (-(d : Int))))).f ≠ ofRat (mkRat 6 10) ∧
      (Num.flt (ofRat (ten (-(d : Int))))).f ≠ ofInt 6 ∧ (Num.flt (ofRat (ten (-(d : Int))))).f ≠ ofInt 60 ∧
      digitsFor (mul (ofRat (ten (-(d : Int)))) secToDegrees) = d + 3 := by
      obtain rfl | rfl | rfl : d = 1 ∨ d = 2 ∨ d = 3 := by omega
      · decide +kernel
      · decide +kernel
      · decide +kernel
    have core := ra_sec_core (k := s * 10 ^ d + f) h1 h2 h5 (frac_lt h3 h6) p4.2.1 p4.2.2.1 p4.2.2.2.1 p4.1
    simp only [frac_cast] at core
    generalize hK : roundEven _ = K at core
    refine ⟨K, ?_, ?_, ?_⟩
    rotate_left
    · have := core.1
      simp only [Spec.Sexagesimal.raDecimals, Spec.Sexagesimal.amount, natq_pow]
      rwa [← add_assoc (3600 * (h : ℚ) + 60 * m)] at this
    · rw [← decText_eq (by simp [Spec.Sexagesimal.raDecimals])]
      have := core.2
      rw [tailText_frac h4 h6] at this
      simpa [Spec.Sexagesimal.text, Spec.Sexagesimal.raDecimals, read, column_ljust] using this
    · simp only [read, total_seconds h1 (show m < 100 by omega) (rnd_nonneg _), Num.f, p4.2.2.2.2]
      simp only [secToDegrees_eq, mul_pos', fmtF_pos]
      rw [hK, decText_eq (by omega)]
      rfl
  | wholeSeconds h m s =>
    obtain ⟨h1, h2, h3⟩ := hr
    have p4 : precDigits (.int 1) = .ok 0 ∧ (Num.int 1).f ≠ ofRat (mkRat 6 10) ∧
      (Num.int 1).f ≠ ofInt 6 ∧ (Num.int 1).f ≠ ofInt 60 ∧ digitsFor (mul (Num.int 1).f secToDegrees) = 3 := by decide +kernel
    have core := ra_sec_core (k := s) h1 h2 (by omega) (by omega) p4.2.1 p4.2.2.1 p4.2.2.2.1 p4.1
    simp only [pow_zero, div_one, Nat.zero_add, rnd_nat (show s < 2 ^ 53 by omega)] at core
    generalize hK : roundEven _ = K at core
    refine ⟨K, ?_, ?_, ?_⟩
    rotate_left
    · simpa only [Spec.Sexagesimal.raDecimals, Spec.Sexagesimal.amount] using core.1
    · rw [← decText_eq (by simp [Spec.Sexagesimal.raDecimals])]
      have := core.2
      rw [tailText_whole] at this
      simpa [Spec.Sexagesimal.text, Spec.Sexagesimal.raDecimals, read, column_ljust] using this
    · simp only [read, total_seconds h1 (show m < 100 by omega) (show (0 : ℚ) ≤ s by positivity), p4.2.2.2.2]
      simp only [secToDegrees_eq, mul_pos', fmtF_pos]
      rw [hK, decText_eq (by omega)]
      rfl
  | minutes h m d f =>
    obtain ⟨h1, h2, h3, h4, h5⟩ := hr
    have p4 : Num.f (if d = 2 then .flt (ofRat (mkRat 6 10)) else .int 6) = (if d = 2 then ofRat (mkRat 6 10) else if d = 1 then ofInt 6 else ofInt 60) ∧
      digitsFor (mul (Num.f (if d = 2 then .flt (ofRat (mkRat 6 10)) else .int 6)) secToDegrees) = d + 1 := by
      obtain rfl | rfl : d = 1 ∨ d = 2 := by omega
      · constructor
        · decide +kernel
        · decide +kernel
      · constructor
        · decide +kernel
        · decide +kernel
    have core := ra_min_core (k := m * 10 ^ d + f) h1 h4 (frac_lt h2 h5) p4.1
    simp only [frac_cast] at core
    generalize hK : roundEven _ = K at core
    refine ⟨K, ?_, ?_, ?_⟩
    rotate_left
    · simpa only [Spec.Sexagesimal.raDecimals, Spec.Sexagesimal.amount, natq_pow] using core.1
    · rw [← decText_eq (by simp [Spec.Sexagesimal.raDecimals])]
      have := core.2
      rw [tailText_frac h3 h5] at this
      simpa [Spec.Sexagesimal.text, Spec.Sexagesimal.raDecimals, read, column_ljust] using this
    · simp only [read, total_minutes h1 (rnd_nonneg _), p4.2]
      simp only [secToDegrees_eq, mul_pos', fmtF_pos]
      rw [hK, decText_eq (by omega)]
      rfl
  | wholeMinutes h m =>
    obtain ⟨h1, h2⟩ := hr
    have p4 : digitsFor (mul (Num.int 60).f secToDegrees) = 1 := by decide +kernel
    have core := ra_min_core (prec := .int 60) (n := 0) (k := m) h1 (by omega) (by omega) rfl
    simp only [pow_zero, div_one, Nat.zero_add, rnd_nat (show m < 2 ^ 53 by omega)] at core
    generalize hK : roundEven _ = K at core
    refine ⟨K, ?_, ?_, ?_⟩
    rotate_left
    · simpa only [Spec.Sexagesimal.raDecimals, Spec.Sexagesimal.amount] using core.1
    · rw [← decText_eq (by simp [Spec.Sexagesimal.raDecimals])]
      have := core.2
      rw [tailText_whole] at this
      simpa [Spec.Sexagesimal.text, Spec.Sexagesimal.raDecimals, read, column_ljust] using this
    · simp only [read, total_minutes h1 (show (0 : ℚ) ≤ m by positivity), p4]
      simp only [secToDegrees_eq, mul_pos', fmtF_pos]
      rw [hK, decText_eq (by omega)]
      rfl

end Verif.Sex
