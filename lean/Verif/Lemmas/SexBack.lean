import Verif.Lemmas.SexDec
import Verif.Lemmas.DateLate
/-
  Verif.Lemmas.SexBack : from decimal degrees back to columns, for every decimal text that is close enough to the reading.
-/
namespace Verif.Sex
open Verif Flt

/-- a number of units within (a little more than) half a unit of a whole number of them is that number -/
theorem near_nat {K L D : Nat} (hD : D ≤ 9) (h : |(K : ℚ) / 10 ^ D - (L : ℚ) / 10 ^ D| ≤ 1 / 2 / 10 ^ D + 1 / 10 ^ 11) : K = L := by
  have hP : (0 : ℚ) < 10 ^ D := by positivity
  have hP6 : (10 : ℚ) ^ D ≤ 10 ^ 9 := pow_le_pow_right₀ (by norm_num) hD
  have e : (K : ℚ) / 10 ^ D - (L : ℚ) / 10 ^ D = ((K : ℚ) - L) / 10 ^ D := by ring
  rw [e, abs_div, abs_of_pos hP, div_le_iff₀ hP] at h
  have h2 : (1 / 2 / 10 ^ D + 1 / 10 ^ 11) * (10 : ℚ) ^ D ≤ 1 / 2 + 1 / 10 ^ 2 := by
    have : (1 / 2 / 10 ^ D + 1 / 10 ^ 11) * (10 : ℚ) ^ D = 1 / 2 + 10 ^ D / 10 ^ 11 := by field_simp
    rw [this]
    have : (10 : ℚ) ^ D / 10 ^ 11 ≤ 10 ^ 9 / 10 ^ 11 := by gcongr
    linarith
  have h3 : |(K : ℚ) - L| < 1 := by
    refine lt_of_le_of_lt (h.trans h2) (by norm_num)
  have h4 : |((K : Int) - L)| < 1 := by exact_mod_cast h3
  have := Int.abs_lt_one_iff.1 h4
  omega

theorem ra_sec_back' {h m n k K : Nat} {prec : Num} (hh : h < 110) (hm : m < 60) (hn : n ≤ 6) (hk : k < 60 * 10 ^ n)
    (p1 : prec.f ≠ ofRat (mkRat 6 10)) (p2 : prec.f ≠ ofInt 6) (p3 : prec.f ≠ ofInt 60) (p4 : precDigits prec = .ok n)
    (hF : |(K : ℚ) / 10 ^ (n + 3) - (3600 * h + 60 * m + (k : ℚ) / 10 ^ n) / 240| ≤ 1 / 2 / 10 ^ (n + 3) + 1 / 10 ^ 11) :
    decRaToSexRa (decText (n + 3) K) prec =
      .ok (ljust 12 (Spec.fixed 2 (h % 100) ++ [' '] ++ Spec.fixed 2 m ++ [' '] ++ tailText n k)) := by
  obtain ⟨k1, k2, k3, k4, k5⟩ := kdiv_bounds (by omega) hk
  have hhq : (h : ℚ) ≤ 109 := by exact_mod_cast (by omega : h ≤ 109)
  have hmq : (m : ℚ) ≤ 59 := by exact_mod_cast (by omega : m ≤ 59)
  have hh0 : (0 : ℚ) ≤ h := by positivity
  have hm0 : (0 : ℚ) ≤ m := by positivity
  have hb := pow_bounds (show n + 3 ≤ 9 by omega)
  have e2 : (1 : ℚ) / 10 ^ (n + 3) = 1 / 1000 * (1 / 10 ^ n) := by rw [pow_add]; field_simp; norm_num
  have hB := ra_backward (y := (K : ℚ) / 10 ^ (n + 3)) (N := 3600 * h + 60 * m + (k : ℚ) / 10 ^ n) (p := 1 / 10 ^ (n + 3)) (by positivity) (by positivity) (by linarith)
    hb.1 hb.2 (by have e : (1 : ℚ) / 2 / 10 ^ (n + 3) = 1 / 2 * (1 / 10 ^ (n + 3)) := by ring
                  rw [← e]; exact hF)
  have ex : k = 0 → rnd (rnd ((K : ℚ) / 10 ^ (n + 3)) / cRA) = 3600 * h + 60 * m := by
    rintro rfl
    have hK : ((((60 * h + m) * 250 * 10 ^ n : Nat) : ℚ)) / 10 ^ (n + 3) = ((60 * h + m : Nat) : ℚ) / 4 := by
      rw [pow_add]; push_cast; field_simp; ring
    have := ra_exact (M := 60 * h + m) (by omega) hK
    have eK : K = (60 * h + m) * 250 * 10 ^ n := by
      refine near_nat (D := n + 3) (by omega) ?_
      rw [hK]
      convert hF using 3
      push_cast; ring
    rw [eK, this.2]; push_cast; ring
  have st := seconds_text' (rev := rnd (rnd ((K : ℚ) / 10 ^ (n + 3)) / cRA)) (k := k) (by omega) hm hn hk (rnd_nonneg _)
    (hB.trans (by rw [e2]; linarith)) ex
  simp only at st
  obtain ⟨s1, s2, s3⟩ := st
  unfold decRaToSexRa
  rw [parse_decText (by omega)]
  simp only [bind, Except.bind, pure, Except.pure, secToDegrees_eq, div_pos']
  rw [if_neg p1, if_neg p2, if_neg p3, p4]
  simp only
  rw [s1, s2, s3]

theorem ra_min_back' {h n k K : Nat} {prec : Num} (hh : h < 110) (hn : n ≤ 2) (hk : k < 60 * 10 ^ n)
    (hp : prec.f = if n = 2 then ofRat (mkRat 6 10) else if n = 1 then ofInt 6 else ofInt 60)
    (hF : |(K : ℚ) / 10 ^ (n + 1) - (3600 * h + 60 * ((k : ℚ) / 10 ^ n)) / 240| ≤ 1 / 2 / 10 ^ (n + 1) + 1 / 10 ^ 11) :
    decRaToSexRa (decText (n + 1) K) prec = .ok (ljust 12 (Spec.fixed 2 (h % 100) ++ [' '] ++ tailText n k)) := by
  obtain ⟨k1, k2, k3, k4, k5⟩ := kdiv_bounds (show n ≤ 6 by omega) hk
  have hhq : (h : ℚ) ≤ 109 := by exact_mod_cast (by omega : h ≤ 109)
  have hh0 : (0 : ℚ) ≤ h := by positivity
  have hb := pow_bounds (show n + 1 ≤ 9 by omega)
  have e2 : (1 : ℚ) / 10 ^ (n + 1) = 1 / 10 * (1 / 10 ^ n) := by rw [pow_add]; field_simp
  have hB := ra_backward (y := (K : ℚ) / 10 ^ (n + 1)) (N := 3600 * h + 60 * ((k : ℚ) / 10 ^ n)) (p := 1 / 10 ^ (n + 1)) (by positivity) (by positivity) (by linarith)
    hb.1 hb.2 (by have e : (1 : ℚ) / 2 / 10 ^ (n + 1) = 1 / 2 * (1 / 10 ^ (n + 1)) := by ring
                  rw [← e]; exact hF)
  have ex : k = 0 → rnd (rnd ((K : ℚ) / 10 ^ (n + 1)) / cRA) = 3600 * h := by
    rintro rfl
    have hK : (((15 * h * 10 ^ (n + 1) : Nat) : ℚ)) / 10 ^ (n + 1) = ((60 * h : Nat) : ℚ) / 4 := by
      push_cast; field_simp; ring
    have := ra_exact (M := 60 * h) (by omega) hK
    have eK : K = 15 * h * 10 ^ (n + 1) := by
      refine near_nat (D := n + 1) (by omega) ?_
      rw [hK]
      convert hF using 3
      push_cast; ring
    rw [eK, this.2]; push_cast; ring
  have st := minutes_text' (rev := rnd (rnd ((K : ℚ) / 10 ^ (n + 1)) / cRA)) (k := k) (by omega) hn hk (rnd_nonneg _)
    (hB.trans (by rw [e2]; linarith)) ex
  simp only at st
  obtain ⟨s1, s2⟩ := st
  unfold decRaToSexRa
  rw [parse_decText (by omega)]
  have d1 : ofInt 60 ≠ ofRat (mkRat 6 10) := by decide +kernel
  have d2 : ofInt 60 ≠ ofInt 6 := by decide +kernel
  have d3 : ofInt 6 ≠ ofRat (mkRat 6 10) := by decide +kernel
  simp only [bind, Except.bind, pure, Except.pure, secToDegrees_eq, div_pos']
  obtain rfl | rfl | rfl : n = 0 ∨ n = 1 ∨ n = 2 := by omega
  · simp only [show (0 : Nat) ≠ 2 by omega, show (0 : Nat) ≠ 1 by omega, if_false] at hp
    rw [hp, if_neg d1, if_neg d2, if_pos rfl, s1, s2]
  · simp only [show (1 : Nat) ≠ 2 by omega, if_false, if_true] at hp
    rw [hp, if_neg d3, if_pos rfl, s1, s2]
  · simp only [if_true] at hp
    rw [hp, if_pos rfl, s1, s2]

theorem dec_sec_back' {neg : Bool} {h m n k K : Nat} {prec : Num} {g : ℚ} (hh : h < 110) (hm : m < 60) (hn : n ≤ 5) (hk : k < 60 * 10 ^ n)
    (p1 : prec.f ≠ ofRat (mkRat 6 10)) (p2 : prec.f ≠ ofInt 6) (p3 : prec.f ≠ ofInt 60) (p4 : precDigits prec = .ok n)
    (p5 : mul (ofRat (mkRat 1 2)) prec.f = ⟨false, g⟩) (hg : |g - 1 / 2 * (1 / 10 ^ n)| ≤ 0.01 * (1 / 10 ^ n))
    (p6 : degDeclToSexDecl ('-' :: decText (n + 4) 0) prec = .ok (ljust 12 (['-'] ++ Spec.fixed 2 0 ++ [' '] ++ Spec.fixed 2 0 ++ [' '] ++ tailText n 0)))
    (hF : |(K : ℚ) / 10 ^ (n + 4) - (3600 * h + 60 * m + (k : ℚ) / 10 ^ n) / 3600| ≤ 1 / 2 / 10 ^ (n + 4) + 1 / 10 ^ 11) :
    degDeclToSexDecl (signed neg (decText (n + 4) K)) prec =
      .ok (ljust 12 ([signOf neg] ++ Spec.fixed 2 (h % 100) ++ [' '] ++ Spec.fixed 2 m ++ [' '] ++ tailText n k)) := by
  obtain ⟨k1, k2, k3, k4, k5⟩ := kdiv_bounds (show n ≤ 6 by omega) hk
  have hhq : (h : ℚ) ≤ 109 := by exact_mod_cast (by omega : h ≤ 109)
  have hmq : (m : ℚ) ≤ 59 := by exact_mod_cast (by omega : m ≤ 59)
  have hh0 : (0 : ℚ) ≤ h := by positivity
  have hm0 : (0 : ℚ) ≤ m := by positivity
  have hb := pow_bounds (show n + 4 ≤ 9 by omega)
  have e2 : (1 : ℚ) / 10 ^ (n + 4) = 1 / 10000 * (1 / 10 ^ n) := by rw [pow_add]; field_simp; norm_num
  have hB := dec_backward (y := (K : ℚ) / 10 ^ (n + 4)) (N := 3600 * h + 60 * m + (k : ℚ) / 10 ^ n) (p := 1 / 10 ^ (n + 4)) (by positivity) (by linarith)
    hb.1 (by have e : (1 : ℚ) / 2 / 10 ^ (n + 4) = 1 / 2 * (1 / 10 ^ (n + 4)) := by ring
             rw [← e]; exact hF)
  have hr := hB.trans (show 1840 * (1 / 10 ^ (n + 4)) ≤ 0.31 * ((1 : ℚ) / 10 ^ n) by rw [e2]; linarith)
  have ex0 : m = 0 → k = 0 → K = h * 10 ^ (n + 4) := by
    rintro rfl rfl
    refine near_nat (D := n + 4) (by omega) ?_
    convert hF using 3
    push_cast; field_simp; ring
  have ex : m = 0 → k = 0 → rnd (rnd ((K : ℚ) / 10 ^ (n + 4)) / cDec) = 3600 * h := by
    intro h1 h2
    rw [ex0 h1 h2]; exact (dec_exact (by omega)).2
  have st := arcsec_text' (rev := rnd (rnd ((K : ℚ) / 10 ^ (n + 4)) / cDec)) (k := k) (g := g) (by omega) hm (by omega) hk (rnd_nonneg _) hr ex hg
  simp only at st
  obtain ⟨s1, s2, s3⟩ := st
  by_cases hz : neg = true ∧ h = 0 ∧ m = 0 ∧ k = 0
  · obtain ⟨rfl, rfl, rfl, rfl⟩ := hz
    rw [ex0 rfl rfl, Nat.zero_mul]; exact p6
  · rw [deg_start (by omega) prec (by
      rintro rfl
      have : h ≠ 0 ∨ m ≠ 0 ∨ k ≠ 0 := by simp only [true_and] at hz; omega
      rw [abs_le] at hr
      rcases this with h' | h' | h'
      · have : (1 : ℚ) ≤ h := by exact_mod_cast Nat.pos_of_ne_zero h'
        linarith
      · have : (1 : ℚ) ≤ m := by exact_mod_cast Nat.pos_of_ne_zero h'
        linarith
      · rcases k1 with h'' | h''
        · exact absurd h'' h'
        · linarith)]
    simp only [bind, Except.bind, pure, Except.pure]
    rw [if_neg p1, if_neg p2, if_neg p3, p4, p5]
    simp only
    rw [s1, s2, s3]

theorem dec_min_back' {neg : Bool} {h n k K : Nat} {prec : Num} (hh : h < 110) (hn : n ≤ 2) (hk : k < 60 * 10 ^ n)
    (hp : prec.f = if n = 2 then ofRat (mkRat 6 10) else if n = 1 then ofInt 6 else ofInt 60)
    (p6 : degDeclToSexDecl ('-' :: decText (n + 2) 0) prec = .ok (ljust 12 (['-'] ++ Spec.fixed 2 0 ++ [' '] ++ tailText n 0)))
    (hF : |(K : ℚ) / 10 ^ (n + 2) - (3600 * h + 60 * ((k : ℚ) / 10 ^ n)) / 3600| ≤ 1 / 2 / 10 ^ (n + 2) + 1 / 10 ^ 11) :
    degDeclToSexDecl (signed neg (decText (n + 2) K)) prec = .ok (ljust 12 ([signOf neg] ++ Spec.fixed 2 (h % 100) ++ [' '] ++ tailText n k)) := by
  obtain ⟨k1, k2, k3, k4, k5⟩ := kdiv_bounds (show n ≤ 6 by omega) hk
  have hhq : (h : ℚ) ≤ 109 := by exact_mod_cast (by omega : h ≤ 109)
  have hh0 : (0 : ℚ) ≤ h := by positivity
  have hb := pow_bounds (show n + 2 ≤ 9 by omega)
  have e2 : (1 : ℚ) / 10 ^ (n + 2) = 1 / 100 * (1 / 10 ^ n) := by rw [pow_add]; field_simp; norm_num
  have hB := dec_backward (y := (K : ℚ) / 10 ^ (n + 2)) (N := 3600 * h + 60 * ((k : ℚ) / 10 ^ n)) (p := 1 / 10 ^ (n + 2)) (by positivity) (by linarith)
    hb.1 (by have e : (1 : ℚ) / 2 / 10 ^ (n + 2) = 1 / 2 * (1 / 10 ^ (n + 2)) := by ring
             rw [← e]; exact hF)
  have hr := hB.trans (show 1840 * (1 / 10 ^ (n + 2)) ≤ 0.31 * (60 * ((1 : ℚ) / 10 ^ n)) by rw [e2]; linarith)
  have ex0 : k = 0 → K = h * 10 ^ (n + 2) := by
    rintro rfl
    refine near_nat (D := n + 2) (by omega) ?_
    convert hF using 3
    push_cast; field_simp; ring
  have ex : k = 0 → rnd (rnd ((K : ℚ) / 10 ^ (n + 2)) / cDec) = 3600 * h := by
    intro h1
    rw [ex0 h1]; exact (dec_exact (by omega)).2
  have st := minutes_text' (rev := rnd (rnd ((K : ℚ) / 10 ^ (n + 2)) / cDec)) (k := k) (by omega) hn hk (rnd_nonneg _) hr ex
  simp only at st
  obtain ⟨s1, s2⟩ := st
  by_cases hz : neg = true ∧ h = 0 ∧ k = 0
  · obtain ⟨rfl, rfl, rfl⟩ := hz
    rw [ex0 rfl, Nat.zero_mul]; exact p6
  · rw [deg_start (by omega) prec (by
      rintro rfl
      have : h ≠ 0 ∨ k ≠ 0 := by simp only [true_and] at hz; omega
      rw [abs_le] at hr
      rcases this with h' | h'
      · have : (1 : ℚ) ≤ h := by exact_mod_cast Nat.pos_of_ne_zero h'
        linarith
      · rcases k1 with h'' | h''
        · exact absurd h'' h'
        · linarith)]
    simp only [bind, Except.bind, pure, Except.pure]
    have d1 : ofInt 60 ≠ ofRat (mkRat 6 10) := by decide +kernel
    have d2 : ofInt 60 ≠ ofInt 6 := by decide +kernel
    have d3 : ofInt 6 ≠ ofRat (mkRat 6 10) := by decide +kernel
    obtain rfl | rfl | rfl : n = 0 ∨ n = 1 ∨ n = 2 := by omega
    · simp only [show (0 : Nat) ≠ 2 by omega, show (0 : Nat) ≠ 1 by omega, if_false] at hp
      rw [hp, if_neg d1, if_neg d2, if_pos rfl, s1, s2]
    · simp only [show (1 : Nat) ≠ 2 by omega, if_false, if_true] at hp
      rw [hp, if_neg d3, if_pos rfl, s1, s2]
    · simp only [if_true] at hp
      rw [hp, if_pos rfl, s1, s2]

/-! ### readings -/

/-- every decimal right ascension that is close to a reading goes back to its column -/
theorem ra_back {r : Spec.Sexagesimal} (hr : r.Valid 3) {K : Nat}
    (hF : |(K : ℚ) / 10 ^ r.raDecimals - r.amount / 240| ≤ 1 / 2 / 10 ^ r.raDecimals + 1 / 10 ^ 11) :
    decRaToSexRa (Spec.decimal r.raDecimals K) (read r).prec = .ok (Spec.column 12 r.text) := by
  cases r with
  | seconds h m s d f =>
    obtain ⟨h1, h2, h3, h4, h5, h6⟩ := hr
    have p4 : precDigits (.flt (ofRat (ten (-(d : Int))))) = .ok d ∧ (Num.flt (ofRat (ten (-(d : Int))))).f ≠ ofRat (mkRat 6 10) ∧
      (Num.flt (ofRat (ten (-(d : Int))))).f ≠ ofInt 6 ∧ (Num.flt (ofRat (ten (-(d : Int))))).f ≠ ofInt 60 := by
      obtain rfl | rfl | rfl : d = 1 ∨ d = 2 ∨ d = 3 := by omega
      · decide +kernel
      · decide +kernel
      · decide +kernel
    have core := ra_sec_back' (h := h) (K := K) (k := s * 10 ^ d + f) (by omega) h2 (by omega) (frac_lt h3 h6) p4.2.1 p4.2.2.1 p4.2.2.2 p4.1 (by
      simp only [Spec.Sexagesimal.raDecimals, Spec.Sexagesimal.amount, natq_pow] at hF
      rw [frac_cast, ← add_assoc (3600 * (h : ℚ) + 60 * m)]; exact hF)
    rw [Nat.mod_eq_of_lt h1] at core
    rw [← decText_eq (by simp [Spec.Sexagesimal.raDecimals])]
    rw [tailText_frac h4 h6] at core
    simpa [Spec.Sexagesimal.text, Spec.Sexagesimal.raDecimals, read, column_ljust] using core
  | wholeSeconds h m s =>
    obtain ⟨h1, h2, h3⟩ := hr
    have p4 : precDigits (.int 1) = .ok 0 ∧ (Num.int 1).f ≠ ofRat (mkRat 6 10) ∧
      (Num.int 1).f ≠ ofInt 6 ∧ (Num.int 1).f ≠ ofInt 60 := by decide +kernel
    have core := ra_sec_back' (h := h) (K := K) (k := s) (by omega) h2 (by omega) (by omega) p4.2.1 p4.2.2.1 p4.2.2.2 p4.1 (by
      simpa [Spec.Sexagesimal.raDecimals, Spec.Sexagesimal.amount] using hF)
    rw [Nat.mod_eq_of_lt h1] at core
    rw [← decText_eq (by simp [Spec.Sexagesimal.raDecimals])]
    rw [tailText_whole] at core
    simpa [Spec.Sexagesimal.text, Spec.Sexagesimal.raDecimals, read, column_ljust] using core
  | minutes h m d f =>
    obtain ⟨h1, h2, h3, h4, h5⟩ := hr
    have p4 : Num.f (if d = 2 then .flt (ofRat (mkRat 6 10)) else .int 6) = (if d = 2 then ofRat (mkRat 6 10) else if d = 1 then ofInt 6 else ofInt 60) := by
      obtain rfl | rfl : d = 1 ∨ d = 2 := by omega
      · decide +kernel
      · decide +kernel
    have core := ra_min_back' (h := h) (K := K) (k := m * 10 ^ d + f) (by omega) h4 (frac_lt h2 h5) p4 (by
      simpa only [Spec.Sexagesimal.raDecimals, Spec.Sexagesimal.amount, natq_pow, frac_cast] using hF)
    rw [Nat.mod_eq_of_lt h1] at core
    rw [← decText_eq (by simp [Spec.Sexagesimal.raDecimals])]
    rw [tailText_frac h3 h5] at core
    simpa [Spec.Sexagesimal.text, Spec.Sexagesimal.raDecimals, read, column_ljust] using core
  | wholeMinutes h m =>
    obtain ⟨h1, h2⟩ := hr
    have core := ra_min_back' (h := h) (K := K) (prec := .int 60) (n := 0) (k := m) (by omega) (by omega) (by omega) rfl (by
      simpa [Spec.Sexagesimal.raDecimals, Spec.Sexagesimal.amount] using hF)
    rw [Nat.mod_eq_of_lt h1] at core
    rw [← decText_eq (by simp [Spec.Sexagesimal.raDecimals])]
    rw [tailText_whole] at core
    simpa [Spec.Sexagesimal.text, Spec.Sexagesimal.raDecimals, read, column_ljust] using core

/-- every decimal declination that is close to a reading goes back to its column -/
theorem dec_back {r : Spec.Sexagesimal} (neg : Bool) (hr : r.Valid 2) {K : Nat}
    (hF : |(K : ℚ) / 10 ^ r.decDecimals - r.amount / 3600| ≤ 1 / 2 / 10 ^ r.decDecimals + 1 / 10 ^ 11) :
    degDeclToSexDecl (signed neg (Spec.decimal r.decDecimals K)) (read r).prec = .ok (Spec.column 12 (signOf neg :: r.text)) := by
  cases r with
  | seconds h m s d f =>
    obtain ⟨h1, h2, h3, h4, h5, h6⟩ := hr
    have p4 : precDigits (.flt (ofRat (ten (-(d : Int))))) = .ok d ∧ (Num.flt (ofRat (ten (-(d : Int))))).f ≠ ofRat (mkRat 6 10) ∧
      (Num.flt (ofRat (ten (-(d : Int))))).f ≠ ofInt 6 ∧ (Num.flt (ofRat (ten (-(d : Int))))).f ≠ ofInt 60 ∧
      degDeclToSexDecl ('-' :: decText (d + 4) 0) (.flt (ofRat (ten (-(d : Int))))) =
        .ok (ljust 12 (['-'] ++ Spec.fixed 2 0 ++ [' '] ++ Spec.fixed 2 0 ++ [' '] ++ tailText d 0)) ∧
      (mul (ofRat (mkRat 1 2)) (Num.flt (ofRat (ten (-(d : Int))))).f) = ⟨false, rnd (1 / 2 * rnd (1 / 10 ^ d))⟩ := by
      obtain rfl | rfl : d = 1 ∨ d = 2 := by omega
      · exact ⟨by decide +kernel, by decide +kernel, by decide +kernel, by decide +kernel, by decide +kernel, by
          rw [ten_neg, show ofRat (mkRat 1 2) = ⟨false, 1 / 2⟩ by decide +kernel]
          simp only [Num.f]; rw [ofRat_nonneg (by positivity)]; rfl⟩
      · exact ⟨by decide +kernel, by decide +kernel, by decide +kernel, by decide +kernel, by decide +kernel, by
          rw [ten_neg, show ofRat (mkRat 1 2) = ⟨false, 1 / 2⟩ by decide +kernel]
          simp only [Num.f]; rw [ofRat_nonneg (by positivity)]; rfl⟩
    have hg : |rnd (1 / 2 * rnd ((1 : ℚ) / 10 ^ d)) - 1 / 2 * (1 / 10 ^ d)| ≤ 0.01 * (1 / 10 ^ d) := by
      have q0 : (0 : ℚ) ≤ 1 / 10 ^ d := by positivity
      have a := rnd_near q0
      have a0 := rnd_nonneg ((1 : ℚ) / 10 ^ d)
      have b := rnd_near (q := 1 / 2 * rnd ((1 : ℚ) / 10 ^ d)) (by positivity)
      rw [abs_le]; constructor <;> linarith
    have core := dec_sec_back' (h := h) (K := K) (neg := neg) (k := s * 10 ^ d + f) (by omega) h2 (by omega) (frac_lt h3 h6) p4.2.1 p4.2.2.1 p4.2.2.2.1 p4.1 p4.2.2.2.2.2 hg p4.2.2.2.2.1 (by
      simp only [Spec.Sexagesimal.decDecimals, Spec.Sexagesimal.amount, natq_pow] at hF
      rw [frac_cast, ← add_assoc (3600 * (h : ℚ) + 60 * m)]; exact hF)
    rw [Nat.mod_eq_of_lt h1] at core
    rw [← decText_eq (by simp [Spec.Sexagesimal.decDecimals])]
    rw [tailText_frac h4 h6] at core
    simpa [Spec.Sexagesimal.text, Spec.Sexagesimal.decDecimals, read, column_ljust] using core
  | wholeSeconds h m s =>
    obtain ⟨h1, h2, h3⟩ := hr
    have p4 : precDigits (.int 1) = .ok 0 ∧ (Num.int 1).f ≠ ofRat (mkRat 6 10) ∧
      (Num.int 1).f ≠ ofInt 6 ∧ (Num.int 1).f ≠ ofInt 60 ∧
      degDeclToSexDecl ('-' :: decText (0 + 4) 0) (.int 1) =
        .ok (ljust 12 (['-'] ++ Spec.fixed 2 0 ++ [' '] ++ Spec.fixed 2 0 ++ [' '] ++ tailText 0 0)) ∧
      mul (ofRat (mkRat 1 2)) (Num.int 1).f = ⟨false, 1 / 2⟩ := by decide +kernel
    have core := dec_sec_back' (h := h) (K := K) (neg := neg) (k := s) (by omega) h2 (by omega) (by omega) p4.2.1 p4.2.2.1 p4.2.2.2.1 p4.1 p4.2.2.2.2.2
      (by norm_num) p4.2.2.2.2.1 (by simpa [Spec.Sexagesimal.decDecimals, Spec.Sexagesimal.amount] using hF)
    rw [Nat.mod_eq_of_lt h1] at core
    rw [← decText_eq (by simp [Spec.Sexagesimal.decDecimals])]
    rw [tailText_whole] at core
    simpa [Spec.Sexagesimal.text, Spec.Sexagesimal.decDecimals, read, column_ljust] using core
  | minutes h m d f =>
    obtain ⟨h1, h2, h3, h4, h5⟩ := hr
    have p4 : Num.f (if d = 2 then .flt (ofRat (mkRat 6 10)) else .int 6) = (if d = 2 then ofRat (mkRat 6 10) else if d = 1 then ofInt 6 else ofInt 60) ∧
      degDeclToSexDecl ('-' :: decText (d + 2) 0) (if d = 2 then .flt (ofRat (mkRat 6 10)) else .int 6) =
        .ok (ljust 12 (['-'] ++ Spec.fixed 2 0 ++ [' '] ++ tailText d 0)) := by
      obtain rfl | rfl : d = 1 ∨ d = 2 := by omega
      · decide +kernel
      · decide +kernel
    have core := dec_min_back' (h := h) (K := K) (neg := neg) (k := m * 10 ^ d + f) (by omega) h4 (frac_lt h2 h5) p4.1 p4.2 (by
      simpa only [Spec.Sexagesimal.decDecimals, Spec.Sexagesimal.amount, natq_pow, frac_cast] using hF)
    rw [Nat.mod_eq_of_lt h1] at core
    rw [← decText_eq (by simp [Spec.Sexagesimal.decDecimals])]
    rw [tailText_frac h3 h5] at core
    simpa [Spec.Sexagesimal.text, Spec.Sexagesimal.decDecimals, read, column_ljust] using core
  | wholeMinutes h m =>
    obtain ⟨h1, h2⟩ := hr
    have p4 : degDeclToSexDecl ('-' :: decText (0 + 2) 0) (.int 60) = .ok (ljust 12 (['-'] ++ Spec.fixed 2 0 ++ [' '] ++ tailText 0 0)) := by decide +kernel
    have core := dec_min_back' (h := h) (K := K) (neg := neg) (prec := .int 60) (n := 0) (k := m) (by omega) (by omega) (by omega) rfl p4 (by
      simpa [Spec.Sexagesimal.decDecimals, Spec.Sexagesimal.amount] using hF)
    rw [Nat.mod_eq_of_lt h1] at core
    rw [← decText_eq (by simp [Spec.Sexagesimal.decDecimals])]
    rw [tailText_whole] at core
    simpa [Spec.Sexagesimal.text, Spec.Sexagesimal.decDecimals, read, column_ljust] using core

/-- only the value of the precision counts -/
theorem ra_prec {s : Str} {p q : Num} (h : p.f = q.f) : decRaToSexRa s p = decRaToSexRa s q := by
  unfold decRaToSexRa precDigits; rw [h]
theorem dec_prec {s : Str} {p q : Num} (h : p.f = q.f) : degDeclToSexDecl s p = degDeclToSexDecl s q := by
  unfold degDeclToSexDecl precDigits; rw [h]
theorem date_prec {s : Str} {p q : Num} (h : p.f = q.f) : isoToSexDate s p = isoToSexDate s q := by
  unfold isoToSexDate; rw [h]

end Verif.Sex
