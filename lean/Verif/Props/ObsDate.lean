import Verif.Lemmas.DateLate
/-
  Properties of observation dates (C32).
-/
namespace Verif
open Sex Flt

theorem seconds_eq {d : Spec.ObsDate} (h : d.digits ≤ 6) : d.seconds = ((d.frac * 10 ^ (6 - d.digits) * 54 : Nat) : ℚ) / 625 := by
  unfold Spec.ObsDate.seconds
  rw [← units h]
  push_cast; rfl

theorem seconds_days {d : Spec.ObsDate} : d.seconds / 86400 * 10 ^ d.digits = d.frac := by
  unfold Spec.ObsDate.seconds
  push_cast
  have : (10 : ℚ) ^ d.digits ≠ 0 := by positivity
  field_simp

/-- the check that the converted time converts back -/
theorem checkDate_eq {d : Spec.ObsDate} (h : d.Valid) {radar : Bool} {s fr : Str} {e : Spec.ObsDate} (h1 : sexDateToISO d.column radar = .ok (s, .int (10 ^ (6 - d.digits)), fr))
    (h2 : isoToSexDate s (.int (10 ^ (6 - d.digits))) = .ok e.column) :
    checkDate d.column radar = if e.column = d.column then .ok (s, .int (10 ^ (6 - d.digits))) else raiseRT := by
  have o := Ok.of h
  obtain ⟨p1, p2, p3⟩ := prec_digits o.hn o.hn'
  unfold checkDate
  rw [h1, okBind]
  simp only
  rw [if_neg p2, h2, okBind]
  by_cases hc : e.column = d.column
  · rw [if_pos hc, if_neg (by simp [hc])]; rfl
  · rw [if_neg hc, if_pos hc]

theorem strptime_ms {y m d w ms : Nat} (hy : 1000 ≤ y) (hy' : y ≤ 9999) (hm : 1 ≤ m) (hm' : m ≤ 12) (hd : 1 ≤ d) (hd' : d ≤ Spec.monthDays y m)
    (hw : w < 86400) (hms : ms < 1000) :
    strptime strptimeFrac (Spec.isoTime y m d w ('.' :: Spec.fixed 3 ms ++ ['Z'])) = .ok ⟨y, m, d, w * 1000000 + ms * 1000⟩ := by
  have hl3 : (Spec.fixed 3 ms).length = 3 := fixed_length (by omega) (by omega)
  have e3 : Spec.fixed 3 ms ++ List.replicate (6 - (Spec.fixed 3 ms).length) '0' = Spec.fixed 6 (ms * 1000) := by
    rw [hl3]
    have z : digitChar 0 = '0' := by decide
    rw [fixed_succ (k := 5) (by omega), fixed_succ (k := 4) (by omega), fixed_succ (k := 3) (by omega)]
    rw [show ms * 1000 / 10 / 10 / 10 = ms by omega, show ms * 1000 % 10 = 0 by omega, show ms * 1000 / 10 % 10 = 0 by omega,
      show ms * 1000 / 10 / 10 % 10 = 0 by omega, z]
    simp [List.replicate]
  exact strptime_frac hy hy' hm hm' hd hd' hw (fixed_mem _ _) (by omega) (by omega) (by rw [e3, pyNat_fixed])

/-- Every date in columns 16-32 with one to six digits of the day, except those whose fraction is in a fixed list of 100 fractions: the
    time sent on is within half a millisecond of the date, it is accepted, its precision is that of the date, and it converts back to the
    same columns. -/
theorem C32_round_trip (d : Spec.ObsDate) (h : d.Valid) (hl : ¬ d.late) :
    ∃ w ms : Nat, w < 86400 ∧ ms < 1000 ∧ |(w : ℚ) + ms / 1000 - d.seconds| ≤ 1 / 2000 ∧
      checkDate d.column = .ok (Spec.isoTime d.year d.month d.day w ('.' :: Spec.fixed 3 ms ++ ['Z']), .int (10 ^ (6 - d.digits))) ∧
      isoToSexDate (Spec.isoTime d.year d.month d.day w ('.' :: Spec.fixed 3 ms ++ ['Z'])) (.int (10 ^ (6 - d.digits))) = .ok d.column := by
  have o := Ok.of h
  have hiso := iso_good o (not_late o.hn' o.hf hl)
  have hq := units_lt o.hn' o.hf
  have hsec := seconds_eq o.hn'
  generalize hQ : d.frac * 10 ^ (6 - d.digits) * 54 = q at *
  have hdm : (q : ℚ) = 625 * ((q / 625 : Nat) : ℚ) + ((q % 625 : Nat) : ℚ) := by exact_mod_cast (Nat.div_add_mod q 625).symm
  have hms : (16 * (q % 625) + 5) / 10 < 1000 := by omega
  have hclose : |((q / 625 : Nat) : ℚ) + ((16 * (q % 625) + 5) / 10 : Nat) / 1000 - d.seconds| ≤ 1 / 2000 := by
    have hk : 10 * ((16 * (q % 625) + 5) / 10) ≤ 16 * (q % 625) + 5 ∧ 16 * (q % 625) ≤ 10 * ((16 * (q % 625) + 5) / 10) + 5 := by omega
    have hk1 : (10 : ℚ) * (((16 * (q % 625) + 5) / 10 : Nat) : ℚ) ≤ 16 * ((q % 625 : Nat) : ℚ) + 5 := by exact_mod_cast hk.1
    have hk2 : (16 : ℚ) * ((q % 625 : Nat) : ℚ) ≤ 10 * (((16 * (q % 625) + 5) / 10 : Nat) : ℚ) + 5 := by exact_mod_cast hk.2
    rw [hsec, abs_le]
    constructor <;> linarith
  have hback : isoToSexDate (Spec.isoTime d.year d.month d.day (q / 625) ('.' :: Spec.fixed 3 ((16 * (q % 625) + 5) / 10) ++ ['Z']))
      (.int (10 ^ (6 - d.digits))) = .ok d.column := by
    generalize (16 * (q % 625) + 5) / 10 = ms at *
    rw [back_frac (strptime_ms (by have := o.hy; omega) o.hy' o.hm o.hm' o.hd o.hd' (by omega) hms)]
    have hm' := o.hm'
    have := o.day31
    have hy := o.hy
    rw [back (k := d.frac) o.hn o.hn' (by omega) (by omega) (by omega) o.hy' (by omega) (by omega)]
    · rw [Nat.mod_eq_of_lt o.hf]
    · rw [← seconds_days (d := d)]
      have hpow : (10 : ℚ) ^ d.digits ≤ 10 ^ 6 := pow_le_pow_right₀ (by norm_num) o.hn'
      have hpos : (0 : ℚ) < 10 ^ d.digits := by positivity
      have e : ((q / 625 : Nat) + ((ms * 1000 : Nat) : ℚ) / 1000000) / 86400 * 10 ^ d.digits - d.seconds / 86400 * 10 ^ d.digits =
        ((q / 625 : Nat) + (ms : ℚ) / 1000 - d.seconds) * (10 ^ d.digits / 86400) := by push_cast; ring
      rw [e, abs_mul, abs_of_pos (a := (10 : ℚ) ^ d.digits / 86400) (by positivity)]
      calc _ ≤ 1 / 2000 * (10 ^ 6 / 86400) := mul_le_mul hclose (by linarith) (by positivity) (by norm_num)
        _ < _ := by norm_num
  refine ⟨q / 625, (16 * (q % 625) + 5) / 10, by omega, hms, hclose, ?_, hback⟩
  rw [checkDate_eq h hiso hback, if_pos rfl]

/-- the date with fraction 0.7 of a day, one of the excluded fractions, and one that is not -/
example : (⟨2020, 2, 29, 1, 7⟩ : Spec.ObsDate).Valid ∧ (⟨2020, 2, 29, 1, 7⟩ : Spec.ObsDate).late ∧
    (⟨2020, 2, 29, 6, 123457⟩ : Spec.ObsDate).Valid ∧ ¬ (⟨2020, 2, 29, 6, 123457⟩ : Spec.ObsDate).late ∧
    (⟨2020, 2, 29, 1, 7⟩ : Spec.ObsDate).column = "2020 02 29.7     ".toList := by
  refine ⟨by simp [Spec.ObsDate.Valid, Spec.monthDays, Spec.leap], ⟨1120, by decide, rfl⟩, by simp [Spec.ObsDate.Valid, Spec.monthDays, Spec.leap], ?_, by decide⟩
  rintro ⟨j, _, h⟩
  simp at h
  omega

theorem late_seconds {d : Spec.ObsDate} (h : d.Valid) (hl : d.late) : ∃ w : Nat, 0 < w ∧ w < 86400 ∧ d.seconds = w ∧
    sexDateToISO d.column = .ok (Spec.isoTime d.year d.month d.day w ".1000Z".toList, .int (10 ^ (6 - d.digits)), '.' :: Spec.fixed d.digits d.frac) ∧
    ∀ k : Nat, |((w : ℚ) + 1 / 10) / 86400 * 10 ^ d.digits - k| < 1 / 2 - 1 / 10 ^ 9 →
    isoToSexDate (Spec.isoTime d.year d.month d.day w ".1000Z".toList) (.int (10 ^ (6 - d.digits))) =
      .ok (⟨d.year, d.month, d.day, d.digits, k % 10 ^ d.digits⟩ : Spec.ObsDate).column := by
  have o := Ok.of h
  have hlt := (late_iff o.hn' o.hf).2 hl
  have hiso := iso_bad o hlt.1 hlt.2
  have hq := units_lt o.hn' o.hf
  have hsec := seconds_eq o.hn'
  generalize d.frac * 10 ^ (6 - d.digits) * 54 = q at *
  obtain ⟨hr, hs⟩ := hlt
  have hw0 : 0 < q / 625 := by
    rcases Nat.eq_zero_or_pos (q / 625) with e | e
    · rw [e] at hs
      have : 0 ≤ sig d.digits d.frac := rnd_nonneg _
      norm_num at hs; linarith
    · exact e
  refine ⟨q / 625, hw0, by omega, ?_, hiso, ?_⟩
  · rw [hsec, div_eq_iff (by norm_num)]
    exact_mod_cast (show q = q / 625 * 625 by omega)
  · intro k hk
    have hm' := o.hm'
    have := o.day31
    have hy := o.hy
    have hsp := strptime_frac (y := d.year) (m := d.month) (d := d.day) (w := q / 625) (us := 100000) (ds := ['1', '0', '0', '0']) (by omega) o.hy' o.hm o.hm' o.hd o.hd' (by omega) (by decide) (by decide)
      (by decide) (by decide)
    have hsp' : strptime strptimeFrac (Spec.isoTime d.year d.month d.day (q / 625) ".1000Z".toList) = .ok ⟨d.year, d.month, d.day, q / 625 * 1000000 + 100000⟩ := hsp
    rw [back_frac hsp']
    apply back o.hn o.hn' (by omega) (by omega) (by omega) o.hy' (by omega) (by omega)
    have e : ((100000 : Nat) : ℚ) / 1000000 = 1 / 10 := by norm_num
    rw [e]
    exact hk

/-- The 100 excluded fractions, written with at most five digits: the date is accepted, but the time sent on is a tenth of a second late. -/
theorem C32_late (d : Spec.ObsDate) (h : d.Valid) (hl : d.late) (h5 : d.digits ≤ 5) :
    ∃ w : Nat, w < 86400 ∧ d.seconds = w ∧
      checkDate d.column = .ok (Spec.isoTime d.year d.month d.day w ".1000Z".toList, .int (10 ^ (6 - d.digits))) := by
  obtain ⟨w, hw0, hw, hsec, hiso, hback⟩ := late_seconds h hl
  refine ⟨w, hw, hsec, ?_⟩
  rw [checkDate_eq h hiso (hback d.frac ?_), Nat.mod_eq_of_lt (Ok.of h).hf, if_pos rfl]
  rw [← seconds_days (d := d), hsec]
  have hpow : (10 : ℚ) ^ d.digits ≤ 10 ^ 5 := pow_le_pow_right₀ (by norm_num) h5
  have hpos : (0 : ℚ) < 10 ^ d.digits := by positivity
  rw [show ((w : ℚ) + 1 / 10) / 86400 * 10 ^ d.digits - (w : ℚ) / 86400 * 10 ^ d.digits = 10 ^ d.digits / 864000 by ring, abs_of_pos (by positivity)]
  calc _ ≤ (10 : ℚ) ^ 5 / 864000 := by linarith
    _ < _ := by norm_num

theorem column_inj {y m d n f g : Nat} (hy : 1000 ≤ y) (hy' : y ≤ 9999) (hm : m < 100) (hd : d < 100) (hn : 1 ≤ n) (hn6 : n ≤ 6) (hf : f < 10 ^ n)
    (hg : g < 10 ^ n) (h : (⟨y, m, d, n, f⟩ : Spec.ObsDate).column = (⟨y, m, d, n, g⟩ : Spec.ObsDate).column) : f = g := by
  rw [date_text hy hy' hm hd hn hn6 hf, date_text hy hy' hm hd hn hn6 hg] at h
  have h2 : Spec.fixed n f = Spec.fixed n g := by
    have := List.append_cancel_right h
    exact List.append_cancel_left this
  have e1 := digitsVal_fixed n f
  rw [h2, digitsVal_fixed] at e1
  simpa using e1.symm

/-- The excluded fractions written with six digits are refused, although the dates are good. -/
theorem C32_refused (d : Spec.ObsDate) (h : d.Valid) (hl : d.late) (h6 : d.digits = 6) : checkDate d.column = .error .runtimeError := by
  have o := Ok.of h
  obtain ⟨w, hw0, hw, hsec, hiso, hback⟩ := late_seconds h hl
  have hf6 : (d.frac : ℚ) = (w : ℚ) / 86400 * 10 ^ 6 := by
    have := seconds_days (d := d)
    rw [hsec, h6] at this
    exact this.symm
  have hk := hback (d.frac + 1) (by
    rw [h6]
    push_cast
    rw [hf6, abs_lt]
    constructor <;> linarith)
  have hm' := o.hm'
  have := o.day31
  have hy := o.hy
  have hlt : d.frac + 1 < 10 ^ d.digits := by
    rw [h6]
    obtain ⟨j, hj, e⟩ := hl
    rw [h6] at e
    have hj2 : j < 1213 := by
      have : ∀ j ∈ Spec.unlucky, j < 1213 := by decide
      exact this j hj
    omega
  rw [checkDate_eq h hiso hk, if_neg]
  · rfl
  · rw [Nat.mod_eq_of_lt hlt]
    intro hc
    have := column_inj (y := d.year) (m := d.month) (d := d.day) (n := d.digits) (by omega) o.hy' (by omega) (by omega) o.hn o.hn' hlt o.hf hc
    omega

/-- A day that the month does not have is a ValueError, which the callers do not expect. -/
theorem C32_no_such_day (d : Spec.ObsDate) (hd : Spec.monthDays d.year d.month < d.day) (hd' : d.day ≤ 31)
    (h : ({ d with day := 1 } : Spec.ObsDate).Valid) (radar : Bool) : checkDate d.column radar = .error .valueError := by
  have o := Ok.of h
  unfold checkDate
  rw [iso_noday (n := d.digits) o.hy o.hy' o.hm o.hm' hd hd' o.hn o.hn' o.hf radar]
  rfl

example : Spec.monthDays 2023 2 < 30 ∧ (⟨2023, 2, 1, 1, 5⟩ : Spec.ObsDate).Valid := by
  constructor
  · decide
  · simp [Spec.ObsDate.Valid, Spec.monthDays]; split <;> omega

/-- Radar dates: the nearest whole second is sent on.  They are accepted if that second rounds back to the same digits, refused
    with RuntimeError if it does not (the midpoint between two fractions is not reached). -/
theorem C32_radar (d : Spec.ObsDate) (h : d.Valid) (τ : Nat) (hτ : |(τ : ℚ) - d.seconds| ≤ 1 / 2) (hlt : τ < 86400) :
    (|(τ : ℚ) - d.seconds| * 10 ^ d.digits < 43200 - 1 / 10 ^ 4 →
      checkDate d.column true = .ok (Spec.isoTime d.year d.month d.day τ ['Z'], .int (10 ^ (6 - d.digits)))) ∧
    (43200 + 1 / 10 ^ 4 < |(τ : ℚ) - d.seconds| * 10 ^ d.digits → checkDate d.column true = .error .runtimeError) := by
  have o := Ok.of h
  have hq := units_lt o.hn' o.hf
  have hsec := seconds_eq o.hn'
  have hiso := iso_whole o
  have hf := o.hf
  generalize d.frac * 10 ^ (6 - d.digits) * 54 = q at *
  have hτe : (2 * q + 625) / 1250 = τ := by
    rw [hsec, abs_le] at hτ
    have h1 : (1250 : ℚ) * τ ≤ 2 * q + 625 := by linarith
    have h2 : (2 : ℚ) * q ≤ 1250 * τ + 625 := by linarith
    have h1' : 1250 * τ ≤ 2 * q + 625 := by exact_mod_cast h1
    have h2' : 2 * q ≤ 1250 * τ + 625 := by exact_mod_cast h2
    omega
  rw [hτe] at hiso
  have hm' := o.hm'
  have := o.day31
  have hy := o.hy
  obtain ⟨hw1, hw2⟩ := strptime_whole (y := d.year) (m := d.month) (d := d.day) (w := τ) (by omega) o.hy' o.hm o.hm' o.hd o.hd' hlt
  have hpos : (0 : ℚ) < 10 ^ d.digits := by positivity
  have hrt : ∀ k : Nat, |(τ : ℚ) / 86400 * 10 ^ d.digits - k| < 1 / 2 - 1 / 10 ^ 9 →
      isoToSexDate (Spec.isoTime d.year d.month d.day τ ['Z']) (.int (10 ^ (6 - d.digits))) =
        .ok (⟨d.year, d.month, d.day, d.digits, k % 10 ^ d.digits⟩ : Spec.ObsDate).column := by
    intro k hk
    rw [back_whole hw1 hw2]
    have := back (y := d.year) (m := d.month) (d := d.day) (us := 0) (k := k) o.hn o.hn' hlt (by omega) (by omega) o.hy' (by omega) (by omega) (by simpa using hk)
    simpa using this
  have hdist : (τ : ℚ) / 86400 * 10 ^ d.digits - d.frac = ((τ : ℚ) - d.seconds) * 10 ^ d.digits / 86400 := by
    conv => lhs; rw [← seconds_days (d := d)]
    ring
  constructor
  · intro hc
    rw [checkDate_eq h (hiso hlt) (hrt d.frac ?_), Nat.mod_eq_of_lt hf, if_pos rfl]
    rw [hdist, abs_div, abs_mul, abs_of_pos hpos, abs_of_pos (a := (86400 : ℚ)) (by norm_num), div_lt_iff₀ (by norm_num)]
    linarith
  · intro hc
    obtain ⟨k, hk, hb⟩ := back_any (y := d.year) (m := d.month) (d := d.day) (us := 0) (n := d.digits) o.hn o.hn' hlt (by omega) (by omega) o.hy' (by omega) (by omega)
    rw [Nat.add_zero] at hb
    rw [← back_whole hw1 hw2] at hb
    rw [checkDate_eq h (hiso hlt) hb, if_neg]
    · rfl
    · intro hcol
      have hfk : k % 10 ^ d.digits = d.frac :=
        column_inj (y := d.year) (m := d.month) (d := d.day) (n := d.digits) (by omega) o.hy' (by omega) (by omega) o.hn o.hn' (Nat.mod_lt _ (by positivity)) hf hcol
      have hkle : k ≤ 10 ^ d.digits := by
        have hk' := (abs_le.1 hk).1
        have hτq : (τ : ℚ) ≤ 86399 := by exact_mod_cast (show τ ≤ 86399 by omega)
        have h10 : (10 : ℚ) ≤ 10 ^ d.digits := by
          calc (10 : ℚ) = 10 ^ 1 := by norm_num
            _ ≤ _ := pow_le_pow_right₀ (by norm_num) o.hn
        have hle : ((τ : ℚ) + (0 : Nat) / 1000000) / 86400 * 10 ^ d.digits ≤ 10 ^ d.digits := by
          push_cast
          have : (τ : ℚ) / 86400 ≤ 1 := by linarith
          calc _ = (τ : ℚ) / 86400 * 10 ^ d.digits := by ring
            _ ≤ 1 * 10 ^ d.digits := mul_le_mul_of_nonneg_right this hpos.le
            _ = _ := one_mul _
        have : (k : ℚ) < 10 ^ d.digits + 1 := by linarith
        have : k < 10 ^ d.digits + 1 := by exact_mod_cast this
        omega
      have hkd : |(τ : ℚ) - d.seconds| * 10 ^ d.digits / 86400 = |(τ : ℚ) / 86400 * 10 ^ d.digits - d.frac| := by
        rw [hdist, abs_div, abs_mul, abs_of_pos hpos, abs_of_pos (a := (86400 : ℚ)) (by norm_num)]
      rcases Nat.lt_or_ge k (10 ^ d.digits) with hlt' | hge
      · rw [Nat.mod_eq_of_lt hlt'] at hfk
        subst hfk
        have hk2 : |(τ : ℚ) / 86400 * 10 ^ d.digits - d.frac| ≤ 1 / 2 + 1 / 10 ^ 9 := by simpa using hk
        rw [← hkd, div_le_iff₀ (by norm_num)] at hk2
        linarith
      · have hke : k = 10 ^ d.digits := by omega
        rw [hke, Nat.mod_self] at hfk
        have hs0 : d.seconds = 0 := by
          unfold Spec.ObsDate.seconds
          rw [← hfk]; simp
        rw [hs0, sub_zero] at hτ hc
        have : (τ : ℚ) < 1 := by
          have := le_abs_self (τ : ℚ)
          linarith
        have : τ = 0 := by
          have : τ < 1 := by exact_mod_cast this
          omega
        rw [this] at hc
        norm_num at hc

/-- Radar dates with at most four digits are always accepted. -/
theorem C32_radar_coarse (d : Spec.ObsDate) (h : d.Valid) (h4 : d.digits ≤ 4) :
    ∃ τ : Nat, |(τ : ℚ) - d.seconds| ≤ 1 / 2 ∧ checkDate d.column true = .ok (Spec.isoTime d.year d.month d.day τ ['Z'], .int (10 ^ (6 - d.digits))) := by
  have o := Ok.of h
  have hsec := seconds_eq o.hn'
  have h100 : d.frac * 10 ^ (6 - d.digits) ≤ 999900 := by
    have hf := o.hf
    have hp : 10 ^ d.digits * 10 ^ (6 - d.digits) = 1000000 := by rw [← pow_add]; norm_num [show d.digits + (6 - d.digits) = 6 by omega]
    have h2 : 10 ^ 2 ≤ 10 ^ (6 - d.digits) := Nat.pow_le_pow_right (by norm_num) (by omega)
    have h3 : (d.frac + 1) * 10 ^ (6 - d.digits) ≤ 10 ^ d.digits * 10 ^ (6 - d.digits) := Nat.mul_le_mul_right _ hf
    rw [Nat.add_mul] at h3
    omega
  have hb := h100
  generalize hQ : d.frac * 10 ^ (6 - d.digits) = p at *
  have hle : |(((2 * (p * 54) + 625) / 1250 : Nat) : ℚ) - d.seconds| ≤ 1 / 2 := by
    have hk : 1250 * ((2 * (p * 54) + 625) / 1250) ≤ 2 * (p * 54) + 625 ∧ 2 * (p * 54) ≤ 1250 * ((2 * (p * 54) + 625) / 1250) + 625 := by omega
    have hk1 : (1250 : ℚ) * (((2 * (p * 54) + 625) / 1250 : Nat) : ℚ) ≤ 2 * ((p * 54 : Nat) : ℚ) + 625 := by exact_mod_cast hk.1
    have hk2 : (2 : ℚ) * ((p * 54 : Nat) : ℚ) ≤ 1250 * (((2 * (p * 54) + 625) / 1250 : Nat) : ℚ) + 625 := by exact_mod_cast hk.2
    rw [hsec, abs_le]
    constructor <;> linarith
  refine ⟨_, hle, (C32_radar d h _ hle (by omega)).1 ?_⟩
  have hpow : (10 : ℚ) ^ d.digits ≤ 10 ^ 4 := pow_le_pow_right₀ (by norm_num) h4
  calc _ ≤ 1 / 2 * (10 : ℚ) ^ 4 := mul_le_mul hle hpow (by positivity) (by norm_num)
    _ < _ := by norm_num

/-- a radar date that is refused: 0.456 s from a whole second, with five digits -/
example : (⟨2020, 1, 1, 5, 4⟩ : Spec.ObsDate).Valid ∧ checkDate (⟨2020, 1, 1, 5, 4⟩ : Spec.ObsDate).column true = .error .runtimeError := by
  have hv : (⟨2020, 1, 1, 5, 4⟩ : Spec.ObsDate).Valid := by simp [Spec.ObsDate.Valid, Spec.monthDays]
  refine ⟨hv, (C32_radar _ hv 3 ?_ (by omega)).2 ?_⟩ <;> norm_num [Spec.ObsDate.seconds, abs_le, abs_of_neg]

/-- From an ISO time to a date: the nearest fraction with the digits of the precision, but when that is a whole day the day is not
    advanced: times in the last part of a day become the beginning of the same day. -/
theorem C32_carry (year month day w ms n : Nat) (hy : 1000 ≤ year) (hy' : year ≤ 9999) (hm : 1 ≤ month) (hm' : month ≤ 12) (hd : 1 ≤ day)
    (hd' : day ≤ Spec.monthDays year month) (hw : w < 86400) (hms : ms < 1000) (hn : 1 ≤ n) (hn6 : n ≤ 6)
    (hl : (1 - ((w : ℚ) + ms / 1000) / 86400) * 10 ^ n < 1 / 2 - 1 / 10 ^ 9) :
    isoToSexDate (Spec.isoTime year month day w ('.' :: Spec.fixed 3 ms ++ ['Z'])) (.int (10 ^ (6 - n))) =
      .ok (⟨year, month, day, n, 0⟩ : Spec.ObsDate).column := by
  have h31 : day ≤ 31 := le_trans hd' monthDays_le
  rw [back_frac (strptime_ms hy hy' hm hm' hd hd' hw hms)]
  have := back (y := year) (m := month) (d := day) (w := w) (us := ms * 1000) (n := n) (k := 10 ^ n) hn hn6 hw (by omega) hy hy' (by omega) (by omega) (by
    have hpos : (0 : ℚ) < 10 ^ n := by positivity
    have hwq : (w : ℚ) ≤ 86399 := by exact_mod_cast (show w ≤ 86399 by omega)
    have hmq : (ms : ℚ) ≤ 999 := by exact_mod_cast (show ms ≤ 999 by omega)
    push_cast
    rw [show ((w : ℚ) + ms * 1000 / 1000000) / 86400 * 10 ^ n - 10 ^ n = -((1 - ((w : ℚ) + ms / 1000) / 86400) * 10 ^ n) by ring, abs_neg, abs_of_nonneg]
    · exact hl
    · apply mul_nonneg _ hpos.le
      linarith)
  rw [this, Nat.mod_self]

/-- one second before midnight, to a tenth of a day -/
example : isoToSexDate "2020-01-01T23:59:59.000Z".toList (.int 100000) = .ok "2020 01 01.0     ".toList :=
  C32_carry 2020 1 1 86399 0 1 (by omega) (by omega) (by omega) (by omega) (by omega) (by decide) (by omega) (by omega) (by omega) (by omega) (by norm_num)

/-- Two dates written with the same number of digits that are accepted with the same time are equal. -/
theorem C32_injective (d e : Spec.ObsDate) (hd : d.Valid) (he : e.Valid) (hdl : ¬ d.late) (hel : ¬ e.late)
    (h : checkDate d.column = checkDate e.column) : d.column = e.column := by
  obtain ⟨w, ms, _, _, _, h1, h2⟩ := C32_round_trip d hd hdl
  obtain ⟨w', ms', _, _, _, h1', h2'⟩ := C32_round_trip e he hel
  rw [h1, h1'] at h
  simp only [Except.ok.injEq, Prod.mk.injEq] at h
  rw [h.1, h.2, h2'] at h2
  simpa using h2.symm

end Verif
