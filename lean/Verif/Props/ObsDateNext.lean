import Verif.Props.ObsDate
import Verif.Spec.Tomorrow
/-!
  C32: radar dates whose nearest whole second is the end of the day.
-/
set_option linter.unusedSimpArgs false
namespace Verif
open Verif.Sex Verif.PackUtil

/-- **C32.** If the nearest whole second is the end of the day, the time becomes midnight of the following day; after 31 December 9999 there is none. -/
theorem C32_next_day (d : Spec.ObsDate) (h : d.Valid) (hs : 86400 - d.seconds ≤ 1 / 2) :
    sexDateToISO d.column true = match Spec.tomorrow d.year d.month d.day with
      | some (y, m, dd) => .ok (Spec.isoTime y m dd 0 ['Z'], .int (10 ^ (6 - d.digits)), '.' :: Spec.fixed d.digits d.frac)
      | none => .error .overflowError := by
  have o := Ok.of h
  have hsec := seconds_eq o.hn'
  have hq := units_lt o.hn' o.hf
  have hn := sig_near d.digits d.frac
  rw [units o.hn'] at hn
  have e : sexDateToISO d.column true = _ := sexDate_read (y := d.year) (m := d.month) (d := d.day) o.hy o.hy' o.hm o.hm' o.hd o.day31 o.hn o.hn' o.hf true
  rw [e]
  generalize d.frac * 10 ^ (6 - d.digits) * 54 = q at *
  have h3 := time_whole hq (show 0 ≤ sig d.digits d.frac from Flt.rnd_nonneg _) hn
  have hw : (2 * q + 625) / 1250 = 86400 := by
    rw [hsec] at hs
    have h1 : (86400 * 1250 : ℚ) ≤ 2 * q + 625 := by linarith
    have h1' : 86400 * 1250 ≤ 2 * q + 625 := by exact_mod_cast h1
    omega
  rw [hw] at h3
  unfold isoCore
  rw [mkDate_ok (by have := o.hy; omega) o.hy' o.hm o.hm' o.hd o.hd', okBind]
  simp only [secondsDigits, if_true]
  have ha : addUs ⟨d.year, d.month, d.day, 0⟩ (86400 * 1000000) = (nextDay ⟨d.year, d.month, d.day, 0⟩).bind fun t' => .ok { t' with us := 0 } := by
    unfold addUs dayUs
    rw [if_neg (by simp)]
    have : 0 + 86400 * 1000000 - 86400000000 = 0 := by norm_num
    simp only [this]
    rfl
  rw [h3, Int.toNat_natCast, ha]
  have hm := o.hm'
  have hy := o.hy'
  have iso : ∀ y m dd : Nat, isoSeconds ⟨y, m, dd, 0⟩ ++ ['Z'] = Spec.isoTime y m dd 0 ['Z'] := by
    intro y m dd
    have e := isoSeconds_eq (y := y) (m := m) (d := dd) (w := 0) (u := 0) (by omega)
    rw [Nat.zero_mul, Nat.add_zero] at e
    rw [e, iso_append]
  unfold nextDay Spec.tomorrow
  rw [daysIn_eq o.hm o.hm']
  by_cases c1 : d.day < Spec.monthDays d.year d.month
  · simp only [c1, if_true]
    exact congrArg Except.ok (by simp only [iso])
  · simp only [c1, if_false]
    by_cases c2 : d.month < 12
    · have : d.month ≠ 12 := by omega
      simp only [c2, this, if_true, ne_eq, not_false_eq_true]
      exact congrArg Except.ok (by simp only [iso])
    · have : d.month = 12 := by omega
      simp only [c2, this, if_false, ne_eq, not_true_eq_false]
      by_cases c3 : d.year < 9999
      · have : d.year ≠ 9999 := by omega
        simp only [c3, this, if_true, not_false_eq_true]
        exact congrArg Except.ok (by simp only [iso])
      · have : d.year = 9999 := by omega
        simp only [c3, this, if_false, not_true_eq_false]
        rfl

/-- the date after a date exists -/
theorem tomorrow_ok {y m d y' m' d' : Nat} (hy : 1600 ≤ y) (hy' : y ≤ 9999) (hm : 1 ≤ m) (hm' : m ≤ 12) (h : Spec.tomorrow y m d = some (y', m', d')) :
    1600 ≤ y' ∧ y' ≤ 9999 ∧ 1 ≤ m' ∧ m' ≤ 12 ∧ 1 ≤ d' ∧ d' ≤ Spec.monthDays y' m' := by
  unfold Spec.tomorrow at h
  split at h
  · simp only [Option.some.injEq, Prod.mk.injEq] at h
    obtain ⟨rfl, rfl, rfl⟩ := h
    exact ⟨hy, hy', hm, hm', by omega, by omega⟩
  have one : ∀ y m : Nat, 1 ≤ m → m ≤ 12 → 1 ≤ Spec.monthDays y m := by
    intro y m h1 h2
    rw [← daysIn_eq h1 h2]
    unfold daysIn
    repeat' split
    all_goals omega
  split at h
  · simp only [Option.some.injEq, Prod.mk.injEq] at h
    obtain ⟨rfl, rfl, rfl⟩ := h
    exact ⟨hy, hy', by omega, by omega, by omega, one _ _ (by omega) (by omega)⟩
  split at h
  · simp only [Option.some.injEq, Prod.mk.injEq] at h
    obtain ⟨rfl, rfl, rfl⟩ := h
    exact ⟨by omega, by omega, by omega, by omega, by omega, one _ _ (by omega) (by omega)⟩
  · cases h

/-- **C32.** Such dates are refused: the following day is not the day of the date. -/
theorem C32_next_day_refused (d : Spec.ObsDate) (h : d.Valid) (hs : 86400 - d.seconds ≤ 1 / 2) :
    checkDate d.column true = .error (if Spec.tomorrow d.year d.month d.day = none then .overflowError else .runtimeError) := by
  have o := Ok.of h
  have hn := C32_next_day d h hs
  cases ht : Spec.tomorrow d.year d.month d.day with
  | none =>
    rw [ht] at hn
    unfold checkDate
    rw [hn, if_pos rfl]
    rfl
  | some x =>
    obtain ⟨y, m, dd⟩ := x
    rw [ht] at hn
    obtain ⟨a1, a2, a3, a4, a5, a6⟩ := tomorrow_ok o.hy o.hy' o.hm o.hm' ht
    have a7 : dd ≤ 31 := le_trans a6 monthDays_le
    obtain ⟨hw1, hw2⟩ := strptime_whole (y := y) (m := m) (d := dd) (w := 0) (by omega) a2 a3 a4 a5 a6 (by omega)
    have hb : isoToSexDate (Spec.isoTime y m dd 0 ['Z']) (.int (10 ^ (6 - d.digits))) = .ok (⟨y, m, dd, d.digits, 0⟩ : Spec.ObsDate).column := by
      rw [back_whole hw1 hw2]
      have := back (y := y) (m := m) (d := dd) (w := 0) (us := 0) (k := 0) o.hn o.hn' (by omega) (by omega) (by omega) a2 (by omega) (by omega) (by norm_num)
      simpa using this
    rw [checkDate_eq h hn hb, if_neg, if_neg (by simp)]
    · rfl
    · intro e
      have hd31 := o.day31
      have hm' := o.hm'
      have hy := o.hy
      have e2 : d.column = (⟨d.year, d.month, d.day, d.digits, d.frac⟩ : Spec.ObsDate).column := rfl
      rw [e2, date_text (by omega) a2 (by omega) (by omega) o.hn o.hn' (by positivity), date_text (by omega) o.hy' (by omega) (by omega) o.hn o.hn' o.hf] at e
      have e3 := (List.append_inj' (List.append_cancel_right e) (by rw [fixed_length o.hn (by positivity), fixed_length o.hn o.hf])).2
      have e4 : 0 = d.frac := by
        have e5 := digitsVal_fixed d.digits 0
        rw [e3, digitsVal_fixed] at e5
        simpa using e5.symm
      have : d.seconds = 0 := by unfold Spec.ObsDate.seconds; rw [← e4]; simp
      rw [this] at hs
      norm_num at hs

/-- 31 December 2023, 0.999999 of the day: midnight of 1 January 2024, and refused -/
example : (⟨2023, 12, 31, 6, 999999⟩ : Spec.ObsDate).Valid ∧ 86400 - (⟨2023, 12, 31, 6, 999999⟩ : Spec.ObsDate).seconds ≤ 1 / 2 ∧ Spec.tomorrow 2023 12 31 = some (2024, 1, 1) := by
  refine ⟨⟨by decide, by decide, by decide, by decide, by decide, by decide, by decide, by decide, by decide⟩, ?_, by decide⟩
  unfold Spec.ObsDate.seconds; norm_num

end Verif
