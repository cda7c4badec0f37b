import Verif.Spec.Second
import Verif.Lemmas.DateError
import Verif.Props.ObsDateNext
/-!
  Verif.Lemmas.RadarError : the exceptions of the date check when the seconds are whole.
-/
namespace Verif.Sex
open Verif Flt Verif.Spec.Packing

/-- texts with the same numbers are refused for the same reason, or with RuntimeError -/
theorem check_same {t u : Str} {r : Bool} (hr : (sexDateToISO t r).map (fun x => (x.1, x.2.1)) = (sexDateToISO u r).map (fun x => (x.1, x.2.1))) {e : PyErr} (h : checkDate t r = .error e) :
    e = .runtimeError ∨ checkDate u r = .error e := by
  unfold checkDate at h ⊢
  cases hs : sexDateToISO t r with
  | error e' =>
    rw [hs] at hr h
    cases hu : sexDateToISO u r with
    | ok v => rw [hu] at hr; cases hr
    | error e'' =>
      rw [hu] at hr
      injection hr with hr
      right
      rw [errBind] at h ⊢
      rw [← h, hr]
  | ok v =>
    obtain ⟨iso, prec, fr⟩ := v
    rw [hs] at hr h
    cases hu : sexDateToISO u r with
    | error e'' => rw [hu] at hr; cases hr
    | ok v' =>
      obtain ⟨iso', prec', fr'⟩ := v'
      rw [hu] at hr
      injection hr with hr
      injection hr with r1 r2
      simp only at r1 r2
      subst r1 r2
      rw [okBind'] at h ⊢
      simp only at h ⊢
      split at h
      · injection h with h; exact .inl h.symm
      · rename_i hp
        rw [if_neg hp]
        cases hb : isoToSexDate iso prec with
        | error e2 =>
          rw [hb] at h
          right
          rw [errBind] at h ⊢
          exact h
        | ok sx =>
          rw [hb] at h
          rw [okBind'] at h
          split at h
          · injection h with h; exact .inl h.symm
          · cases h

/-- a date of Spec.ObsDate -/
theorem valid_radar {d : Spec.ObsDate} (h : d.Valid) {e : PyErr} (he : checkDate d.column true = .error e) :
    e = .runtimeError ∨ (e = .overflowError ∧ d.year = 9999 ∧ d.month = 12 ∧ d.day = 31 ∧ d.digits = 6 ∧ 999995 ≤ d.frac) := by
  have o := Ok.of h
  have hsec := seconds_eq o.hn'
  have hiso := iso_whole o
  have hf := o.hf
  by_cases hlt : (2 * (d.frac * 10 ^ (6 - d.digits) * 54) + 625) / 1250 < 86400
  · left
    have h1 := hiso hlt
    generalize (2 * (d.frac * 10 ^ (6 - d.digits) * 54) + 625) / 1250 = τ at h1 hlt
    have hy := o.hy
    have hm' := o.hm'
    have := o.day31
    obtain ⟨hw1, hw2⟩ := strptime_whole (y := d.year) (m := d.month) (d := d.day) (w := τ) (by omega) o.hy' o.hm o.hm' o.hd o.hd' hlt
    obtain ⟨k, -, hk⟩ := back_any (y := d.year) (m := d.month) (d := d.day) (w := τ) (us := 0) o.hn o.hn' hlt (by omega) (by omega) o.hy' (by omega) (by omega)
    have hb : isoToSexDate (Spec.isoTime d.year d.month d.day τ ['Z']) (.int (10 ^ (6 - d.digits))) = .ok (⟨d.year, d.month, d.day, d.digits, k % 10 ^ d.digits⟩ : Spec.ObsDate).column := by
      rw [back_whole hw1 hw2]; simpa using hk
    have he := (checkDate_eq h h1 hb).symm.trans he
    by_cases hc : (⟨d.year, d.month, d.day, d.digits, k % 10 ^ d.digits⟩ : Spec.ObsDate).column = d.column
    · rw [if_pos hc] at he
      exact absurd he (by simp)
    · rw [if_neg hc] at he
      exact (Except.error.inj he).symm
  · have hs : 86400 - d.seconds ≤ 1 / 2 := by
      rw [hsec]
      have : 1250 * 86400 ≤ 2 * (d.frac * 10 ^ (6 - d.digits) * 54) + 625 := by omega
      have : (1250 * 86400 : ℚ) ≤ 2 * ((d.frac * 10 ^ (6 - d.digits) * 54 : Nat) : ℚ) + 625 := by exact_mod_cast this
      linarith
    have he := Except.error.inj ((C32_next_day_refused d h hs).symm.trans he)
    split at he
    · rename_i ht
      right
      have h12 := o.hm'
      have h99 := o.hy'
      have hdd := o.hd'
      have h1 := o.hn
      have h6 := o.hn'
      unfold Spec.tomorrow at ht
      split at ht
      · cases ht
      split at ht
      · cases ht
      rename_i hnd hm12
      split at ht
      · cases ht
      rename_i hy99
      have em : d.month = 12 := by omega
      have ey : d.year = 9999 := by omega
      have h31 : Spec.monthDays 9999 12 = 31 := by decide +kernel
      rw [em, ey, h31] at hnd hdd
      have hn6 : d.digits = 6 := by
        by_contra hne
        have h10 : 10 ^ 1 ≤ 10 ^ (6 - d.digits) := Nat.pow_le_pow_right (by omega) (by omega)
        have hp : 10 ^ d.digits * 10 ^ (6 - d.digits) = 1000000 := by rw [← pow_add, show d.digits + (6 - d.digits) = 6 by omega]; norm_num
        have h3 : (d.frac + 1) * 10 ^ (6 - d.digits) ≤ 10 ^ d.digits * 10 ^ (6 - d.digits) := Nat.mul_le_mul_right _ hf
        rw [Nat.add_mul, hp] at h3
        omega
      refine ⟨he.symm, ey, em, by omega, hn6, ?_⟩
      rw [hn6] at hlt
      simp only [Nat.sub_self, pow_zero, mul_one] at hlt
      omega
    · exact .inl he.symm

theorem radar_error {t : Str} (hl : t.length ≤ 17) {e : PyErr} (h : checkDate t true = .error e) :
    e = .runtimeError ∨ (e = .valueError ∧ Spec.Decoded.NoSuchDay t) ∨ (e = .overflowError ∧ Spec.Second.LastHalfSecond t) := by
  cases hm : reMatch checkDateRe t with
  | none =>
    left
    unfold checkDate sexDateToISO at h
    rw [hm] at h
    injection h with h; exact h.symm
  | some m =>
    obtain ⟨y, mo, d, n, f, hy, hy', hmo, hmo', hd, hd', hn, hn', hf, hns, hparts, hr⟩ := read_any hm hl true
    rw [← sexDate_read hy hy' hmo hmo' hd hd' hn hn' hf] at hr
    rcases check_same hr h with h' | h'
    · exact .inl h'
    · by_cases hday : Spec.monthDays y mo < d
      · refine .inr (.inl ⟨?_, hns hday⟩)
        have hno := iso_noday hy hy' hmo hmo' hday hd' hn hn' hf true
        unfold checkDate at h'
        rw [hno, errBind] at h'
        exact (Except.error.inj h').symm
      · have hv : (⟨y, mo, d, n, f⟩ : Spec.ObsDate).Valid := ⟨hy, hy', hmo, hmo', hd, by simpa using hday, hn, hn', hf⟩
        rcases valid_radar hv h' with h1 | ⟨h1, h2, h3, h4, h5, h6⟩
        · exact .inl h1
        · refine .inr (.inr ⟨h1, ?_⟩)
          clear h h' hr hm hv hns hday
          change y = 9999 at h2
          change mo = 12 at h3
          change d = 31 at h4
          change n = 6 at h5
          change 999995 ≤ f at h6
          subst h2 h3 h4 h5
          obtain ⟨Y, M, D, F, w, a1, a2, a3, a4, rfl, b1, b2, b3, b4⟩ := hparts
          have : w = [] := by
            have l1 := a1.1; have l2 := a2.1; have l3 := a3.1; have l4 := a4.1
            simp [l1, l2, l3, l4] at hl
            exact List.length_eq_zero_iff.1 (by omega)
          subst this
          exact ⟨Y, M, D, F, a1, a2, a3, a4, by simp, b1, b2, b3, by omega⟩

end Verif.Sex
