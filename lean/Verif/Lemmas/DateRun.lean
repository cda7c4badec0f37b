import Verif.Lemmas.DateArith
/-
  Verif.Lemmas.DateRun : sexDateToISO, isoToSexDate and checkDate on well formed dates.
-/
namespace Verif.Sex
open Verif Flt

theorem date_text {y m d n f : Nat} (hy : 1000 ≤ y) (hy' : y ≤ 9999) (hm : m < 100) (hd : d < 100) (hn : 1 ≤ n) (hn6 : n ≤ 6) (hf : f < 10 ^ n) :
    (⟨y, m, d, n, f⟩ : Spec.ObsDate).column =
      Spec.dec y ++ [' '] ++ Spec.fixed 2 m ++ [' '] ++ Spec.fixed 2 d ++ ['.'] ++ Spec.fixed n f ++ List.replicate (6 - n) ' ' := by
  unfold Spec.ObsDate.column List.rightpad
  congr 2
  simp only [List.length_append, fixed_length hn hf, fixed2 hm, fixed2 hd, year_text hy hy', List.length_cons, List.length_nil]
  omega

theorem parse_frac {n f : Nat} (hn : 1 ≤ n) (hf : f < 10 ^ n) : parse ('.' :: Spec.fixed n f) = .ok ⟨false, rnd ((f : ℚ) / 10 ^ n)⟩ := by
  have := parse_pos (a := []) (b := Spec.fixed n f) (x := 0) (y := f) (by simp) (fixed_mem _ _) (by simp [fixed_length hn hf]; omega) rfl (digitsVal_fixed _ _)
  rw [List.nil_append] at this
  rw [this, fixed_length hn hf, Rat.mkRat_eq_div]
  push_cast
  rw [zero_mul, zero_add, ofRat_nonneg (by positivity)]

theorem isoSeconds_eq {y m d w u : Nat} (hu : u < 1000000) : isoSeconds ⟨y, m, d, w * 1000000 + u⟩ = Spec.isoTime y m d w [] := by
  have e1 : (w * 1000000 + u) / 3600000000 = w / 3600 := by omega
  have e2 : (w * 1000000 + u) / 60000000 % 60 = w / 60 % 60 := by omega
  have e3 : (w * 1000000 + u) / 1000000 % 60 = w % 60 := by omega
  simp only [isoSeconds, two2, zfill_eq, Spec.isoTime, dec_eq, List.append_nil, e1, e2, e3]

theorem iso_append {y m d w : Nat} (t : Str) : Spec.isoTime y m d w [] ++ t = Spec.isoTime y m d w t := by simp [Spec.isoTime]

/-- the hypotheses about a date -/
structure Ok (y m d n f : Nat) : Prop where
  hy : 1600 ≤ y
  hy' : y ≤ 9999
  hm : 1 ≤ m
  hm' : m ≤ 12
  hd : 1 ≤ d
  hd' : d ≤ Spec.monthDays y m
  hn : 1 ≤ n
  hn' : n ≤ 6
  hf : f < 10 ^ n

theorem Ok.of {x : Spec.ObsDate} (h : x.Valid) : Ok x.year x.month x.day x.digits x.frac :=
  ⟨h.1, h.2.1, h.2.2.1, h.2.2.2.1, h.2.2.2.2.1, h.2.2.2.2.2.1, h.2.2.2.2.2.2.1, h.2.2.2.2.2.2.2.1, h.2.2.2.2.2.2.2.2⟩

theorem Ok.day31 {y m d n f : Nat} (h : Ok y m d n f) : d ≤ 31 := le_trans h.hd' monthDays_le

/-- what `sexDateToISO` does with the numbers -/
def isoCore (y m d n f : Nat) (intsec : Bool) (mpc : Bool) : Py (Str × Num × Str) := do
  let seconds : F64 := ⟨false, sig n f⟩
  let d0 ← mkDate y m d
  let digits := secondsDigits intsec false mpc n
  if digits = 0 then do
    let dt ← addUs d0 ((Flt.round seconds).toNat * 1000000)
    pure (isoSeconds dt ++ ['Z'], .int (10 ^ (6 - n)), '.' :: Spec.fixed n f)
  else do
    let dt ← addUs d0 (timedeltaUs seconds)
    let fr := Flt.round (mul (sub seconds (ofInt (trunc seconds))) (ofInt (10 ^ digits)))
    let t := intStr fr
    pure (isoSeconds dt ++ ['.'] ++ (List.replicate (digits - t.length) '0' ++ t) ++ ['Z'], .int (10 ^ (6 - n)), '.' :: Spec.fixed n f)

theorem pyNat_fixed (k n : Nat) : pyNat (Spec.fixed k n) = .ok n := by simp [pyNat, intDigits_fixed]

theorem okBind {α β : Type} (a : α) (f : α → Py β) : (Except.ok a >>= f : Py β) = f a := rfl

theorem mul_sig (n f : Nat) : mul ⟨false, rnd ((f : ℚ) / 10 ^ n)⟩ (ofInt 86400) = ⟨false, sig n f⟩ := by
  rw [show (86400 : Int) = ((86400 : Nat) : Int) from rfl, ofInt_nat (show 86400 < 2 ^ 53 by norm_num), mul_pos']
  unfold sig
  push_cast; rfl

/-- reading a date column whose day may not exist -/
theorem sexDate_read {y m d n f : Nat} (hy : 1600 ≤ y) (hy' : y ≤ 9999) (hm : 1 ≤ m) (hm' : m ≤ 12) (hd : 1 ≤ d) (hd' : d ≤ 31) (hn : 1 ≤ n)
    (hn' : n ≤ 6) (hf : f < 10 ^ n) (intsec : Bool) :
    sexDateToISO (⟨y, m, d, n, f⟩ : Spec.ObsDate).column intsec = isoCore y m d n f intsec true := by
  rw [date_text (by omega) hy' (by omega) (by omega) hn hn' hf]
  unfold sexDateToISO
  rw [date_match hy hy' hm hm' hd hd' (fixed_mem _ _) (by
    intro e
    have := fixed_length hn hf
    rw [e] at this; simp at this; omega)]
  have g1 : group [(1, Spec.dec y), (2, Spec.fixed 2 m), (3, Spec.fixed 2 d), (4, Spec.fixed n f)] 1 = some (Spec.dec y) := rfl
  have g2 : group [(1, Spec.dec y), (2, Spec.fixed 2 m), (3, Spec.fixed 2 d), (4, Spec.fixed n f)] 2 = some (Spec.fixed 2 m) := rfl
  have g3 : group [(1, Spec.dec y), (2, Spec.fixed 2 m), (3, Spec.fixed 2 d), (4, Spec.fixed n f)] 3 = some (Spec.fixed 2 d) := rfl
  have g4 : group [(1, Spec.dec y), (2, Spec.fixed 2 m), (3, Spec.fixed 2 d), (4, Spec.fixed n f)] 4 = some (Spec.fixed n f) := rfl
  generalize [(1, Spec.dec y), (2, Spec.fixed 2 m), (3, Spec.fixed 2 d), (4, Spec.fixed n f)] = M at *
  simp only [g1, g2, g3, g4, Option.getD_some, dec_eq, pyNat_natStr, pyNat_fixed, parse_frac hn hf, fixed_length hn hf, okBind, hn', if_true, mul_sig]
  rfl

theorem addUs_ok {y m d us : Nat} (h : us < 86400000000) : addUs ⟨y, m, d, 0⟩ us = .ok ⟨y, m, d, us⟩ := by
  unfold addUs dayUs
  rw [if_pos (by simpa using h)]; simp

attribute [local irreducible] addUs dayUs mkDate timedeltaUs

theorem iso_good {y m d n f : Nat} (h : Ok y m d n f) (hs : ((f * 10 ^ (6 - n) * 54 / 625 : Nat) : ℚ) ≤ sig n f) :
    sexDateToISO (⟨y, m, d, n, f⟩ : Spec.ObsDate).column = .ok (Spec.isoTime y m d (f * 10 ^ (6 - n) * 54 / 625)
      ('.' :: Spec.fixed 3 ((16 * (f * 10 ^ (6 - n) * 54 % 625) + 5) / 10) ++ ['Z']), .int (10 ^ (6 - n)), '.' :: Spec.fixed n f) := by
  rw [sexDate_read h.hy h.hy' h.hm h.hm' h.hd h.day31 h.hn h.hn' h.hf]
  have hq := units_lt h.hn' h.hf
  have hn := sig_near n f
  rw [units h.hn'] at hn
  generalize f * 10 ^ (6 - n) * 54 = q at *
  obtain ⟨h1, h2, h3⟩ := time_good hq hn hs
  unfold isoCore
  rw [mkDate_ok (by have := h.hy; omega) h.hy' h.hm h.hm' h.hd h.hd', okBind]
  simp only [secondsDigits, Bool.false_eq_true, if_false, if_true]
  rw [if_neg (by omega), h2, addUs_ok (us := q / 625 * 1000000 + 1600 * (q % 625)) (by omega), okBind, h3, intStr_nat, isoSeconds_eq (by omega),
    ← fixed_eq, ← iso_append ('.' :: _ ++ _)]
  simp only [List.append_assoc]
  rfl

theorem iso_bad {y m d n f : Nat} (h : Ok y m d n f) (hr : f * 10 ^ (6 - n) * 54 % 625 = 0)
    (hs : sig n f < ((f * 10 ^ (6 - n) * 54 / 625 : Nat) : ℚ)) :
    sexDateToISO (⟨y, m, d, n, f⟩ : Spec.ObsDate).column = .ok (Spec.isoTime y m d (f * 10 ^ (6 - n) * 54 / 625)
      ".1000Z".toList, .int (10 ^ (6 - n)), '.' :: Spec.fixed n f) := by
  rw [sexDate_read h.hy h.hy' h.hm h.hm' h.hd h.day31 h.hn h.hn' h.hf]
  have hq := units_lt h.hn' h.hf
  have hn := sig_near n f
  rw [units h.hn'] at hn
  generalize f * 10 ^ (6 - n) * 54 = q at *
  have hq' : (q : ℚ) / 625 = ((q / 625 : Nat) : ℚ) := by
    have : q = q / 625 * 625 := by omega
    have e : (q : ℚ) = ((q / 625 : Nat) : ℚ) * 625 := by exact_mod_cast this
    rw [div_eq_iff (by norm_num)]; exact e
  rw [hq'] at hn
  have hpos : 0 < q / 625 := by
    rcases Nat.eq_zero_or_pos (q / 625) with e | e
    · rw [e] at hs
      have := rnd_nonneg (rnd ((f : ℚ) / 10 ^ n) * 86400)
      unfold sig at hs
      norm_num at hs; linarith
    · exact e
  obtain ⟨h2, h3⟩ := time_bad (by omega) hpos hn hs
  unfold isoCore
  rw [mkDate_ok (by have := h.hy; omega) h.hy' h.hm h.hm' h.hd h.hd', okBind]
  simp only [secondsDigits, Bool.false_eq_true, if_false, if_true]
  have e := isoSeconds_eq (y := y) (m := m) (d := d) (w := q / 625) (u := 0) (by omega)
  rw [if_neg (by omega), h2, addUs_ok (us := q / 625 * 1000000) (by omega), okBind, h3]
  rw [Nat.add_zero] at e
  have : intStr 1000 = ['1', '0', '0', '0'] := by decide
  rw [e, this, ← iso_append ".1000Z".toList]
  simp only [List.append_assoc]
  rfl

/-- radar: whole seconds -/
theorem iso_whole {y m d n f : Nat} (h : Ok y m d n f) (hlt : (2 * (f * 10 ^ (6 - n) * 54) + 625) / 1250 < 86400) :
    sexDateToISO (⟨y, m, d, n, f⟩ : Spec.ObsDate).column true = .ok (Spec.isoTime y m d ((2 * (f * 10 ^ (6 - n) * 54) + 625) / 1250) ['Z'],
      .int (10 ^ (6 - n)), '.' :: Spec.fixed n f) := by
  rw [sexDate_read h.hy h.hy' h.hm h.hm' h.hd h.day31 h.hn h.hn' h.hf]
  have hq := units_lt h.hn' h.hf
  have hn := sig_near n f
  rw [units h.hn'] at hn
  generalize f * 10 ^ (6 - n) * 54 = q at *
  have h3 := time_whole hq (show 0 ≤ sig n f from rnd_nonneg _) hn
  unfold isoCore
  rw [mkDate_ok (by have := h.hy; omega) h.hy' h.hm h.hm' h.hd h.hd', okBind]
  simp only [secondsDigits, if_true]
  have e := isoSeconds_eq (y := y) (m := m) (d := d) (w := (2 * q + 625) / 1250) (u := 0) (by omega)
  rw [Nat.add_zero] at e
  rw [h3, Int.toNat_natCast, addUs_ok (us := (2 * q + 625) / 1250 * 1000000) (by omega), okBind, e, iso_append]
  rfl

/-- the day does not exist -/
theorem iso_noday {y m d n f : Nat} (hy : 1600 ≤ y) (hy' : y ≤ 9999) (hm : 1 ≤ m) (hm' : m ≤ 12) (hd : Spec.monthDays y m < d) (hd' : d ≤ 31) (hn : 1 ≤ n)
    (hn' : n ≤ 6) (hf : f < 10 ^ n) (intsec : Bool) :
    sexDateToISO (⟨y, m, d, n, f⟩ : Spec.ObsDate).column intsec = .error .valueError := by
  rw [sexDate_read hy hy' hm hm' (by omega) hd' hn hn' hf]
  unfold isoCore
  have : mkDate y m d = .error .valueError := by
    unfold mkDate
    rw [daysIn_eq hm hm', if_neg (by omega)]
  rw [this]; rfl

/-! ### back -/

theorem dropWhile_dot (a t : Str) (ha : ∀ c ∈ a, c ∈ digits10) : (a ++ '.' :: t).dropWhile (· ≠ '.') = '.' :: t := by
  induction a with
  | nil => simp
  | cons c a ih =>
    have hc : c ≠ '.' := by
      have := ha c (by simp)
      intro e; subst e; revert this; decide
    simp only [List.cons_append, List.dropWhile_cons, hc, ne_eq, not_false_eq_true, decide_true, if_true]
    exact ih (fun c h => ha c (by simp [h]))

theorem frac_text {n k : Nat} {x : ℚ} (hn : n ≠ 0) (hx : 0 ≤ x) (h : |x * 10 ^ n - k| < 1 / 2) :
    ((fmtF n ⟨false, x⟩).dropWhile (· ≠ '.')).drop 1 = Spec.fixed n (k % 10 ^ n) := by
  rw [fmtF_near hx h, decText_append hn, dropWhile_dot _ _ (natStr_mem _)]; rfl

/-- the conversion of a time of day -/
def backCore (dt : DateTime) (prec : Num) : Py Str :=
  if prec.f.val ≤ 0 then .error .valueError
  else .ok (natStr dt.year ++ [' '] ++ two2 dt.month ++ [' '] ++ two2 dt.day ++ ['.'] ++
    ljust 6 (((fmtF (if 6 - truncLog10 prec.f.val ≤ 0 then 1 else (6 - truncLog10 prec.f.val).toNat)
      (fday (dt.us / 1000000) (dt.us % 1000000))).dropWhile (· ≠ '.')).drop 1))

theorem back_frac {s : Str} {t : DateTime} (h : strptime strptimeFrac s = .ok t) (prec : Num) : isoToSexDate s prec = backCore t prec := by
  unfold isoToSexDate
  simp only [h]
  rfl

theorem back_whole {s : Str} {t : DateTime} (h0 : strptime strptimeFrac s = .error .valueError) (h : strptime strptimeWhole s = .ok t) (prec : Num) :
    isoToSexDate s prec = backCore t prec := by
  unfold isoToSexDate
  simp only [h0, h]
  rfl

/-- an ISO time with date, `w` whole seconds and `us` microseconds, back to a date with `n` digits: the nearest multiple -/
theorem back {y m d w us n k : Nat} (hn : 1 ≤ n) (hn6 : n ≤ 6) (hw : w < 86400) (hus : us < 1000000)
    (hy : 1000 ≤ y) (hy' : y ≤ 9999) (hm : m < 100) (hd : d < 100)
    (hk : |((w : ℚ) + us / 1000000) / 86400 * 10 ^ n - k| < 1 / 2 - 1 / 10 ^ 9) :
    backCore ⟨y, m, d, w * 1000000 + us⟩ (.int (10 ^ (6 - n))) = .ok (⟨y, m, d, n, k % 10 ^ n⟩ : Spec.ObsDate).column := by
  have hp : 0 < 10 ^ n := by positivity
  rw [date_text hy hy' hm hd hn hn6 (Nat.mod_lt _ hp)]
  unfold backCore
  obtain ⟨p1, p2, p3⟩ := prec_digits hn hn6
  obtain ⟨x, hx, hx0, hxe⟩ := fday_near hw hus
  have e1 : (w * 1000000 + us) / 1000000 = w := by omega
  have e2 : (w * 1000000 + us) % 1000000 = us := by omega
  rw [if_neg p1, p3, if_neg (by omega), Int.toNat_natCast]
  simp only [e1, e2, hx]
  have hpow : (10 : ℚ) ^ n ≤ 10 ^ 6 := pow_le_pow_right₀ (by norm_num) hn6
  have hpos : (0 : ℚ) < 10 ^ n := by positivity
  rw [frac_text (k := k) (by omega) hx0]
  · simp only [two2, zfill_eq, ljust, fixed_length hn (Nat.mod_lt _ hp), dec_eq, List.append_assoc]
  · generalize ((w : ℚ) + us / 1000000) / 86400 = z at *
    have e : x * 10 ^ n - k = (x - z) * 10 ^ n + (z * 10 ^ n - k) := by ring
    have h1 : |(x - z) * 10 ^ n| ≤ 1 / 10 ^ 9 := by
      rw [abs_mul, abs_of_pos hpos]
      calc |x - z| * 10 ^ n ≤ 1 / 2 ^ 50 * 10 ^ 6 := mul_le_mul hxe hpow hpos.le (by positivity)
        _ ≤ _ := by norm_num
    rw [e]
    calc _ ≤ |(x - z) * 10 ^ n| + |z * 10 ^ n - k| := abs_add_le _ _
      _ < _ := by linarith

/-- without assuming that the time is clear of a midpoint -/
theorem back_any {y m d w us n : Nat} (hn : 1 ≤ n) (hn6 : n ≤ 6) (hw : w < 86400) (hus : us < 1000000)
    (hy : 1000 ≤ y) (hy' : y ≤ 9999) (hm : m < 100) (hd : d < 100) :
    ∃ k : Nat, |((w : ℚ) + us / 1000000) / 86400 * 10 ^ n - k| ≤ 1 / 2 + 1 / 10 ^ 9 ∧
    backCore ⟨y, m, d, w * 1000000 + us⟩ (.int (10 ^ (6 - n))) = .ok (⟨y, m, d, n, k % 10 ^ n⟩ : Spec.ObsDate).column := by
  have hp : 0 < 10 ^ n := by positivity
  obtain ⟨p1, p2, p3⟩ := prec_digits hn hn6
  obtain ⟨x, hx, hx0, hxe⟩ := fday_near hw hus
  have e1 : (w * 1000000 + us) / 1000000 = w := by omega
  have e2 : (w * 1000000 + us) % 1000000 = us := by omega
  have hpow : (10 : ℚ) ^ n ≤ 10 ^ 6 := pow_le_pow_right₀ (by norm_num) hn6
  have hpos : (0 : ℚ) < 10 ^ n := by positivity
  have hre := roundEven_err (q := x * 10 ^ n) (by positivity)
  refine ⟨roundEven (x * 10 ^ n), ?_, ?_⟩
  · generalize ((w : ℚ) + us / 1000000) / 86400 = z at *
    generalize (roundEven (x * 10 ^ n) : ℚ) = k at *
    have e : z * 10 ^ n - k = (z - x) * 10 ^ n + (x * 10 ^ n - k) := by ring
    have h1 : |(z - x) * 10 ^ n| ≤ 1 / 10 ^ 9 := by
      rw [abs_mul, abs_of_pos hpos, abs_sub_comm]
      calc |x - z| * 10 ^ n ≤ 1 / 2 ^ 50 * 10 ^ 6 := mul_le_mul hxe hpow hpos.le (by positivity)
        _ ≤ _ := by norm_num
    rw [abs_sub_comm] at hre
    rw [e]
    calc _ ≤ |(z - x) * 10 ^ n| + |x * 10 ^ n - k| := abs_add_le _ _
      _ ≤ _ := by linarith
  · rw [date_text hy hy' hm hd hn hn6 (Nat.mod_lt _ hp)]
    unfold backCore
    rw [if_neg p1, p3, if_neg (by omega), Int.toNat_natCast]
    simp only [e1, e2, hx]
    rw [fmtF_pos, decText_append (by omega), dropWhile_dot _ _ (natStr_mem _), natq_pow]
    simp only [List.drop_succ_cons, List.drop_zero, two2, zfill_eq, ljust, fixed_length hn (Nat.mod_lt _ hp), dec_eq, List.append_assoc]

end Verif.Sex
