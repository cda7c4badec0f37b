import Verif.Lemmas.SexDec
import Verif.Lemmas.DateRun
import Verif.Lemmas.Numeral
import Verif.XmlToMpc80
import Verif.Props.Justify
import Verif.Props.Total
import Verif.Props.Codes
/-
  Lemmas for C29: the lengths of the fields that xmltompc80col writes.
-/
namespace Verif.Sex
open Verif.Flt

theorem natStr_le3 {n : Nat} (h : n < 1000) : (natStr n).length ≤ 3 := by
  rcases Nat.lt_or_ge n 10 with h1 | h1
  · have : ∀ n < 10, (natStr n).length ≤ 3 := by decide
    exact this n h1
  · rcases Nat.lt_or_ge n 100 with h2 | h2
    · rw [natStr_length (k := 1) (by omega) (by omega) (by omega)]; omega
    · rw [natStr_length (k := 2) (by omega) (by omega) (by omega)]

theorem fixed_len_le {n k : Nat} (hn : 1 ≤ n) (h : k < 10 ^ n) : (zfill n k).length = n := by
  rw [zfill_eq, fixed_length hn h]

/-- three digits and a fraction, without the first digit -/
theorem decText_len {n k : Nat} (h : k / 10 ^ n < 1000) : ((decText n k).drop 1).length ≤ 2 + (if n = 0 then 0 else n + 1) := by
  have h1 := natStr_le3 h
  unfold decText
  by_cases hn : n = 0
  · simp only [hn, if_true, List.length_drop, List.length_append, List.length_nil] at *
    omega
  · have := fixed_len_le (n := n) (k := k % 10 ^ n) (by omega) (Nat.mod_lt _ (Nat.pos_of_ne_zero (by positivity)))
    simp only [hn, if_false, List.length_drop, List.length_append, List.length_cons, this]
    omega

theorem hundred_len {h : Int} (h1 : -99 ≤ h) (h2 : h ≤ 800) : (hundred h).length ≤ 2 := by
  unfold hundred
  obtain ⟨n, hn⟩ : ∃ n : Nat, 100 + h = n := ⟨(100 + h).toNat, by omega⟩
  rw [hn, ofInt_nat (by omega), fmtF_near (k := n) (by positivity) (by simp)]
  have := decText_len (n := 0) (k := n) (by simp; omega)
  simpa using this

theorem hundredF_len {n : Nat} {y : F64} (h : |y.val| ≤ 80) : (hundredF n y).length ≤ 2 + (if n = 0 then 0 else n + 1) := by
  unfold hundredF
  rw [abs_le] at h
  have e : add (ofInt 100) y = ⟨false, rnd (100 + y.val)⟩ := by
    rw [i100]
    show ofRat (100 + y.val) (false && y.neg) = _
    rw [Bool.false_and, ofRat_nonneg (by linarith)]
  rw [e, fmtF_pos]
  apply decText_len
  have hr := rnd_near (q := 100 + y.val) (by linarith)
  have h0 := rnd_nonneg (100 + y.val)
  have hP : (0 : ℚ) < 10 ^ n := by positivity
  have hP1 : (1 : ℚ) ≤ 10 ^ n := one_le_pow₀ (by norm_num)
  have hR : rnd (100 + y.val) ≤ 181 := by
    have : (100 + y.val) / 2 ^ 53 ≤ 1 := by
      rw [div_le_one (by norm_num)]; norm_num; linarith
    linarith [hr.2]
  generalize rnd (100 + y.val) = R at *
  have he := roundEven_err (q := R * (10 ^ n : Nat)) (by positivity)
  rw [abs_le] at he
  rw [Nat.div_lt_iff_lt_mul (Nat.pos_of_ne_zero (by positivity))]
  have : ((roundEven (R * (10 ^ n : Nat)) : Nat) : ℚ) < ((1000 * 10 ^ n : Nat) : ℚ) := by
    push_cast at *
    nlinarith
  exact_mod_cast this

theorem ofRat_val (q : ℚ) (z : Bool) : |(ofRat q z).val - q| ≤ |q| / 2 ^ 53 := by
  unfold ofRat
  split
  · rename_i h; subst h; cases z <;> simp [F64.val]
  · split
    · rename_i h
      show |-(rnd (-q)) - q| ≤ _
      have := rnd_err (q := -q) (by linarith)
      rw [abs_of_neg h]
      have e : -(rnd (-q)) - q = -(rnd (-q) - -q) := by ring
      rw [e, abs_neg]; exact this
    · rename_i h0 h
      show |rnd q - q| ≤ _
      have hq : 0 ≤ q := by linarith
      rw [abs_of_nonneg hq]; exact rnd_err hq

theorem ofRat_mag (q : ℚ) (z : Bool) : 0 ≤ (ofRat q z).mag := by
  unfold ofRat
  split
  · exact le_refl _
  · split <;> exact rnd_nonneg _

theorem neg_val (y : F64) : (neg y).val = -y.val := by
  obtain ⟨s, m⟩ := y
  cases s <;> simp [neg, F64.val]

theorem val_abs {y : F64} (h : 0 ≤ y.mag) : |y.val| = y.mag := by
  obtain ⟨s, m⟩ := y
  cases s
  · exact abs_of_nonneg h
  · show |-m| = m
    rw [abs_neg]; exact abs_of_nonneg h

/-- the whole number times the unit, exactly -/
theorem times_val {n U : Nat} (h : n * U < 2 ^ 53) (hU : 0 < U) (s : Bool) :
    (mul (ofInt (if s then -(n : Int) else n)) (ofInt U)).val = if s then -((n * U : Nat) : ℚ) else ((n * U : Nat) : ℚ) := by
  have hn : n < 2 ^ 53 := lt_of_le_of_lt (Nat.le_mul_of_pos_right n hU) h
  have hU' : n = 0 ∨ U < 2 ^ 53 := by
    rcases Nat.eq_zero_or_pos n with h0 | h0
    · exact .inl h0
    · exact .inr (lt_of_le_of_lt (Nat.le_mul_of_pos_left U h0) h)
  cases s with
  | false =>
    simp only [Bool.false_eq_true, if_false]
    rw [ofInt_nat hn]
    show (if (false != (ofInt U).neg) = true then -rnd (n * (ofInt U).mag) else rnd (n * (ofInt U).mag)) = _
    rcases hU' with rfl | hU'
    · simp
    · rw [ofInt_nat hU']
      simp only [bne_self_eq_false, Bool.false_eq_true, if_false]
      exact rnd_natcast h (by push_cast; rfl)
  | true =>
    simp only [if_true]
    rcases Nat.eq_zero_or_pos n with rfl | h0
    · simp only [Nat.cast_zero, neg_zero, zero_mul]
      have : ofInt 0 = ⟨false, 0⟩ := by simpa using ofInt_nat (n := 0) (by norm_num)
      rw [this]
      show (if (false != (ofInt U).neg) = true then -rnd (0 * (ofInt U).mag) else rnd (0 * (ofInt U).mag)) = _
      simp
    · have hU'' : U < 2 ^ 53 := by omega
      have e : ofInt (-(n : Int)) = ⟨true, n⟩ := by
        unfold ofInt ofRat
        have hq : (0 : ℚ) < n := by exact_mod_cast h0
        rw [if_neg (by push_cast; linarith), if_pos (by push_cast; linarith)]
        push_cast
        rw [neg_neg, rnd_nat hn]
      rw [e, ofInt_nat hU'']
      show (if (true != false) = true then -rnd ((n : ℚ) * U) else _) = _
      simp only [bne_iff_ne, ne_eq, Bool.true_eq_false, not_false_eq_true, if_true]
      rw [rnd_natcast h (by push_cast; rfl)]

/-- Taking out the whole part: what is left is at most a unit. -/
theorem split_bound {x : F64} (hx : 0 ≤ x.mag) (hb : x.mag ≤ 10 ^ 7) {U : Nat} (hU : 60 ≤ U) (hU2 : U ≤ 3600) :
    let h := trunc (div x (ofInt U))
    |(h : ℚ)| ≤ x.mag / U + 1 ∧ |(sub x (mul (ofInt h) (ofInt U))).val| ≤ U + 1 ∧ 0 ≤ (sub x (mul (ofInt h) (ofInt U))).mag := by
  obtain ⟨s, a⟩ := x
  simp only at hx hb
  have hUq : (60 : ℚ) ≤ U := by exact_mod_cast hU
  have hUq2 : (U : ℚ) ≤ 3600 := by exact_mod_cast hU2
  have hUp : (0 : ℚ) < U := by linarith
  have ed : div ⟨s, a⟩ (ofInt U) = ⟨s, rnd (a / U)⟩ := by
    rw [ofInt_nat (by omega)]
    show F64.mk (s != false) _ = _
    simp
  have hr := rnd_near (q := a / U) (by positivity)
  have h0 := rnd_nonneg (a / U)
  have hsmall : a / U / 2 ^ 53 ≤ 1 / 10 ^ 9 := by
    rw [div_le_div_iff₀ (by positivity) (by positivity)]
    rw [div_mul_eq_mul_div, div_le_iff₀ hUp]
    have : a * 10 ^ 9 ≤ 10 ^ 16 := by linarith
    nlinarith
  generalize hR : rnd (a / U) = R at *
  obtain ⟨n, hn⟩ : ∃ n : Nat, R.floor = n := ⟨R.floor.toNat, by
    have : 0 ≤ R.floor := by rw [Rat.floor_def]; exact Int.ediv_nonneg (Rat.num_nonneg.mpr h0) (by omega)
    omega⟩
  have n1 : (n : ℚ) ≤ R := by
    have := Int.floor_le R
    have e : (⌊R⌋ : Int) = R.floor := rfl
    rw [e, hn] at this; exact_mod_cast this
  have n2 : R < n + 1 := by
    have := Int.lt_floor_add_one R
    have e : (⌊R⌋ : Int) = R.floor := rfl
    rw [e, hn] at this; exact_mod_cast this
  have hau : a / U * U = a := by field_simp
  have b1 : (n : ℚ) * U ≤ a + 1 / 2 := by
    have h1 : (n : ℚ) ≤ a / U + 1 / 10 ^ 9 := by linarith
    have h2 := mul_le_mul_of_nonneg_right h1 hUp.le
    rw [add_mul, hau] at h2
    have : (1 : ℚ) / 10 ^ 9 * U ≤ 1 / 2 := by linarith
    linarith
  have b2 : a ≤ (n : ℚ) * U + U + 1 / 2 := by
    have h1 : a / U ≤ n + 1 + 1 / 10 ^ 9 := by linarith
    have h2 := mul_le_mul_of_nonneg_right h1 hUp.le
    rw [hau] at h2
    have : (1 : ℚ) / 10 ^ 9 * U ≤ 1 / 2 := by linarith
    nlinarith
  have hnU : n * U < 2 ^ 53 := by
    have : ((n * U : Nat) : ℚ) < ((2 ^ 53 : Nat) : ℚ) := by push_cast; linarith
    exact_mod_cast this
  have et : trunc ⟨s, R⟩ = if s then -(n : Int) else n := by
    show (if s then -R.floor else R.floor) = _
    rw [hn]
  intro h
  have eh : h = if s then -(n : Int) else n := by
    show trunc (div ⟨s, a⟩ (ofInt U)) = _
    rw [ed, et]
  refine ⟨?_, ?_, ofRat_mag _ _⟩
  · rw [eh]
    have : |(((if s then -(n : Int) else n) : Int) : ℚ)| = n := by
      cases s <;> simp
    rw [this]
    show (n : ℚ) ≤ a / U + 1
    have : (1 : ℚ) / 10 ^ 9 ≤ 1 := by norm_num
    linarith
  · rw [eh]
    have tv := times_val hnU (by omega) s
    generalize mul (ofInt (if s = true then -(n : Int) else (n : Int))) (ofInt U) = y at *
    have ov := ofRat_val ((⟨s, a⟩ : F64).val + (neg y).val) (s && (neg y).neg)
    have es : sub ⟨s, a⟩ y = ofRat ((⟨s, a⟩ : F64).val + (neg y).val) (s && (neg y).neg) := rfl
    rw [es]
    generalize hq : (⟨s, a⟩ : F64).val + (neg y).val = q at *
    have hqb : |q| ≤ U + 1 / 2 := by
      rw [← hq, neg_val, tv]
      push_cast
      cases s
      · show |a + -((n : ℚ) * U)| ≤ _
        rw [abs_le]; constructor <;> linarith
      · show |-a + - -((n : ℚ) * U)| ≤ _
        rw [abs_le]; constructor <;> linarith
    have h3 : |q| / 2 ^ 53 ≤ 1 / 2 := by
      rw [div_le_iff₀ (by norm_num)]; norm_num; linarith
    have h4 := abs_sub_abs_le_abs_sub (ofRat q (s && (neg y).neg)).val q
    linarith
theorem parse_mag {s : Str} {x : F64} (h : parse s = .ok x) : 0 ≤ x.mag := by
  unfold parse at h
  split at h <;> split at h <;> simp only [Except.ok.injEq, reduceCtorEq] at h
  · subst h; exact ofRat_mag _ _
  · subst h; exact ofRat_mag _ _
  · subst h; exact ofRat_mag _ _

theorem ljust_len {s : Str} {w : Nat} (h : s.length ≤ w) : (ljust w s).length = w := by
  simp [ljust]; omega

theorem div_le {x : F64} (hx : 0 ≤ x.mag) {q : ℚ} {U : Nat} (hU : 0 < U) (hU2 : U < 2 ^ 53) (h : x.mag ≤ q * U) :
    (div x (ofInt U)).mag ≤ q + q / 2 ^ 53 ∧ 0 ≤ (div x (ofInt U)).mag := by
  rw [ofInt_nat hU2]
  refine ⟨?_, rnd_nonneg _⟩
  show rnd (x.mag / U) ≤ _
  have hUq : (0 : ℚ) < U := by exact_mod_cast hU
  have hr := rnd_near (q := x.mag / U) (by positivity)
  have : x.mag / U ≤ q := by rw [div_le_iff₀ hUq]; exact h
  have h2 : x.mag / U / 2 ^ 53 ≤ q / 2 ^ 53 := by gcongr
  linarith

theorem ra_len {s t : Str} {prec : Num} {x : F64} (hp : parse s = .ok x) (hx : x.mag ≤ 1000)
    (hn : ∀ n, precDigits prec = .ok n → n ≤ 3) (h : decRaToSexRa s prec = .ok t) : t.length = 12 := by
  have hx0 := parse_mag hp
  rw [decRaToSexRa, hp, okBind] at h
  have hrev : (div x secToDegrees).mag ≤ 250000 ∧ 0 ≤ (div x secToDegrees).mag := by
    rw [secToDegrees_eq]
    refine ⟨?_, rnd_nonneg _⟩
    show rnd (x.mag / cRA) ≤ _
    have hc : (0 : ℚ) < cRA := by rw [cRA_eq]; norm_num
    have hr := rnd_near (q := x.mag / cRA) (by positivity)
    have h1 : x.mag / cRA ≤ 240001 := by
      rw [div_le_iff₀ hc, cRA_eq]
      have : (1000 : ℚ) ≤ 240001 * (4803839602528529 / 2 ^ 60) := by norm_num
      linarith
    have h2 : x.mag / cRA / 2 ^ 53 ≤ 1 := by
      rw [div_le_one (by norm_num)]; norm_num; linarith
    linarith
  generalize div x secToDegrees = rev at *
  obtain ⟨hb, h0⟩ := hrev
  obtain ⟨d1, r1, m1⟩ := split_bound (x := rev) h0 (by linarith) (U := 3600) (by omega) (by omega)
  simp only [Nat.cast_ofNat] at d1 r1 m1
  have hh : -99 ≤ trunc (div rev (ofInt 3600)) ∧ trunc (div rev (ofInt 3600)) ≤ 800 := by
    have : |((trunc (div rev (ofInt 3600)) : Int) : ℚ)| ≤ 99 := by
      refine d1.trans ?_
      have : rev.mag / 3600 ≤ 80 := by rw [div_le_iff₀ (by norm_num)]; linarith
      linarith
    rw [abs_le] at this
    constructor
    · have := this.1; exact_mod_cast this
    · have := this.2
      have h9 : (trunc (div rev (ofInt 3600)) : Int) ≤ 99 := by exact_mod_cast this
      omega
  have lh := hundred_len hh.1 hh.2
  rw [val_abs m1] at r1
  simp only at h
  generalize trunc (div rev (ofInt 3600)) = H at *
  generalize sub rev (mul (ofInt H) (ofInt 3600)) = r at *
  have hm : |(div r (ofInt 60)).val| ≤ 80 := by
    have := div_le (x := r) m1 (q := 61) (U := 60) (by omega) (by omega) (by push_cast; linarith)
    simp only [Nat.cast_ofNat] at this
    rw [val_abs this.2]
    have h2 : (61 : ℚ) + 61 / 2 ^ 53 ≤ 80 := by norm_num
    linarith [this.1]
  have key : ∀ n, n ≤ 2 → (ljust 12 (hundred H ++ [' '] ++ hundredF n (div r (ofInt 60)))).length = 12 := by
    intro n hn
    have := hundredF_len (n := n) hm
    apply ljust_len
    simp only [List.length_append, List.length_cons, List.length_nil]
    split at this <;> omega
  split at h
  · injection h with h; subst h; exact key 2 (by omega)
  · split at h
    · injection h with h; subst h; exact key 1 (by omega)
    · split at h
      · injection h with h; subst h; exact key 0 (by omega)
      · cases hpd : precDigits prec with
        | error e => rw [hpd] at h; cases h
        | ok n =>
          rw [hpd, okBind] at h
          injection h with h; subst h
          have hn := hn n hpd
          obtain ⟨d2, r2, m2⟩ := split_bound (x := r) m1 (by linarith) (U := 60) (by omega) (by omega)
          simp only [Nat.cast_ofNat] at d2 r2 m2
          have hh : -99 ≤ trunc (div r (ofInt 60)) ∧ trunc (div r (ofInt 60)) ≤ 800 := by
            have : |((trunc (div r (ofInt 60)) : Int) : ℚ)| ≤ 99 := by
              refine d2.trans ?_
              have : r.mag / 60 ≤ 80 := by rw [div_le_iff₀ (by norm_num)]; linarith
              linarith
            rw [abs_le] at this
            constructor
            · have := this.1; exact_mod_cast this
            · have := this.2
              have h9 : (trunc (div r (ofInt 60)) : Int) ≤ 99 := by exact_mod_cast this
              omega
          have lm := hundred_len hh.1 hh.2
          have ls := hundredF_len (n := n) (y := sub r (mul (ofInt (trunc (div r (ofInt 60)))) (ofInt 60))) (by linarith)
          apply ljust_len
          simp only [List.length_append, List.length_cons, List.length_nil]
          split at ls <;> omega

/-! ### declination -/

theorem int_nat (h : Int) : ∃ n : Nat, ∃ s : Bool, h = (if s then -(n : Int) else n) := by
  rcases h with n | n
  · exact ⟨n, false, rfl⟩
  · exact ⟨n + 1, true, rfl⟩

/-- taking off a whole number of units -/
theorem sub_bound {r : F64} {h : Int} {U : Nat} (hU : 0 < U) (hU2 : U ≤ 3600) (hh : |(h : ℚ)| ≤ 1000) {B : ℚ} (hB : |r.val - h * U| ≤ B) (hB2 : B ≤ 10 ^ 9) :
    |(sub r (mul (ofInt h) (ofInt U))).val| ≤ B + 1 / 1000 ∧ 0 ≤ (sub r (mul (ofInt h) (ofInt U))).mag := by
  obtain ⟨n, s, rfl⟩ := int_nat h
  have hn : n ≤ 1000 := by
    have : |(((if s then -(n : Int) else n) : Int) : ℚ)| = n := by cases s <;> simp
    rw [this] at hh; exact_mod_cast hh
  have hnU : n * U < 2 ^ 53 := lt_of_le_of_lt (Nat.mul_le_mul hn hU2) (by norm_num)
  have tv := times_val hnU hU s
  refine ⟨?_, ofRat_mag _ _⟩
  have tv' : (mul (ofInt (if s = true then -(n : Int) else (n : Int))) (ofInt U)).val = (((if s then -(n : Int) else n) : Int) : ℚ) * U := by
    rw [tv]; cases s <;> simp
  generalize mul (ofInt (if s = true then -(n : Int) else (n : Int))) (ofInt U) = y at *
  have ov := ofRat_val (r.val + (neg y).val) (r.neg && (neg y).neg)
  have es : sub r y = ofRat (r.val + (neg y).val) (r.neg && (neg y).neg) := rfl
  rw [es]
  generalize hq : r.val + (neg y).val = q at *
  have hqb : |q| ≤ B := by
    rw [← hq, neg_val, tv', ← sub_eq_add_neg]; exact hB
  have h3 : |q| / 2 ^ 53 ≤ 1 / 1000 := by
    rw [div_le_iff₀ (by norm_num)]; norm_num; linarith
  have h4 := abs_sub_abs_le_abs_sub (ofRat q (r.neg && (neg y).neg)).val q
  linarith

/-- the whole part leaves less than a unit -/
theorem trunc_bound {x : F64} (hx : 0 ≤ x.mag) (hb : x.mag ≤ 10 ^ 7) {U : Nat} (hU : 60 ≤ U) (hU2 : U ≤ 3600) :
    |x.val - trunc (div x (ofInt U)) * U| ≤ U + 1 / 2 := by
  obtain ⟨s, a⟩ := x
  simp only at hx hb
  have hUq : (60 : ℚ) ≤ U := by exact_mod_cast hU
  have hUq2 : (U : ℚ) ≤ 3600 := by exact_mod_cast hU2
  have hUp : (0 : ℚ) < U := by linarith
  have ed : div ⟨s, a⟩ (ofInt U) = ⟨s, rnd (a / U)⟩ := by
    rw [ofInt_nat (by omega)]
    show F64.mk (s != false) _ = _
    simp
  have hr := rnd_near (q := a / U) (by positivity)
  have h0 := rnd_nonneg (a / U)
  have hsmall : a / U / 2 ^ 53 ≤ 1 / 10 ^ 9 := by
    rw [div_le_div_iff₀ (by positivity) (by positivity)]
    rw [div_mul_eq_mul_div, div_le_iff₀ hUp]
    have : a * 10 ^ 9 ≤ 10 ^ 16 := by linarith
    nlinarith
  rw [ed]
  generalize hR : rnd (a / U) = R at *
  have n1 : ((R.floor : Int) : ℚ) ≤ R := Int.floor_le R
  have n2 : R < (R.floor : Int) + 1 := Int.lt_floor_add_one R
  have hau : a / U * U = a := by field_simp
  have et : trunc ⟨s, R⟩ = if s then -R.floor else R.floor := rfl
  generalize R.floor = f at *
  have b1 : (f : ℚ) * U ≤ a + 1 / 2 := by
    have h1 : (f : ℚ) ≤ a / U + 1 / 10 ^ 9 := by linarith
    have h2 := mul_le_mul_of_nonneg_right h1 hUp.le
    rw [add_mul, hau] at h2
    have : (1 : ℚ) / 10 ^ 9 * U ≤ 1 / 2 := by linarith
    linarith
  have b2 : a ≤ (f : ℚ) * U + U + 1 / 2 := by
    have h1 : a / U ≤ f + 1 + 1 / 10 ^ 9 := by linarith
    have h2 := mul_le_mul_of_nonneg_right h1 hUp.le
    rw [hau] at h2
    have : (1 : ℚ) / 10 ^ 9 * U ≤ 1 / 2 := by linarith
    nlinarith
  rw [et]
  cases s
  · show |a - (f : ℚ) * U| ≤ _
    rw [abs_le]; constructor <;> linarith
  · show |-a - ((-f : Int) : ℚ) * U| ≤ _
    rw [abs_le]; push_cast; constructor <;> linarith

theorem trunc_range {z : F64} {B : ℚ} (h : |((trunc z : Int) : ℚ)| ≤ B) (hB : B ≤ 99) : -99 ≤ trunc z ∧ trunc z ≤ 800 := by
  have h := h.trans hB
  rw [abs_le] at h
  constructor
  · have := h.1; exact_mod_cast this
  · have h9 : (trunc z : Int) ≤ 99 := by exact_mod_cast h.2
    omega

theorem add_mag (x y : F64) : 0 ≤ (add x y).mag := ofRat_mag _ _

theorem add_bound {x y : F64} {B : ℚ} (h : |x.val + y.val| ≤ B) (hB : B ≤ 10 ^ 6) : |(add x y).val - (x.val + y.val)| ≤ 1 / 1000 := by
  have := ofRat_val (x.val + y.val) (x.neg && y.neg)
  refine (show |(add x y).val - (x.val + y.val)| ≤ _ from this).trans ?_
  rw [div_le_iff₀ (by norm_num)]; norm_num; linarith

theorem dec_len {s t : Str} {prec : Num} {x : F64} (hp : parse s = .ok x) (hx : x.mag ≤ 91)
    (hn : ∀ n, precDigits prec = .ok n → n ≤ 2 ∧ 0 ≤ prec.f.mag ∧ |prec.f.val| ≤ 10) (h : degDeclToSexDecl s prec = .ok t) : t.length = 12 := by
  have hx0 := parse_mag hp
  rw [degDeclToSexDecl, hp, okBind] at h
  simp only at h
  have hrev : (div x arcsecToDegrees).mag ≤ 327601 ∧ 0 ≤ (div x arcsecToDegrees).mag := by
    rw [arcsecToDegrees_eq]
    refine ⟨?_, rnd_nonneg _⟩
    show rnd (x.mag / cDec) ≤ _
    have hc : (0 : ℚ) < cDec := by rw [cDec_eq]; norm_num
    have hr := rnd_near (q := x.mag / cDec) (by positivity)
    have h1 : x.mag / cDec ≤ 327600.5 := by
      rw [div_le_iff₀ hc, cDec_eq]
      have : (91 : ℚ) ≤ 327600.5 * (5124095576030431 / 2 ^ 64) := by norm_num
      linarith
    have h2 : x.mag / cDec / 2 ^ 53 ≤ 1 / 4 := by
      rw [div_le_iff₀ (by norm_num)]; norm_num; linarith
    linarith
  generalize div x arcsecToDegrees = rev0 at *
  generalize hsg : (if rev0.val < 0 ∨ s.head? = some '-' then (['-'] : Str) else ['+']) = sg at *
  have hsgl : sg.length = 1 := by rw [← hsg]; split <;> rfl
  have hrev2 : (if rev0.val < 0 then neg rev0 else rev0).mag ≤ 327601 ∧ 0 ≤ (if rev0.val < 0 then neg rev0 else rev0).mag := by
    split <;> exact hrev
  generalize (if rev0.val < 0 then neg rev0 else rev0) = rev at *
  obtain ⟨hb, h0⟩ := hrev2
  obtain ⟨d1, r1, m1⟩ := split_bound (x := rev) h0 (by linarith) (U := 3600) (by omega) (by omega)
  simp only [Nat.cast_ofNat] at d1 r1 m1
  have hh := trunc_range (d1.trans (show _ ≤ (93 : ℚ) from by
    have : rev.mag / 3600 ≤ 92 := by rw [div_le_iff₀ (by norm_num)]; linarith
    linarith)) (by norm_num)
  have lh := hundred_len hh.1 hh.2
  have r1v := r1
  rw [val_abs m1] at r1
  generalize trunc (div rev (ofInt 3600)) = H at *
  generalize sub rev (mul (ofInt H) (ofInt 3600)) = r at *
  have hm : |(div r (ofInt 60)).val| ≤ 80 := by
    have := div_le (x := r) m1 (q := 61) (U := 60) (by omega) (by omega) (by push_cast; linarith)
    simp only [Nat.cast_ofNat] at this
    rw [val_abs this.2]
    have h2 : (61 : ℚ) + 61 / 2 ^ 53 ≤ 80 := by norm_num
    linarith [this.1]
  have key : ∀ n, n ≤ 2 → (ljust 12 (sg ++ hundred H ++ [' '] ++ hundredF n (div r (ofInt 60)))).length = 12 := by
    intro n hn
    have := hundredF_len (n := n) hm
    apply ljust_len
    simp only [List.length_append, List.length_cons, List.length_nil]
    split at this <;> omega
  split at h
  · injection h with h; subst h; exact key 2 (by omega)
  · split at h
    · injection h with h; subst h; exact key 1 (by omega)
    · split at h
      · injection h with h; subst h; exact key 0 (by omega)
      · cases hpd : precDigits prec with
        | error e => rw [hpd] at h; cases h
        | ok n =>
          rw [hpd, okBind] at h
          injection h with h; subst h
          obtain ⟨hn, hp0, hp10⟩ := hn n hpd
          have hhalf : |(mul (ofRat (mkRat 1 2)) prec.f).val| ≤ 6 := by
            rw [show ofRat (mkRat 1 2) = ⟨false, 1 / 2⟩ by decide +kernel]
            rw [val_abs (rnd_nonneg _)]
            rw [val_abs hp0] at hp10
            show rnd (1 / 2 * prec.f.mag) ≤ 6
            have := rnd_near (q := 1 / 2 * prec.f.mag) (by positivity)
            have h2 : 1 / 2 * prec.f.mag / 2 ^ 53 ≤ 1 := by
              rw [div_le_iff₀ (by norm_num)]; norm_num; linarith
            linarith [this.2]
          generalize mul (ofRat (mkRat 1 2)) prec.f = g at *
          have ab : |r.val + g.val| ≤ 3607 := (abs_add_le _ _).trans (by linarith)
          have av := add_bound ab (by norm_num)
          have am := add_mag r g
          have ar : (add r g).mag ≤ 3608 := by
            rw [← val_abs am]
            have := abs_sub_abs_le_abs_sub (add r g).val (r.val + g.val)
            linarith
          generalize add r g = y at *
          obtain ⟨d2, _, _⟩ := split_bound (x := y) am (by linarith) (U := 60) (by omega) (by omega)
          have tb := trunc_bound (x := y) am (by linarith) (U := 60) (by omega) (by omega)
          simp only [Nat.cast_ofNat] at d2 tb
          have d3 : |((trunc (div y (ofInt 60)) : Int) : ℚ)| ≤ 62 := d2.trans (by
            have : y.mag / 60 ≤ 61 := by rw [div_le_iff₀ (by norm_num)]; linarith
            linarith)
          have hh2 := trunc_range d3 (by norm_num)
          have lm := hundred_len hh2.1 hh2.2
          generalize trunc (div y (ofInt 60)) = M at *
          have sb := sub_bound (r := r) (h := M) (U := 60) (by omega) (by omega) (by linarith) (B := 70) (by
            have e : r.val - (M : ℚ) * ((60 : Nat) : ℚ) = (y.val - M * 60) - (y.val - (r.val + g.val)) - g.val := by push_cast; ring
            rw [e]
            refine (abs_sub _ _).trans ?_
            have := abs_sub (y.val - M * 60) (y.val - (r.val + g.val))
            linarith) (by norm_num)
          simp only [Nat.cast_ofNat] at sb
          have ls := hundredF_len (n := n) (y := sub r (mul (ofInt M) (ofInt 60))) (by linarith [sb.1])
          apply ljust_len
          simp only [List.length_append, List.length_cons, List.length_nil]
          split at ls <;> omega

/-! ### precisions -/

theorem findPow_le {q : ℚ} {m : Nat} (h : ten (-(m : Int)) ≤ q) : ∀ (f d : Nat), d ≤ m → m < d + f → findPow q f d ≤ m
  | 0, d, h1, h2 => by omega
  | f + 1, d, h1, h2 => by
    unfold findPow
    split
    · exact h1
    · rename_i hc
      have : d ≠ m := by rintro rfl; exact hc h
      exact findPow_le h f (d + 1) (by omega) (by omega)

theorem ten_val (m : Nat) : ten (-(m : Int)) = 1 / 10 ^ m := by rw [ten_neg]

theorem truncLog_ge {q : ℚ} {m : Nat} (hm : m < 100) (h : 2 * ten (-((m : Int) + 1)) ≤ q) : -(m : Int) ≤ truncLog10 q := by
  unfold truncLog10
  have ht : 0 < ten (-((m : Int) + 1)) := by
    rw [show (-((m : Int) + 1)) = -((m + 1 : Nat) : Int) by push_cast; ring, ten_neg]; positivity
  split
  · unfold floorLog10
    rename_i h1
    rw [if_pos h1]
    have := natStr_length_pos q.floor.toNat
    omega
  · have hf := findPow_le (q := q) (m := m + 1) (by push_cast; linarith) 300 1 (by omega) (by omega)
    generalize findPow q 300 1 = d at *
    simp only
    split
    · rename_i hq
      rcases Nat.lt_or_ge d (m + 1) with h2 | h2
      · omega
      · have : d = m + 1 := by omega
        subst this
        push_cast at hq
        have := rnd_near ht.le
        generalize ten (-((m : Int) + 1)) = t at *
        have h3 : t / 2 ^ 53 < t := by rw [div_lt_iff₀ (by norm_num)]; norm_num; linarith
        linarith
    · split <;> omega

/-- at most `m` decimals if the precision is 10^-m or more -/
theorem digits_le {n : Spec.Numeral} (hn : n.Valid) {m : Nat} (hm : m < 100) (hs : 1 / 10 ^ m ≤ n.size) {x : F64} (hx : parse n.text = .ok x) (h0 : 0 < x.val) :
    -(m : Int) ≤ truncLog10 x.val := by
  rw [parse_numeral hn] at hx
  injection hx with hx
  subst hx
  have h1 := rnd_near (size_nonneg n)
  have h2 := rnd_nonneg n.size
  by_cases hg : n.sign = some '-'
  · simp only [hg, decide_true] at h0
    have : (F64.mk true (rnd n.size)).val = -rnd n.size := rfl
    rw [this] at h0; linarith
  · simp only [hg, decide_false]
    show _ ≤ truncLog10 (rnd n.size)
    apply truncLog_ge hm
    have e : -((m : Int) + 1) = -((m + 1 : Nat) : Int) := by push_cast; ring
    rw [e, ten_neg, pow_succ]
    have hp : (0 : ℚ) < 10 ^ m := by positivity
    have e2 : (1 : ℚ) / (10 ^ m * 10) = 1 / 10 ^ m / 10 := by field_simp
    rw [e2]
    have : n.size / 2 ^ 53 ≤ n.size / 2 := by
      have := size_nonneg n
      rw [div_le_div_iff₀ (by norm_num) (by norm_num)]; nlinarith
    have h3 : (0 : ℚ) < 1 / 10 ^ m := by positivity
    linarith [h1.1]

theorem precDigits_bound {p : Num} (hx0 : 0 ≤ p.f.mag) {n m : Nat} (hm : 0 < p.f.val → -(m : Int) ≤ truncLog10 p.f.val) (h : precDigits p = .ok n) :
    n ≤ m ∧ 0 ≤ p.f.mag ∧ |p.f.val| ≤ 10 := by
  unfold precDigits at h
  simp only at h
  generalize p.f = x at *
  by_cases hv : x.val ≤ 0
  · rw [if_pos hv] at h; cases h
  · rw [if_neg hv] at h
    have hv : 0 < x.val := not_le.1 hv
    have hm := hm hv
    by_cases hp : -truncLog10 x.val < 0
    · rw [if_pos hp] at h; cases h
    · rw [if_neg hp] at h
      injection h with h
      refine ⟨by omega, hx0, ?_⟩
      rw [abs_of_pos hv]
      by_contra hc
      have hc : 10 < x.val := not_le.1 hc
      have : 1 ≤ truncLog10 x.val := by
        unfold truncLog10 floorLog10
        rw [if_pos (by linarith), if_pos (by linarith)]
        have hf : (10 : Int) ≤ ⌊x.val⌋ := Int.le_floor.mpr (by norm_num; exact hc.le)
        have hf : (10 : Int) ≤ x.val.floor := hf
        generalize x.val.floor = f at *
        have h2 : (natStr f.toNat).length ≠ 1 := by
          intro h1
          have hge : 10 ≤ f.toNat := by omega
          have := natStr_ge hge
          have hl := natStr_length_pos (f.toNat / 10)
          rw [this, List.length_append, List.length_singleton] at h1; omega
        have := natStr_length_pos f.toNat
        omega
      omega

/-! ### dates -/

theorem strptime_year {r : Re} {y : Nat} {rest : Str} {t : DateTime} (h1 : 1000 ≤ y) (h2 : y ≤ 9999)
    (h : strptime (.seq (.grp 1 (times 4 isDec)) r) (Spec.dec y ++ rest) = .ok t) :
    t.year = y ∧ 1 ≤ t.month ∧ t.month ≤ 12 ∧ 1 ≤ t.day ∧ t.day ≤ 31 := by
  unfold strptime at h
  cases hr : (run (.seq (.grp 1 (times 4 isDec)) r) (Spec.dec y ++ rest)).head? with
  | none => rw [hr] at h; simp at h
  | some m =>
    obtain ⟨c, u, k⟩ := m
    rw [hr] at h
    simp only at h
    have hm := List.mem_of_mem_head? hr
    have hk : ∃ k', k = (1, Spec.dec y) :: k' := by
      simp only [run, List.mem_flatMap, List.mem_map] at hm
      obtain ⟨a, ⟨a', ha', rfl⟩, b, hb, e⟩ := hm
      have : run (times 4 isDec) (Spec.dec y ++ rest) = [(Spec.dec y, rest, [])] := by
        rw [year_text (by omega) h2]
        have a := isDec_digitChar (d := y / 100 / 10) (by omega)
        have b := isDec_digitChar (d := y / 100 % 10) (by omega)
        have c := isDec_digitChar (d := y / 10 % 10) (by omega)
        have d := isDec_digitChar (d := y % 10) (by omega)
        simp [times, run, spanLen, a, b, c, d, downTo]
      rw [this] at ha'
      simp only [List.mem_singleton] at ha'
      subst ha'
      simp only [Prod.mk.injEq] at e
      exact ⟨b.2.2, e.2.2.symm⟩
    obtain ⟨k', rfl⟩ := hk
    split at h
    · cases h
    · have hg : group ((1, Spec.dec y) :: k') 1 = some (Spec.dec y) := by simp [group]
      rw [hg, Option.getD_some, dec_eq, pyInt_natStr, okBind] at h
      cases hmo : pyInt ((group ((1, natStr y) :: k') 2).getD []) with
      | error e => rw [hmo] at h; cases h
      | ok mo =>
      rw [hmo, okBind] at h
      cases hd : pyInt ((group ((1, natStr y) :: k') 3).getD []) with
      | error e => rw [hd] at h; cases h
      | ok d =>
      rw [hd, okBind] at h
      cases hh : pyInt ((group ((1, natStr y) :: k') 4).getD []) with
      | error e => rw [hh] at h; cases h
      | ok hh' =>
      rw [hh, okBind] at h
      cases hmi : pyInt ((group ((1, natStr y) :: k') 5).getD []) with
      | error e => rw [hmi] at h; cases h
      | ok mi =>
      rw [hmi, okBind] at h
      cases hs : pyInt ((group ((1, natStr y) :: k') 6).getD []) with
      | error e => rw [hs] at h; cases h
      | ok sec =>
      rw [hs, okBind] at h
      cases hus : pyNat (((group ((1, natStr y) :: k') 7).getD []) ++ List.replicate (6 - ((group ((1, natStr y) :: k') 7).getD []).length) '0') with
      | error e => rw [hus] at h; cases h
      | ok us =>
      rw [hus, okBind] at h
      unfold mkDate at h
      split at h
      · rename_i hv
        rw [okBind] at h
        split at h
        · injection h with h
          subst h
          refine ⟨?_, hv.2.2.1, hv.2.2.2.1, hv.2.2.2.2.1, ?_⟩
          · show ((y : Int)).toNat = y; omega
          · have := hv.2.2.2.2.2
            have h31 : ∀ a b, daysIn a b ≤ 31 := by
              intro a b; unfold daysIn; split
              · split <;> omega
              · split <;> omega
            exact Nat.le_trans this (h31 _ _)
        · cases h
      · cases h

theorem two2_len {n : Nat} (h : n ≤ 31) : (two2 n).length = 2 := by
  have : ∀ n ≤ 31, (two2 n).length = 2 := by decide
  exact this n h

theorem date_len {y : Nat} {rest t : Str} {prec : Num} (h1 : 1000 ≤ y) (h2 : y ≤ 9999) (hp : 0 < prec.f.val → 0 ≤ truncLog10 prec.f.val)
    (h : isoToSexDate (Spec.dec y ++ rest) prec = .ok t) : t.length = 17 := by
  have hdt : ∀ dt : DateTime, strptime strptimeFrac (Spec.dec y ++ rest) = .ok dt ∨ strptime strptimeWhole (Spec.dec y ++ rest) = .ok dt →
      dt.year = y ∧ 1 ≤ dt.month ∧ dt.month ≤ 12 ∧ 1 ≤ dt.day ∧ dt.day ≤ 31 := by
    rintro dt (hd | hd)
    · exact strptime_year h1 h2 hd
    · exact strptime_year h1 h2 hd
  have fr : ∀ (F : F64) (n : Nat), n ≠ 0 → (((fmtF n F).dropWhile (· ≠ '.')).drop 1).length = n := by
    rintro ⟨b, x⟩ n hn
    have l1 : (Spec.fixed n (roundEven (x * (10 ^ n : Nat)) % 10 ^ n)).length = n :=
      fixed_length (by omega) (Nat.mod_lt _ (Nat.pos_of_ne_zero (by simp)))
    cases b with
    | false => rw [fmtF_pos, decText_append hn, dropWhile_dot _ _ (natStr_mem _)]; exact l1
    | true =>
      rw [fmtF_neg, List.dropWhile_cons_of_pos (by decide), decText_append hn, dropWhile_dot _ _ (natStr_mem _)]; exact l1
  have tail : ∀ dt : DateTime, dt.year = y ∧ 1 ≤ dt.month ∧ dt.month ≤ 12 ∧ 1 ≤ dt.day ∧ dt.day ≤ 31 → backCore dt prec = .ok t → t.length = 17 := by
    rintro dt ⟨e, m1, m2, d1, d2⟩ hb
    unfold backCore at hb
    split at hb
    · cases hb
    · rename_i hv
      have hp := hp (not_le.1 hv)
      injection hb with hb
      generalize hn : (if 6 - truncLog10 prec.f.val ≤ 0 then 1 else (6 - truncLog10 prec.f.val).toNat) = n at hb
      have hn1 : n ≠ 0 ∧ n ≤ 6 := by rw [← hn]; split <;> omega
      have := fr (fday (dt.us / 1000000) (dt.us % 1000000)) n hn1.1
      rw [← hb]
      simp only [List.length_append, List.length_cons, List.length_nil, two2_len (show dt.month ≤ 31 by omega), two2_len d2, e,
        natStr_length (n := y) (k := 3) (by omega) (by omega) (by omega), ljust, List.length_replicate]
      omega
  cases hf : strptime strptimeFrac (Spec.dec y ++ rest) with
  | ok dt => rw [back_frac hf] at h; exact tail dt (hdt dt (.inl hf)) h
  | error e =>
    by_cases he : e = .valueError
    · subst he
      cases hw : strptime strptimeWhole (Spec.dec y ++ rest) with
      | ok dt => rw [back_whole hf hw] at h; exact tail dt (hdt dt (.inr hw)) h
      | error e =>
        unfold isoToSexDate at h
        simp only [hf, hw] at h
        cases h
    · unfold isoToSexDate at h
      rw [hf] at h
      cases e <;> first | exact absurd rfl he | cases h

end Verif.Sex
