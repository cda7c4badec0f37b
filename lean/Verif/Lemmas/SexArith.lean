import Verif.Lemmas.SexRead
/-
  Verif.Lemmas.SexArith : error analysis of the conversions between sexagesimal and decimal degrees.
-/
namespace Verif.Sex
open Verif Flt

theorem add_pos {a b : ℚ} (ha : 0 ≤ a) (hb : 0 ≤ b) : add ⟨false, a⟩ ⟨false, b⟩ = ⟨false, rnd (a + b)⟩ := by
  show ofRat (a + b) false = _
  exact ofRat_nonneg (by linarith)

theorem sub_pos' {a b : ℚ} (h : b ≤ a) : sub ⟨false, a⟩ ⟨false, b⟩ = ⟨false, rnd (a - b)⟩ := by
  show ofRat (a + -b) false = _
  rw [← sub_eq_add_neg]
  exact ofRat_nonneg (by linarith)

theorem sub_neg' {a b : ℚ} (h : a < b) : sub ⟨false, a⟩ ⟨false, b⟩ = ⟨true, rnd (b - a)⟩ := by
  show ofRat (a + -b) false = _
  unfold ofRat
  rw [if_neg (by linarith), if_pos (by linarith)]
  congr 2; ring

theorem mul_pos' (a b : ℚ) : mul ⟨false, a⟩ ⟨false, b⟩ = ⟨false, rnd (a * b)⟩ := rfl
theorem div_pos' (a b : ℚ) : div ⟨false, a⟩ ⟨false, b⟩ = ⟨false, rnd (a / b)⟩ := rfl

theorem i3600 : ofInt 3600 = ⟨false, 3600⟩ := ofInt_nat (n := 3600) (by norm_num)
theorem i60 : ofInt 60 = ⟨false, 60⟩ := ofInt_nat (n := 60) (by norm_num)
theorem i100 : ofInt 100 = ⟨false, 100⟩ := ofInt_nat (n := 100) (by norm_num)

theorem rnd_natcast {q : ℚ} {k : Nat} (h : k < 2 ^ 53) (e : q = k) : rnd q = k := by rw [e, rnd_nat h]

theorem trunc_nat {x : ℚ} {k : Nat} (h1 : (k : ℚ) ≤ x) (h2 : x < k + 1) : trunc ⟨false, x⟩ = (k : Int) := by
  show x.floor = (k : Int)
  exact Int.floor_eq_iff.mpr ⟨by exact_mod_cast h1, by exact_mod_cast h2⟩

/-! ### the total number of seconds -/

/-- a result near its exact value -/
theorem rnd_near {q : ℚ} (hq : 0 ≤ q) : q - q / 2 ^ 53 ≤ rnd q ∧ rnd q ≤ q + q / 2 ^ 53 := by
  have := rnd_err hq
  rw [abs_le] at this
  constructor <;> linarith

theorem total_seconds {h m : Nat} {σ : ℚ} (hh : h < 100) (hm : m < 100) (hσ : 0 ≤ σ) :
    add (add (mul ⟨false, h⟩ (ofInt 3600)) (mul ⟨false, m⟩ (ofInt 60))) ⟨false, σ⟩ = ⟨false, rnd (3600 * h + 60 * m + σ)⟩ := by
  rw [i3600, i60, mul_pos', mul_pos', rnd_natcast (k := 3600 * h) (by omega) (by push_cast; ring),
    rnd_natcast (k := 60 * m) (by omega) (by push_cast; ring), add_pos (by positivity) (by positivity),
    rnd_natcast (k := 3600 * h + 60 * m) (by omega) (by push_cast; ring), add_pos (by positivity) hσ]
  push_cast; rfl

theorem total_minutes {h : Nat} {μ : ℚ} (hh : h < 100) (hμ : 0 ≤ μ) :
    add (add (mul ⟨false, h⟩ (ofInt 3600)) (mul ⟨false, μ⟩ (ofInt 60))) ⟨false, 0⟩ = ⟨false, rnd (3600 * h + rnd (60 * μ))⟩ := by
  rw [i3600, i60, mul_pos', mul_pos', rnd_natcast (k := 3600 * h) (by omega) (by push_cast; ring),
    add_pos (by positivity) (rnd_nonneg _), add_pos (rnd_nonneg _) (le_refl _), add_zero, rnd_rnd, mul_comm μ]
  push_cast; rfl

theorem total_seconds_near {h m : Nat} {w : ℚ} (hw : 0 ≤ w) :
    |rnd (3600 * h + 60 * m + rnd w) - (3600 * h + 60 * m + w)| ≤ (3600 * h + 60 * m + w) / 2 ^ 51 := by
  have h1 := rnd_near hw
  have h0 := rnd_nonneg w
  have hh : (0 : ℚ) ≤ h := by positivity
  have hm : (0 : ℚ) ≤ m := by positivity
  have h2 := rnd_near (q := 3600 * h + 60 * m + rnd w) (by positivity)
  rw [abs_le]
  constructor <;> linarith

theorem total_minutes_near {h : Nat} {ν : ℚ} (hν : 0 ≤ ν) :
    |rnd (3600 * h + rnd (60 * rnd ν)) - (3600 * h + 60 * ν)| ≤ (3600 * h + 60 * ν) / 2 ^ 51 := by
  have h1 := rnd_near hν
  have h0 := rnd_nonneg ν
  have hh : (0 : ℚ) ≤ h := by positivity
  have h2 := rnd_near (q := 60 * rnd ν) (by positivity)
  have h20 := rnd_nonneg (60 * rnd ν)
  have h3 := rnd_near (q := 3600 * h + rnd (60 * rnd ν)) (by positivity)
  rw [abs_le]
  constructor <;> linarith

/-! ### right ascension: degrees and back -/

/-- the float nearest to 1/240 -/
def cRA : ℚ := mkRat 4803839602528529 (2 ^ 60)

theorem secToDegrees_eq : secToDegrees = ⟨false, cRA⟩ := by decide +kernel

theorem cRA_eq : cRA = 4803839602528529 / 2 ^ 60 := by rw [cRA, Rat.mkRat_eq_div]; norm_num

theorem ra_forward {T N : ℚ} (hN : 0 ≤ N) (hN2 : N ≤ 400000) (h : |T - N| ≤ N / 2 ^ 51) (D : Nat) :
    |(roundEven (rnd (T * cRA) * (10 ^ D : Nat)) : ℚ) / 10 ^ D - N / 240| ≤ 1 / 2 / 10 ^ D + 1 / 10 ^ 11 := by
  rw [abs_le] at h
  have hT : 0 ≤ T := by linarith
  rw [cRA_eq]
  have h1 := rnd_near (q := T * (4803839602528529 / 2 ^ 60)) (by positivity)
  have h0 := rnd_nonneg (T * (4803839602528529 / 2 ^ 60))
  generalize rnd (T * (4803839602528529 / 2 ^ 60)) = V at *
  have h2 := roundEven_err (q := V * (10 ^ D : Nat)) (by positivity)
  generalize roundEven (V * (10 ^ D : Nat)) = K at *
  have hP : (0 : ℚ) < 10 ^ D := by positivity
  have e : (K : ℚ) / 10 ^ D - N / 240 = (K - V * (10 ^ D : Nat)) / 10 ^ D + (V - N / 240) := by
    push_cast; field_simp; ring
  rw [e]
  have a1 : |((K : ℚ) - V * (10 ^ D : Nat)) / 10 ^ D| ≤ 1 / 2 / 10 ^ D := by
    rw [abs_div, abs_of_pos hP]; exact div_le_div_of_nonneg_right h2 hP.le
  have a2 : |V - N / 240| ≤ 1 / 10 ^ 11 := by
    rw [abs_le]; constructor <;> linarith
  exact (abs_add_le _ _).trans (by linarith)

theorem ra_backward {y N p : ℚ} (hy : 0 ≤ y) (hN : 0 ≤ N) (hN2 : N ≤ 400000) (hp : 1 / 10 ^ 9 ≤ p) (hp1 : p ≤ 1)
    (h : |y - N / 240| ≤ 1 / 2 * p + 1 / 10 ^ 11) : |rnd (rnd y / cRA) - N| ≤ 123 * p := by
  rw [abs_le] at h
  have h1 := rnd_near hy
  have h0 := rnd_nonneg y
  rw [cRA_eq]
  have h2 := rnd_near (q := rnd y / (4803839602528529 / 2 ^ 60)) (by positivity)
  rw [abs_le]
  constructor <;> linarith

/-- whole minutes of time convert without error -/
theorem ra_exact {M D K : Nat} (hM : M < 2 ^ 40) (hK : (K : ℚ) / 10 ^ D = M / 4) :
    roundEven (rnd ((60 * M : ℚ) * cRA) * (10 ^ D : Nat)) = K ∧ rnd (rnd ((K : ℚ) / 10 ^ D) / cRA) = 60 * M := by
  rcases Nat.eq_zero_or_pos M with rfl | h0
  · have hK0 : K = 0 := by
      have hP : (0 : ℚ) < 10 ^ D := by positivity
      have : (K : ℚ) = 0 := by
        have := hK
        simp only [Nat.cast_zero, zero_div] at this
        rcases div_eq_zero_iff.mp this with h | h
        · exact h
        · exact absurd h hP.ne'
      exact_mod_cast this
    subst hK0
    simp [roundEven]
    decide
  · have hMq : (0 : ℚ) < M := by exact_mod_cast h0
    have r4 : Rep ((M : ℚ) / 4) := by
      have := Rep.of_dyadic (k := M) (e := -2) h0 (by omega)
      have e : two (-2) = 1 / 4 := by rw [two_eq]; norm_num
      rw [e] at this
      rwa [div_eq_mul_one_div]
    have e1 : rnd ((60 * M : ℚ) * cRA) = M / 4 := by
      apply rnd_snap r4
      rw [cRA_eq, abs_le]
      constructor <;> linarith
    constructor
    · rw [e1, ← hK]
      apply roundEven_eq (by positivity)
      have hP : (10 : ℚ) ^ D ≠ 0 := by positivity
      push_cast
      rw [div_mul_cancel₀ _ hP]; simp
    · rw [hK, rnd_rep r4]
      have r60 : Rep ((60 * M : Nat) : ℚ) := Rep.of_nat (by omega) (by omega)
      have := rnd_snap (q := (M : ℚ) / 4 / cRA) r60 (by
        rw [cRA_eq, abs_le]
        push_cast
        constructor <;> linarith)
      rw [this]; push_cast; rfl

/-! ### splitting seconds into hours, minutes and seconds -/

/-- the whole hours (degrees) -/
theorem split_hours {rev ρ u : ℚ} {h : Nat} (hh : h < 200) (hu : 1 / 1000000 ≤ u) (h0 : 0 ≤ rev)
    (hn : |rev - (3600 * h + ρ)| ≤ 0.31 * u) (hc : (ρ = 0 ∧ rev = 3600 * h) ∨ (u ≤ ρ ∧ ρ ≤ 3600 - u)) :
    trunc (div ⟨false, rev⟩ (ofInt 3600)) = (h : Int) ∧
    sub ⟨false, rev⟩ (mul (ofInt (h : Int)) (ofInt 3600)) = ⟨false, rnd (rev - 3600 * h)⟩ ∧ 3600 * h ≤ rev := by
  have hle : (3600 : ℚ) * h ≤ rev := by
    rcases hc with ⟨_, h⟩ | ⟨h1, h2⟩
    · linarith
    · rw [abs_le] at hn; linarith
  have hhq : (h : ℚ) ≤ 199 := by exact_mod_cast (by omega : h ≤ 199)
  have hh0 : (0 : ℚ) ≤ h := by positivity
  refine ⟨?_, ?_, hle⟩
  · rw [i3600, div_pos']
    rcases hc with ⟨_, h⟩ | ⟨h1, h2⟩
    · rw [h, mul_div_cancel_left₀ _ (by norm_num), rnd_nat (by omega)]
      exact trunc_nat (le_refl _) (by linarith)
    · rw [abs_le] at hn
      have := rnd_near (q := rev / 3600) (by positivity)
      apply trunc_nat <;> linarith
  · rw [i3600, ofInt_nat (by omega), mul_pos', rnd_natcast (k := h * 3600) (by omega) (by push_cast; ring), sub_pos' (by push_cast; linarith)]
    push_cast; rw [mul_comm]

/-- the last field -/
theorem hundredF_eq {x : F64} {n k : Nat} (hn : n ≤ 6) (hk : k < 100 * 10 ^ n) (h : |x.val - (k : ℚ) / 10 ^ n| ≤ 0.45 / 10 ^ n) :
    hundredF n x = Spec.fixed 2 (k / 10 ^ n) ++ (if n = 0 then [] else '.' :: Spec.fixed n (k % 10 ^ n)) := by
  have hP : (0 : ℚ) < 10 ^ n := by positivity
  have hP1 : (1 : ℚ) ≤ 10 ^ n := one_le_pow₀ (by norm_num)
  have hP3 : (10 : ℚ) ^ n ≤ 1000000 := by
    have : (10 : ℚ) ^ n ≤ 10 ^ 6 := pow_le_pow_right₀ (by norm_num) hn
    linarith
  have hk0 : (0 : ℚ) ≤ k / 10 ^ n := by positivity
  have hk1 : (k : ℚ) / 10 ^ n ≤ 100 := by
    rw [div_le_iff₀ hP]; exact_mod_cast hk.le
  have hq : (0.45 : ℚ) / 10 ^ n ≤ 0.45 := div_le_self (by norm_num) hP1
  rw [abs_le] at h
  unfold hundredF
  have e1 : add (ofInt 100) x = ⟨false, rnd (100 + x.val)⟩ := by
    rw [i100]
    show ofRat (100 + x.val) (false && x.neg) = _
    exact ofRat_nonneg (by linarith)
  have hr := rnd_near (q := 100 + x.val) (by linarith)
  have hp2 : 10 ^ n ≤ 10 ^ 6 := Nat.pow_le_pow_right (by norm_num) hn
  rw [e1, fmtF_near (k := 100 * 10 ^ n + k) (rnd_nonneg _)]
  · exact hundred_dec hk
  · generalize rnd (100 + x.val) = z at *
    have e2 : z * 10 ^ n - ((100 * 10 ^ n + k : Nat) : ℚ) = (z - (100 + (k : ℚ) / 10 ^ n)) * 10 ^ n := by
      push_cast; field_simp
    have t1 : (0.000001 : ℚ) ≤ 1 / 10 ^ n := by
      rw [le_div_iff₀ hP]; linarith
    have t2 : (0.45 : ℚ) / 10 ^ n = 0.45 * (1 / 10 ^ n) := by ring
    rw [t2] at h
    rw [e2, abs_mul, abs_of_pos hP]
    have : |z - (100 + (k : ℚ) / 10 ^ n)| ≤ 0.46 * (1 / 10 ^ n) := by
      rw [abs_le]; constructor <;> linarith
    calc _ ≤ 0.46 * (1 / 10 ^ n) * 10 ^ n := mul_le_mul_of_nonneg_right this hP.le
      _ = 0.46 := by field_simp
      _ < _ := by norm_num

theorem natStr_mod : ∀ n, n < 200 → (natStr (100 + n)).drop 1 = Spec.fixed 2 (n % 100) := by
  have h : (List.range 200).all (fun n => decide ((natStr (100 + n)).drop 1 = Spec.fixed 2 (n % 100))) = true := by decide +kernel
  intro n hn
  have := List.all_eq_true.1 h n (List.mem_range.2 hn)
  simpa using this

/-- two digits, without the hundreds -/
theorem hundred_mod {n : Nat} (h : n < 200) : hundred (n : Int) = Spec.fixed 2 (n % 100) := by
  unfold hundred
  rw [show (100 + (n : Int)) = ((100 + n : Nat) : Int) from by push_cast; rfl, ofInt_nat (by omega),
    fmtF_near (k := 100 + n) (by positivity) (by simp)]
  simp only [decText, Nat.pow_zero, Nat.div_one, if_true, List.append_nil]
  exact natStr_mod n h

/-- the text after the whole hours: minutes with `n` decimals -/
def tailText (n k : Nat) : Str := Spec.fixed 2 (k / 10 ^ n) ++ (if n = 0 then [] else '.' :: Spec.fixed n (k % 10 ^ n))

theorem kdiv_bounds {n k : Nat} (hn : n ≤ 6) (hk : k < 60 * 10 ^ n) :
    (k = 0 ∨ (1 : ℚ) / 10 ^ n ≤ k / 10 ^ n) ∧ (k : ℚ) / 10 ^ n ≤ 60 - 1 / 10 ^ n ∧ (1 : ℚ) / 1000000 ≤ 1 / 10 ^ n ∧ (1 : ℚ) / 10 ^ n ≤ 1 ∧ (0 : ℚ) ≤ k / 10 ^ n := by
  have hP : (0 : ℚ) < 10 ^ n := by positivity
  have hP1 : (1 : ℚ) ≤ 10 ^ n := one_le_pow₀ (by norm_num)
  have hP3 : (10 : ℚ) ^ n ≤ 1000000 := by
    have : (10 : ℚ) ^ n ≤ 10 ^ 6 := pow_le_pow_right₀ (by norm_num) hn
    linarith
  refine ⟨?_, ?_, ?_, ?_, by positivity⟩
  · rcases Nat.eq_zero_or_pos k with h | h
    · exact .inl h
    · right; exact div_le_div_of_nonneg_right (by exact_mod_cast h) hP.le
  · have : (k : ℚ) + 1 ≤ 60 * 10 ^ n := by exact_mod_cast hk
    rw [le_sub_iff_add_le, ← add_div, div_le_iff₀ hP]; exact this
  · exact one_div_le_one_div_of_le hP hP3
  · rw [div_le_one hP]; exact hP1

/-- minutes forms: the text of hours and decimal minutes -/
theorem minutes_text' {rev : ℚ} {h n k : Nat} (hh : h < 200) (hn : n ≤ 2) (hk : k < 60 * 10 ^ n) (h0 : 0 ≤ rev)
    (hr : |rev - (3600 * h + 60 * ((k : ℚ) / 10 ^ n))| ≤ 0.31 * (60 * (1 / 10 ^ n))) (he : k = 0 → rev = 3600 * h) :
    let revDeg := trunc (div ⟨false, rev⟩ (ofInt 3600))
    let rev1 := sub ⟨false, rev⟩ (mul (ofInt revDeg) (ofInt 3600))
    hundred revDeg = Spec.fixed 2 (h % 100) ∧ hundredF n (div rev1 (ofInt 60)) = tailText n k := by
  obtain ⟨k1, k2, k3, k4, k5⟩ := kdiv_bounds (by omega : n ≤ 6) hk
  have sp := split_hours (rev := rev) (ρ := 60 * ((k : ℚ) / 10 ^ n)) (u := 60 * (1 / 10 ^ n)) hh (by linarith) h0 hr (by
    rcases k1 with rfl | k1
    · left; exact ⟨by simp, he rfl⟩
    · right; constructor <;> linarith)
  obtain ⟨s1, s2, s3⟩ := sp
  simp only [s1, s2, hundred_mod hh, true_and]
  rw [i60, div_pos']
  apply hundredF_eq (by omega) (by omega)
  have n1 := rnd_near (q := rev - 3600 * h) (by linarith)
  have n0 := rnd_nonneg (rev - 3600 * h)
  have n2 := rnd_near (q := rnd (rev - 3600 * h) / 60) (by positivity)
  have t : (0.45 : ℚ) / 10 ^ n = 0.45 * (1 / 10 ^ n) := by ring
  show |rnd (rnd (rev - 3600 * h) / 60) - _| ≤ _
  rw [t]
  rw [abs_le] at hr ⊢
  constructor <;> linarith

/-- seconds forms, right ascension: the text of hours, minutes and decimal seconds -/
theorem seconds_text' {rev : ℚ} {h m n k : Nat} (hh : h < 200) (hm : m < 60) (hn : n ≤ 6) (hk : k < 60 * 10 ^ n) (h0 : 0 ≤ rev)
    (hr : |rev - (3600 * h + 60 * m + (k : ℚ) / 10 ^ n)| ≤ 0.31 * (1 / 10 ^ n)) (he : k = 0 → rev = 3600 * h + 60 * m) :
    let revDeg := trunc (div ⟨false, rev⟩ (ofInt 3600))
    let rev1 := sub ⟨false, rev⟩ (mul (ofInt revDeg) (ofInt 3600))
    let revMin := trunc (div rev1 (ofInt 60))
    let rev2 := sub rev1 (mul (ofInt revMin) (ofInt 60))
    hundred revDeg = Spec.fixed 2 (h % 100) ∧ hundred revMin = Spec.fixed 2 m ∧ hundredF n rev2 = tailText n k := by
  obtain ⟨k1, k2, k3, k4, k5⟩ := kdiv_bounds hn hk
  have hmq : (m : ℚ) ≤ 59 := by exact_mod_cast (by omega : m ≤ 59)
  have hm0 : (0 : ℚ) ≤ m := by positivity
  have sp := split_hours (rev := rev) (ρ := 60 * m + ((k : ℚ) / 10 ^ n)) (u := 1 / 10 ^ n) hh k3 h0 (by rw [← add_assoc]; exact hr) (by
    rcases k1 with rfl | k1
    · rcases Nat.eq_zero_or_pos m with rfl | hmp
      · left; exact ⟨by simp, by simpa using he rfl⟩
      · right
        have : (1 : ℚ) ≤ m := by exact_mod_cast hmp
        constructor <;> linarith
    · right; constructor <;> linarith)
  obtain ⟨s1, s2, s3⟩ := sp
  have n1 := rnd_near (q := rev - 3600 * h) (by linarith)
  have n0 := rnd_nonneg (rev - 3600 * h)
  rw [abs_le] at hr
  have q : trunc (div ⟨false, rnd (rev - 3600 * h)⟩ (ofInt 60)) = (m : Int) ∧ (60 : ℚ) * m ≤ rnd (rev - 3600 * h) := by
    rw [i60, div_pos']
    rcases k1 with rfl | k1
    · have e : rev - 3600 * h = ((60 * m : Nat) : ℚ) := by rw [he rfl]; push_cast; ring
      rw [e, rnd_nat (by omega)]
      push_cast
      rw [mul_div_cancel_left₀ _ (by norm_num : (60 : ℚ) ≠ 0), rnd_nat (by omega)]
      exact ⟨trunc_nat (le_refl _) (by linarith), le_refl _⟩
    · have n2 := rnd_near (q := rnd (rev - 3600 * h) / 60) (by positivity)
      exact ⟨by apply trunc_nat <;> linarith, by linarith⟩
  obtain ⟨q1, q2⟩ := q
  simp only [s1, s2, q1, hundred_mod hh, hundred_eq (show m < 100 by omega), true_and]
  rw [i60, ofInt_nat (by omega), mul_pos', rnd_natcast (q := (m : ℚ) * 60) (k := m * 60) (by omega) (by push_cast; ring), sub_pos' (by push_cast; linarith)]
  apply hundredF_eq hn (by omega)
  show |rnd (rnd (rev - 3600 * h) - ((m * 60 : Nat) : ℚ)) - _| ≤ _
  have n3 := rnd_near (q := rnd (rev - 3600 * h) - ((m * 60 : Nat) : ℚ)) (by push_cast; linarith)
  have t : (0.45 : ℚ) / 10 ^ n = 0.45 * (1 / 10 ^ n) := by ring
  rw [t, abs_le]
  push_cast at n3 ⊢
  constructor <;> linarith

theorem minutes_text {rev : ℚ} {h n k : Nat} (hh : h < 100) (hn : n ≤ 2) (hk : k < 60 * 10 ^ n) (h0 : 0 ≤ rev)
    (hr : |rev - (3600 * h + 60 * ((k : ℚ) / 10 ^ n))| ≤ 0.31 * (60 * (1 / 10 ^ n))) (he : k = 0 → rev = 3600 * h) :
    let revDeg := trunc (div ⟨false, rev⟩ (ofInt 3600))
    let rev1 := sub ⟨false, rev⟩ (mul (ofInt revDeg) (ofInt 3600))
    hundred revDeg = Spec.fixed 2 h ∧ hundredF n (div rev1 (ofInt 60)) = tailText n k := by
  have := minutes_text' (h := h) (by omega) hn hk h0 hr he
  rwa [Nat.mod_eq_of_lt hh] at this

theorem seconds_text {rev : ℚ} {h m n k : Nat} (hh : h < 100) (hm : m < 60) (hn : n ≤ 6) (hk : k < 60 * 10 ^ n) (h0 : 0 ≤ rev)
    (hr : |rev - (3600 * h + 60 * m + (k : ℚ) / 10 ^ n)| ≤ 0.31 * (1 / 10 ^ n)) (he : k = 0 → rev = 3600 * h + 60 * m) :
    let revDeg := trunc (div ⟨false, rev⟩ (ofInt 3600))
    let rev1 := sub ⟨false, rev⟩ (mul (ofInt revDeg) (ofInt 3600))
    let revMin := trunc (div rev1 (ofInt 60))
    let rev2 := sub rev1 (mul (ofInt revMin) (ofInt 60))
    hundred revDeg = Spec.fixed 2 h ∧ hundred revMin = Spec.fixed 2 m ∧ hundredF n rev2 = tailText n k := by
  have := seconds_text' (h := h) (by omega) hm hn hk h0 hr he
  rwa [Nat.mod_eq_of_lt hh] at this

end Verif.Sex
