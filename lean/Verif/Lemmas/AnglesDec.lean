import Verif.Lemmas.AnglesRa
/-
  Declinations written for arbitrary decimal degrees.
-/
namespace Verif.Sex
open Verif Flt

/-- `degDeclToSexDecl` from the arc seconds on -/
def declBody (revSign : Str) (rev : F64) (prec : Num) : Py Str :=
  let revDeg := trunc (div rev (ofInt 3600))
  let rev := sub rev (mul (ofInt revDeg) (ofInt 3600))
  if prec.f = ofRat (mkRat 6 10) then pure (ljust 12 (revSign ++ hundred revDeg ++ [' '] ++ hundredF 2 (div rev (ofInt 60))))
  else if prec.f = ofInt 6 then pure (ljust 12 (revSign ++ hundred revDeg ++ [' '] ++ hundredF 1 (div rev (ofInt 60))))
  else if prec.f = ofInt 60 then pure (ljust 12 (revSign ++ hundred revDeg ++ [' '] ++ hundredF 0 (div rev (ofInt 60))))
  else do
    let revMin := trunc (div (add rev (mul (ofRat (mkRat 1 2)) prec.f)) (ofInt 60))
    let rev := sub rev (mul (ofInt revMin) (ofInt 60))
    let pdig ← precDigits prec
    pure (ljust 12 (revSign ++ hundred revDeg ++ [' '] ++ hundred revMin ++ [' '] ++ hundredF pdig rev))

theorem hundredF_val {x y : F64} (h : x.val = y.val) (n : Nat) : hundredF n x = hundredF n y := by
  have e : ∀ z : F64, add (ofInt 100) z = ofRat (100 + z.val) false := by
    intro z; rw [i100]; rfl
  unfold hundredF; rw [e, e, h]

theorem sub_valeq {x y : F64} (h : x.val = y.val) (z : F64) : (sub x z).val = (sub y z).val := by
  have e : ∀ (q : ℚ) (a b : Bool), (ofRat q a).val = (ofRat q b).val := by
    intro q a b
    unfold ofRat
    split
    · cases a <;> cases b <;> simp [F64.val]
    · rfl
  unfold sub add
  rw [h]; exact e _ _ _

theorem declBody_zero (s : Str) (p : Num) : declBody s ⟨true, 0⟩ p = declBody s ⟨false, 0⟩ p := by
  unfold declBody
  simp only
  rw [show trunc (div ⟨true, 0⟩ (ofInt 3600)) = 0 by decide +kernel, show trunc (div ⟨false, 0⟩ (ofInt 3600)) = 0 by decide +kernel,
    show sub ⟨true, 0⟩ (mul (ofInt 0) (ofInt 3600)) = ⟨true, 0⟩ by decide +kernel, show sub ⟨false, 0⟩ (mul (ofInt 0) (ofInt 3600)) = ⟨false, 0⟩ by decide +kernel]
  have hv : (div ⟨true, 0⟩ (ofInt 60)).val = (div ⟨false, 0⟩ (ofInt 60)).val := by decide +kernel
  have ht : ∀ y : F64, trunc (div (add ⟨true, 0⟩ y) (ofInt 60)) = trunc (div (add ⟨false, 0⟩ y) (ofInt 60)) := by
    intro y
    unfold add
    rw [show (F64.mk true 0).val = 0 by simp [F64.val], show (F64.mk false 0).val = 0 by simp [F64.val]]
    unfold ofRat
    split
    · cases y.neg
      · rfl
      · decide +kernel
    · rfl
  simp only [hundredF_val hv, ht]
  generalize trunc _ = M
  have : ∀ n, hundredF n (sub ⟨true, 0⟩ (mul (ofInt M) (ofInt 60))) = hundredF n (sub ⟨false, 0⟩ (mul (ofInt M) (ofInt 60))) :=
    fun n => hundredF_val (sub_valeq (by simp [F64.val]) _) n
  simp only [this]

theorem numeral_head {n : Spec.Numeral} (hn : n.Valid) : n.text.head? = some '-' ↔ n.sign = some '-' := by
  obtain ⟨h0, h1, h2, h3⟩ := hn
  have dig : ∀ c ∈ c! "0123456789", c ≠ '-' := by decide
  unfold Spec.Numeral.text
  cases hs : n.sign with
  | some c => simp
  | none =>
    simp only [Option.toList, List.nil_append, reduceCtorEq, iff_false]
    cases hw : n.whole with
    | cons c l => simp; rintro rfl; exact dig _ (h1 '-' (by rw [hw]; simp)) rfl
    | nil =>
      cases hf : n.frac with
      | none => simp
      | some f => simp

theorem dec_start {n : Spec.Numeral} (hn : n.Valid) (p : Num) :
    degDeclToSexDecl n.text p = declBody [if n.sign = some '-' then '-' else '+'] ⟨false, rnd (rnd n.size / cDec)⟩ p := by
  have h0 := size_nonneg n
  have hr := rnd_nonneg (rnd n.size / cDec)
  rw [degDeclToSexDecl, parse_numeral hn, okBind, arcsecToDegrees_eq]
  by_cases hs : n.sign = some '-'
  · have hh := (numeral_head hn).2 hs
    simp only [hs, decide_true, if_true, hh, or_true]
    have hd : div ⟨true, rnd n.size⟩ ⟨false, cDec⟩ = ⟨true, rnd (rnd n.size / cDec)⟩ := rfl
    rw [hd]
    rcases hr.eq_or_lt with h | h
    · rw [← h]
      have : ¬ ((F64.mk true 0).val < 0) := by simp [F64.val]
      rw [if_neg this]
      exact declBody_zero _ _
    · have hv : (F64.mk true (rnd (rnd n.size / cDec))).val < 0 := by show -(rnd (rnd n.size / cDec)) < 0; linarith
      rw [if_pos hv]
      rfl
  · have hh : ¬ n.text.head? = some '-' := fun h => hs ((numeral_head hn).1 h)
    have hd : div ⟨false, rnd n.size⟩ ⟨false, cDec⟩ = ⟨false, rnd (rnd n.size / cDec)⟩ := rfl
    have hv : ¬ ((F64.mk false (rnd (rnd n.size / cDec))).val < 0) := not_lt.2 hr
    simp only [hs, decide_false, hd, hv, hh, or_self, if_false]
    rfl

/-- the total number of arc seconds of a declination -/
theorem dec_total {q : ℚ} (h0 : 0 ≤ q) (hq : q ≤ 90) : |rnd (rnd q / cDec) - 3600 * q| ≤ 1 / 2 / 10 ^ 9 ∧ 0 ≤ rnd (rnd q / cDec) := by
  refine ⟨?_, rnd_nonneg _⟩
  have r1 := rnd_near h0
  have r0 := rnd_nonneg q
  rw [cDec_eq]
  have r2 := rnd_near (q := rnd q / (5124095576030431 / 2 ^ 64)) (by positivity)
  generalize rnd (rnd q / (5124095576030431 / 2 ^ 64)) = w at *
  generalize rnd q = v at *
  rw [abs_le]; constructor <;> linarith

theorem dec_min {n : Spec.Numeral} (hn : n.Valid) (hq : n.size ≤ 90) {p : Num} {d : Nat} (hp : MinPrec p d) :
    ∃ h k : Nat, h ≤ 90 ∧ k ≤ 60 * 10 ^ d ∧ degDeclToSexDecl n.text p = .ok (ljust 12 ([if n.sign = some '-' then '-' else '+'] ++ Spec.fixed 2 h ++ [' '] ++ tailText d k)) ∧
      |3600 * (h : ℚ) + 60 * (k / 10 ^ d) - 3600 * n.size| ≤ 60 * (1 / 2 / 10 ^ d) + 1 / 10 ^ 9 := by
  obtain ⟨ht, h0⟩ := dec_total (size_nonneg n) hq
  rw [dec_start hn]
  generalize hrev : rnd (rnd n.size / cDec) = rev at *
  rw [abs_le] at ht
  have hrr : Repr rev := hrev ▸ repr_rnd _
  obtain ⟨h, a1, a2, a3, a4, a5⟩ := split_exact hrr h0 (U := 3600) (by norm_num) (by norm_num) (by norm_num; linarith)
  push_cast at a1 a2 a3 a4 a5
  have hh : h ≤ 90 := by
    have : (h : ℚ) < 91 := by linarith
    have : h < 91 := by exact_mod_cast this
    omega
  have hr := rnd_near (q := (rev - 3600 * h) / 60) (by linarith)
  obtain ⟨k, c1, c2⟩ := hundredF_round (n := d) (y := ⟨false, rnd ((rev - 3600 * h) / 60)⟩) (w := (rev - 3600 * h) / 60) (by have := hp.d2; omega) (by
    simp only [F64.val, Bool.false_eq_true, if_false]; rw [abs_le]; constructor <;> linarith) (by linarith) (by linarith) (.inr (by linarith))
  refine ⟨h, k, hh, tail_le (by have := hp.d2; omega) c2 (by linarith), ?_, ?_⟩
  · unfold declBody
    simp only
    rw [a1, a2, i60, div_pos', hp.eq]
    rw [hundred_eq (by omega)]
    have := hp.d2
    obtain rfl | rfl | rfl : d = 0 ∨ d = 1 ∨ d = 2 := by omega
    · simp only [show ¬ ((0 : Nat) = 2) by decide, show ¬ ((0 : Nat) = 1) by decide, if_false]
      rw [if_neg (by decide +kernel), if_neg (by decide +kernel), if_pos i60, c1]; rfl
    · simp only [show ¬ ((1 : Nat) = 2) by decide, if_false, if_true]
      rw [if_neg (by decide +kernel), c1]; rfl
    · simp only [if_true]
      rw [c1]; rfl
  · rw [abs_le] at c2 ⊢
    constructor <;> linarith

/-- seconds of arc; the sum of 3600|q| and half a unit must not be too close to a whole minute -/
theorem dec_sec {n : Spec.Numeral} (hn : n.Valid) (hq : n.size ≤ 90) {p : Num} {d : Nat} (hd : d ≤ 3) (hp : SecPrec p d)
    (htie : ∀ j : Nat, 1 / 10 ^ 9 < |3600 * n.size + 1 / 2 / 10 ^ d - 60 * j|) :
    ∃ h m k : Nat, h ≤ 90 ∧ m ≤ 60 ∧ k < 60 * 10 ^ d ∧ (m = 60 → k = 0) ∧
      degDeclToSexDecl n.text p = .ok (ljust 12 ([if n.sign = some '-' then '-' else '+'] ++ Spec.fixed 2 h ++ [' '] ++ Spec.fixed 2 m ++ [' '] ++ tailText d k)) ∧
      |3600 * (h : ℚ) + 60 * m + k / 10 ^ d - 3600 * n.size| ≤ 1 / 2 / 10 ^ d + 1 / 10 ^ 9 := by
  obtain ⟨ht, h0⟩ := dec_total (size_nonneg n) hq
  rw [dec_start hn]
  generalize hrev : rnd (rnd n.size / cDec) = rev at *
  rw [abs_le] at ht
  have hrr : Repr rev := hrev ▸ repr_rnd _
  obtain ⟨h, a1, a2, a3, a4, a5⟩ := split_exact hrr h0 (U := 3600) (by norm_num) (by norm_num) (by norm_num; linarith)
  push_cast at a1 a2 a3 a4 a5
  have hh : h ≤ 90 := by
    have : (h : ℚ) < 91 := by linarith
    have : h < 91 := by exact_mod_cast this
    omega
  obtain ⟨g, g1, g0, g2⟩ := hp.half
  rw [abs_le] at g2
  generalize hx : rev - 3600 * h = x at *
  have hP : (0 : ℚ) < 10 ^ d := by positivity
  have hP1 : (1 : ℚ) ≤ 10 ^ d := one_le_pow₀ (by norm_num)
  have hP3 : (10 : ℚ) ^ d ≤ 1000 := by
    have : (10 : ℚ) ^ d ≤ 10 ^ 3 := pow_le_pow_right₀ (by norm_num) hd
    linarith
  have u1 : (1 : ℚ) / 10 ^ d ≤ 1 := by rw [div_le_iff₀ hP]; linarith
  have u2 : (0.001 : ℚ) ≤ 1 / 10 ^ d := by rw [le_div_iff₀ hP]; linarith
  have uh : (1 : ℚ) / 2 / 10 ^ d = 1 / 2 * (1 / 10 ^ d) := by ring
  have hr := rnd_near (q := x + g) (by linarith)
  have ha : add ⟨false, x⟩ ⟨false, g⟩ = ⟨false, rnd (x + g)⟩ := add_pos a4 g0
  have hr0 := rnd_nonneg (x + g)
  have hrr2 := repr_rnd (x + g)
  generalize rnd (x + g) = t at *
  rw [uh] at g2 htie
  obtain ⟨m, b1, -, -, b4, b5⟩ := split_exact hrr2 hr0 (U := 60) (by norm_num) (by norm_num) (by norm_num; linarith)
  push_cast at b1 b4 b5
  have hm : m ≤ 60 := by
    have : (m : ℚ) < 61 := by linarith
    have : m < 61 := by exact_mod_cast this
    omega
  -- not close to a tie
  have lo : -(1 / 2 * (1 / 10 ^ d)) + 1 / 10 ^ 10 ≤ x - 60 * m := by
    have := htie (60 * h + m)
    push_cast at this
    rw [lt_abs] at this
    rcases this with this | this
    · linarith
    · exfalso; linarith
  have hi : x - 60 * m ≤ 60 - 1 / 2 * (1 / 10 ^ d) - 1 / 10 ^ 10 := by
    have := htie (60 * h + m + 1)
    push_cast at this
    rw [lt_abs] at this
    rcases this with this | this
    · exfalso; linarith
    · linarith
  have hs := sub_val (a := x) (b := 60 * m)
  have he : sub ⟨false, x⟩ (mul (ofInt m) (ofInt 60)) = sub ⟨false, x⟩ ⟨false, 60 * m⟩ := by
    rw [i60, ofInt_nat (by omega), mul_pos', rnd_natcast (k := m * 60) (by omega) (by push_cast; ring)]
    push_cast; rw [mul_comm]
  have hab : |x - 60 * m| ≤ 61 := by rw [abs_le]; constructor <;> linarith
  obtain ⟨k, c1, c2⟩ := hundredF_round (n := d) (y := sub ⟨false, x⟩ ⟨false, 60 * m⟩) (w := x - 60 * m) hd (by
    refine hs.trans ?_
    rw [div_le_iff₀ (by norm_num)]; linarith) (by linarith) (by linarith) (.inl (by rw [uh]; linarith))
  rw [uh, abs_le] at c2
  have hk : k < 60 * 10 ^ d := by
    have : (k : ℚ) / 10 ^ d < 60 := by linarith
    rw [div_lt_iff₀ hP] at this
    exact_mod_cast this
  refine ⟨h, m, k, hh, hm, hk, ?_, ?_, ?_⟩
  · rintro rfl
    push_cast at *
    have : (k : ℚ) / 10 ^ d < 1 / 10 ^ d := by linarith
    rw [div_lt_div_iff_of_pos_right hP] at this
    have : k < 1 := by exact_mod_cast this
    omega
  · unfold declBody
    simp only
    rw [a1, a2, if_neg hp.p1, if_neg hp.p2, if_neg hp.p3, g1, ha, b1, he, hp.digits, okBind, c1, hundred_eq (by omega), hundred_eq (by omega)]
    rfl
  · rw [uh, abs_le]
    constructor <;> linarith
end Verif.Sex
