import Verif.Lemmas.SexRa
/-
  Verif.Lemmas.SexDec : declination, there and back.
-/
namespace Verif.Sex
open Verif Flt

/-- the float nearest to 1/3600 -/
def cDec : ℚ := mkRat 5124095576030431 (2 ^ 64)

theorem arcsecToDegrees_eq : arcsecToDegrees = ⟨false, cDec⟩ := by decide +kernel

theorem cDec_eq : cDec = 5124095576030431 / 2 ^ 64 := by rw [cDec, Rat.mkRat_eq_div]; norm_num

theorem dec_forward {S N : ℚ} (hN : 0 ≤ N) (hN2 : N ≤ 400000) (h : |S - N / 3600| ≤ N / 3600 / 2 ^ 50) (D : Nat) :
    |(roundEven (S * (10 ^ D : Nat)) : ℚ) / 10 ^ D - N / 3600| ≤ 1 / 2 / 10 ^ D + 1 / 10 ^ 11 := by
  rw [abs_le] at h
  have hS : 0 ≤ S := by linarith
  have h2 := roundEven_err (q := S * (10 ^ D : Nat)) (by positivity)
  generalize roundEven (S * (10 ^ D : Nat)) = K at *
  have hP : (0 : ℚ) < 10 ^ D := by positivity
  have e : (K : ℚ) / 10 ^ D - N / 3600 = (K - S * (10 ^ D : Nat)) / 10 ^ D + (S - N / 3600) := by
    push_cast; field_simp; ring
  rw [e]
  have a1 : |((K : ℚ) - S * (10 ^ D : Nat)) / 10 ^ D| ≤ 1 / 2 / 10 ^ D := by
    rw [abs_div, abs_of_pos hP]; exact div_le_div_of_nonneg_right h2 hP.le
  have a2 : |S - N / 3600| ≤ 1 / 10 ^ 11 := by
    rw [abs_le]; constructor <;> linarith
  exact (abs_add_le _ _).trans (by linarith)

theorem dec_backward {y N p : ℚ} (hy : 0 ≤ y) (hN2 : N ≤ 400000) (hp : 1 / 10 ^ 9 ≤ p)
    (h : |y - N / 3600| ≤ 1 / 2 * p + 1 / 10 ^ 11) : |rnd (rnd y / cDec) - N| ≤ 1840 * p := by
  rw [abs_le] at h
  have h1 := rnd_near hy
  have h0 := rnd_nonneg y
  rw [cDec_eq]
  have h2 := rnd_near (q := rnd y / (5124095576030431 / 2 ^ 64)) (by positivity)
  rw [abs_le]
  constructor <;> linarith

/-- whole degrees convert without error -/
theorem dec_exact {h D : Nat} (hh : h < 2 ^ 30) :
    roundEven ((h : ℚ) * (10 ^ D : Nat)) = h * 10 ^ D ∧ rnd (rnd (((h * 10 ^ D : Nat) : ℚ) / 10 ^ D) / cDec) = 3600 * h := by
  have e : ((h * 10 ^ D : Nat) : ℚ) / 10 ^ D = h := by push_cast; field_simp
  constructor
  · apply roundEven_eq (by positivity)
    push_cast; simp
  · rw [e, rnd_nat (by omega)]
    rcases Nat.eq_zero_or_pos h with rfl | h0
    · simp
    · have hq : (0 : ℚ) < h := by exact_mod_cast h0
      have r : Rep ((3600 * h : Nat) : ℚ) := Rep.of_nat (by omega) (by omega)
      have := rnd_snap (q := (h : ℚ) / cDec) r (by
        rw [cDec_eq, abs_le]
        push_cast
        constructor <;> linarith)
      rw [this]; push_cast; rfl

/-! ### the value in degrees -/

theorem sum_seconds {h m : Nat} {σ : ℚ} (hσ : 0 ≤ σ) :
    add (add ⟨false, h⟩ (div ⟨false, m⟩ (ofInt 60))) (div ⟨false, σ⟩ (ofInt 3600)) =
      ⟨false, rnd (rnd (h + rnd ((m : ℚ) / 60)) + rnd (σ / 3600))⟩ := by
  rw [i3600, i60, div_pos', div_pos', add_pos (by positivity) (rnd_nonneg _), add_pos (rnd_nonneg _) (rnd_nonneg _)]

theorem sum_minutes {h : Nat} {μ : ℚ} :
    add (add ⟨false, h⟩ (div ⟨false, μ⟩ (ofInt 60))) (div ⟨false, 0⟩ (ofInt 3600)) = ⟨false, rnd (h + rnd (μ / 60))⟩ := by
  rw [i3600, i60, div_pos', div_pos', add_pos (by positivity) (rnd_nonneg _), zero_div, rnd_zero, add_pos (rnd_nonneg _) (le_refl _), add_zero, rnd_rnd]

theorem sum_seconds_near {h m : Nat} {w : ℚ} (hw : 0 ≤ w) :
    |rnd (rnd (h + rnd ((m : ℚ) / 60)) + rnd (rnd w / 3600)) - (3600 * h + 60 * m + w) / 3600| ≤ (3600 * h + 60 * m + w) / 3600 / 2 ^ 50 := by
  have hh : (0 : ℚ) ≤ h := by positivity
  have hm : (0 : ℚ) ≤ m := by positivity
  have a1 := rnd_near (q := (m : ℚ) / 60) (by positivity)
  have a10 := rnd_nonneg ((m : ℚ) / 60)
  have a2 := rnd_near (q := h + rnd ((m : ℚ) / 60)) (by positivity)
  have a20 := rnd_nonneg (h + rnd ((m : ℚ) / 60))
  have b1 := rnd_near hw
  have b10 := rnd_nonneg w
  have b2 := rnd_near (q := rnd w / 3600) (by positivity)
  have b20 := rnd_nonneg (rnd w / 3600)
  have c1 := rnd_near (q := rnd (h + rnd ((m : ℚ) / 60)) + rnd (rnd w / 3600)) (by positivity)
  rw [abs_le]
  constructor <;> linarith

theorem sum_minutes_near {h : Nat} {ν : ℚ} (hν : 0 ≤ ν) :
    |rnd (h + rnd (rnd ν / 60)) - (3600 * h + 60 * ν) / 3600| ≤ (3600 * h + 60 * ν) / 3600 / 2 ^ 50 := by
  have hh : (0 : ℚ) ≤ h := by positivity
  have b1 := rnd_near hν
  have b10 := rnd_nonneg ν
  have b2 := rnd_near (q := rnd ν / 60) (by positivity)
  have b20 := rnd_nonneg (rnd ν / 60)
  have c1 := rnd_near (q := h + rnd (rnd ν / 60)) (by positivity)
  rw [abs_le]
  constructor <;> linarith

/-! ### splitting arc seconds -/

theorem sub_val {a b : ℚ} : |(sub ⟨false, a⟩ ⟨false, b⟩).val - (a - b)| ≤ |a - b| / 2 ^ 53 := by
  rcases lt_or_ge a b with h | h
  · rw [sub_neg' h]
    show |-(rnd (b - a)) - (a - b)| ≤ _
    have := rnd_err (q := b - a) (by linarith)
    rw [abs_sub_comm a b, abs_of_pos (by linarith : 0 < b - a)]
    rw [show -(rnd (b - a)) - (a - b) = -(rnd (b - a) - (b - a)) by ring, abs_neg]
    exact this
  · rw [sub_pos' h]
    show |rnd (a - b) - (a - b)| ≤ _
    rw [abs_of_nonneg (by linarith : 0 ≤ a - b)]
    exact rnd_err (by linarith)

/-- seconds forms, declination: the text of degrees, minutes and decimal seconds.  `g` is half a unit in the last place. -/
theorem arcsec_text' {rev g : ℚ} {h m n k : Nat} (hh : h < 200) (hm : m < 60) (hn : n ≤ 6) (hk : k < 60 * 10 ^ n) (h0 : 0 ≤ rev)
    (hr : |rev - (3600 * h + 60 * m + (k : ℚ) / 10 ^ n)| ≤ 0.31 * (1 / 10 ^ n)) (he : m = 0 → k = 0 → rev = 3600 * h)
    (hg : |g - 1 / 2 * (1 / 10 ^ n)| ≤ 0.01 * (1 / 10 ^ n)) :
    let revDeg := trunc (div ⟨false, rev⟩ (ofInt 3600))
    let rev1 := sub ⟨false, rev⟩ (mul (ofInt revDeg) (ofInt 3600))
    let revMin := trunc (div (add rev1 ⟨false, g⟩) (ofInt 60))
    let rev2 := sub rev1 (mul (ofInt revMin) (ofInt 60))
    hundred revDeg = Spec.fixed 2 (h % 100) ∧ hundred revMin = Spec.fixed 2 m ∧ hundredF n rev2 = tailText n k := by
  obtain ⟨k1, k2, k3, k4, k5⟩ := kdiv_bounds hn hk
  have hmq : (m : ℚ) ≤ 59 := by exact_mod_cast (by omega : m ≤ 59)
  have hm0 : (0 : ℚ) ≤ m := by positivity
  have sp := split_hours (rev := rev) (ρ := 60 * m + ((k : ℚ) / 10 ^ n)) (u := 1 / 10 ^ n) hh k3 h0 (by rw [← add_assoc]; exact hr) (by
    rcases k1 with rfl | k1
    · rcases Nat.eq_zero_or_pos m with rfl | hmp
      · left; exact ⟨by simp, by simpa using he rfl rfl⟩
      · right
        have : (1 : ℚ) ≤ m := by exact_mod_cast hmp
        constructor <;> linarith
    · right; constructor <;> linarith)
  obtain ⟨s1, s2, s3⟩ := sp
  have n1 := rnd_near (q := rev - 3600 * h) (by linarith)
  have n0 := rnd_nonneg (rev - 3600 * h)
  rw [abs_le] at hr hg
  have q1 : trunc (div (add ⟨false, rnd (rev - 3600 * h)⟩ ⟨false, g⟩) (ofInt 60)) = (m : Int) := by
    have g0 : 0 ≤ g := by linarith
    rw [i60, add_pos n0 g0, div_pos']
    have n2 := rnd_near (q := rnd (rev - 3600 * h) + g) (by positivity)
    have n20 := rnd_nonneg (rnd (rev - 3600 * h) + g)
    have n3 := rnd_near (q := rnd (rnd (rev - 3600 * h) + g) / 60) (by positivity)
    apply trunc_nat <;> linarith
  simp only [s1, s2, q1, hundred_mod hh, hundred_eq (show m < 100 by omega), true_and]
  rw [i60, ofInt_nat (by omega), mul_pos', rnd_natcast (q := (m : ℚ) * 60) (k := m * 60) (by omega) (by push_cast; ring)]
  apply hundredF_eq hn (by omega)
  have sv := sub_val (a := rnd (rev - 3600 * h)) (b := ((m * 60 : Nat) : ℚ))
  have ab : |rnd (rev - 3600 * h) - ((m * 60 : Nat) : ℚ)| ≤ 61 := by
    rw [abs_le]; push_cast; constructor <;> linarith
  rw [abs_le] at sv
  have t : (0.45 : ℚ) / 10 ^ n = 0.45 * (1 / 10 ^ n) := by ring
  rw [t, abs_le]
  have cc : ((m * 60 : Nat) : ℚ) = 60 * m := by push_cast; ring
  constructor <;> linarith

theorem arcsec_text {rev g : ℚ} {h m n k : Nat} (hh : h < 100) (hm : m < 60) (hn : n ≤ 6) (hk : k < 60 * 10 ^ n) (h0 : 0 ≤ rev)
    (hr : |rev - (3600 * h + 60 * m + (k : ℚ) / 10 ^ n)| ≤ 0.31 * (1 / 10 ^ n)) (he : m = 0 → k = 0 → rev = 3600 * h)
    (hg : |g - 1 / 2 * (1 / 10 ^ n)| ≤ 0.01 * (1 / 10 ^ n)) :
    let revDeg := trunc (div ⟨false, rev⟩ (ofInt 3600))
    let rev1 := sub ⟨false, rev⟩ (mul (ofInt revDeg) (ofInt 3600))
    let revMin := trunc (div (add rev1 ⟨false, g⟩) (ofInt 60))
    let rev2 := sub rev1 (mul (ofInt revMin) (ofInt 60))
    hundred revDeg = Spec.fixed 2 h ∧ hundred revMin = Spec.fixed 2 m ∧ hundredF n rev2 = tailText n k := by
  have := arcsec_text' (h := h) (by omega) hm hn hk h0 hr he hg
  rwa [Nat.mod_eq_of_lt hh] at this

/-! ### what comes back -/

/-- the sign column -/
def signOf (neg : Bool) : Char := if neg then '-' else '+'
/-- a signed decimal -/
def signed (neg : Bool) (t : Str) : Str := if neg then '-' :: t else t

theorem head_decText (n k : Nat) : (decText n k).head? ≠ some '-' := by
  obtain ⟨c, s, h1, h2⟩ := natStr_cons (k / 10 ^ n)
  unfold decText
  rw [h1]
  simp only [List.cons_append, List.head?_cons]
  intro e
  injection e with e
  subst e
  revert h2; decide

/-- the common beginning: sign and arc seconds -/
theorem deg_start {neg : Bool} {D K : Nat} (hD : D ≠ 0) (prec : Num) (hpos : neg = true → 0 < rnd (rnd ((K : ℚ) / 10 ^ D) / cDec)) :
    degDeclToSexDecl (signed neg (decText D K)) prec = (do
      let rev : F64 := ⟨false, rnd (rnd ((K : ℚ) / 10 ^ D) / cDec)⟩
      let revSign : Str := [signOf neg]
      let revDeg := trunc (div rev (ofInt 3600))
      let rev := sub rev (mul (ofInt revDeg) (ofInt 3600))
      if prec.f = ofRat (mkRat 6 10) then pure (ljust 12 (revSign ++ hundred revDeg ++ [' '] ++ hundredF 2 (div rev (ofInt 60))))
      else if prec.f = ofInt 6 then pure (ljust 12 (revSign ++ hundred revDeg ++ [' '] ++ hundredF 1 (div rev (ofInt 60))))
      else if prec.f = ofInt 60 then pure (ljust 12 (revSign ++ hundred revDeg ++ [' '] ++ hundredF 0 (div rev (ofInt 60))))
      else do
        let revMin := trunc (div (add rev (mul (ofRat (mkRat 1 2)) prec.f)) (ofInt 60))
        let rev := sub rev (mul (ofInt revMin) (ofInt 60))
        let pdig ← precDigits prec
        pure (ljust 12 (revSign ++ hundred revDeg ++ [' '] ++ hundred revMin ++ [' '] ++ hundredF pdig rev))) := by
  unfold degDeclToSexDecl
  cases neg with
  | false =>
    simp only [signed, signOf, Bool.false_eq_true, if_false]
    rw [parse_decText hD]
    have hn : ¬ (rnd (rnd ((K : ℚ) / 10 ^ D) / cDec) < 0) := not_lt.mpr (rnd_nonneg _)
    have hv : ∀ x : ℚ, (F64.mk false x).val = x := fun _ => rfl
    simp only [arcsecToDegrees_eq, bind, Except.bind, div_pos', hv, hn, head_decText, or_self, if_false]
  | true =>
    have hp := hpos rfl
    simp only [signed, signOf, if_true]
    rw [parse_neg_decText hD]
    have hd : ∀ x : ℚ, div ⟨true, x⟩ ⟨false, cDec⟩ = ⟨true, rnd (x / cDec)⟩ := fun _ => rfl
    have hv : ∀ x : ℚ, (F64.mk true x).val = -x := fun _ => rfl
    have hl : -rnd (rnd ((K : ℚ) / 10 ^ D) / cDec) < 0 := by linarith
    have hng : ∀ x : ℚ, Flt.neg ⟨true, x⟩ = ⟨false, x⟩ := fun _ => rfl
    simp only [arcsecToDegrees_eq, bind, Except.bind, hd, hv, hl, true_or, if_true, hng]

theorem dec_sec_core {neg : Bool} {h m n k : Nat} {prec : Num} {g : ℚ} (hh : h < 100) (hm : m < 60) (hn : n ≤ 2) (hk : k < 60 * 10 ^ n)
    (p1 : prec.f ≠ ofRat (mkRat 6 10)) (p2 : prec.f ≠ ofInt 6) (p3 : prec.f ≠ ofInt 60) (p4 : precDigits prec = .ok n)
    (p5 : mul (ofRat (mkRat 1 2)) prec.f = ⟨false, g⟩) (hg : |g - 1 / 2 * (1 / 10 ^ n)| ≤ 0.01 * (1 / 10 ^ n))
    (p6 : degDeclToSexDecl ('-' :: decText (n + 4) 0) prec = .ok (ljust 12 (['-'] ++ Spec.fixed 2 0 ++ [' '] ++ Spec.fixed 2 0 ++ [' '] ++ tailText n 0))) :
    let K := roundEven (rnd (rnd (h + rnd ((m : ℚ) / 60)) + rnd (rnd ((k : ℚ) / 10 ^ n) / 3600)) * (10 ^ (n + 4) : Nat))
    |(K : ℚ) / 10 ^ (n + 4) - (3600 * h + 60 * m + (k : ℚ) / 10 ^ n) / 3600| ≤ 1 / 2 / 10 ^ (n + 4) + 1 / 10 ^ 11 ∧
    degDeclToSexDecl (signed neg (decText (n + 4) K)) prec =
      .ok (ljust 12 ([signOf neg] ++ Spec.fixed 2 h ++ [' '] ++ Spec.fixed 2 m ++ [' '] ++ tailText n k)) := by
  obtain ⟨k1, k2, k3, k4, k5⟩ := kdiv_bounds (show n ≤ 6 by omega) hk
  have hhq : (h : ℚ) ≤ 99 := by exact_mod_cast (by omega : h ≤ 99)
  have hmq : (m : ℚ) ≤ 59 := by exact_mod_cast (by omega : m ≤ 59)
  have hh0 : (0 : ℚ) ≤ h := by positivity
  have hm0 : (0 : ℚ) ≤ m := by positivity
  have hT := sum_seconds_near (h := h) (m := m) k5
  have hF := dec_forward (by positivity) (by linarith) hT (n + 4)
  intro K
  refine ⟨hF, ?_⟩
  have hb := pow_bounds (show n + 4 ≤ 9 by omega)
  have e2 : (1 : ℚ) / 10 ^ (n + 4) = 1 / 10000 * (1 / 10 ^ n) := by rw [pow_add]; field_simp; norm_num
  have hB := dec_backward (y := (K : ℚ) / 10 ^ (n + 4)) (N := 3600 * h + 60 * m + (k : ℚ) / 10 ^ n) (p := 1 / 10 ^ (n + 4)) (by positivity) (by linarith)
    hb.1 (by have e : (1 : ℚ) / 2 / 10 ^ (n + 4) = 1 / 2 * (1 / 10 ^ (n + 4)) := by ring
             rw [← e]; exact hF)
  have hr := hB.trans (show 1840 * (1 / 10 ^ (n + 4)) ≤ 0.31 * ((1 : ℚ) / 10 ^ n) by rw [e2]; linarith)
  have ex0 : m = 0 → k = 0 → K = h * 10 ^ (n + 4) := by
    rintro rfl rfl
    rw [← (dec_exact (h := h) (D := n + 4) (by omega)).1]
    show roundEven _ = _
    simp [rnd_nat (show h < 2 ^ 53 by omega)]
  have ex : m = 0 → k = 0 → rnd (rnd ((K : ℚ) / 10 ^ (n + 4)) / cDec) = 3600 * h := by
    intro h1 h2
    rw [ex0 h1 h2]; exact (dec_exact (by omega)).2
  have st := arcsec_text (rev := rnd (rnd ((K : ℚ) / 10 ^ (n + 4)) / cDec)) (k := k) (g := g) hh hm (by omega) hk (rnd_nonneg _) hr ex hg
  simp only at st
  obtain ⟨s1, s2, s3⟩ := st
  by_cases hz : neg = true ∧ h = 0 ∧ m = 0 ∧ k = 0
  · obtain ⟨rfl, rfl, rfl, rfl⟩ := hz
    rw [ex0 rfl rfl, Nat.zero_mul]; exact p6
  · rw [deg_start (by omega) prec (by
      rintro rfl
      have : h ≠ 0 ∨ m ≠ 0 ∨ k ≠ 0 := by simp only [true_and] at hz; omega
      rw [abs_le] at hr
      rcases this with h' | h' | h'
      · have : (1 : ℚ) ≤ h := by exact_mod_cast Nat.pos_of_ne_zero h'
        linarith
      · have : (1 : ℚ) ≤ m := by exact_mod_cast Nat.pos_of_ne_zero h'
        linarith
      · rcases k1 with h'' | h''
        · exact absurd h'' h'
        · linarith)]
    simp only [bind, Except.bind, pure, Except.pure]
    rw [if_neg p1, if_neg p2, if_neg p3, p4, p5]
    simp only
    rw [s1, s2, s3]

theorem dec_min_core {neg : Bool} {h n k : Nat} {prec : Num} (hh : h < 100) (hn : n ≤ 2) (hk : k < 60 * 10 ^ n)
    (hp : prec.f = if n = 2 then ofRat (mkRat 6 10) else if n = 1 then ofInt 6 else ofInt 60)
    (p6 : degDeclToSexDecl ('-' :: decText (n + 2) 0) prec = .ok (ljust 12 (['-'] ++ Spec.fixed 2 0 ++ [' '] ++ tailText n 0))) :
    let K := roundEven (rnd (h + rnd (rnd ((k : ℚ) / 10 ^ n) / 60)) * (10 ^ (n + 2) : Nat))
    |(K : ℚ) / 10 ^ (n + 2) - (3600 * h + 60 * ((k : ℚ) / 10 ^ n)) / 3600| ≤ 1 / 2 / 10 ^ (n + 2) + 1 / 10 ^ 11 ∧
    degDeclToSexDecl (signed neg (decText (n + 2) K)) prec = .ok (ljust 12 ([signOf neg] ++ Spec.fixed 2 h ++ [' '] ++ tailText n k)) := by
  obtain ⟨k1, k2, k3, k4, k5⟩ := kdiv_bounds (show n ≤ 6 by omega) hk
  have hhq : (h : ℚ) ≤ 99 := by exact_mod_cast (by omega : h ≤ 99)
  have hh0 : (0 : ℚ) ≤ h := by positivity
  have hT := sum_minutes_near (h := h) k5
  have hF := dec_forward (by positivity) (by linarith) hT (n + 2)
  intro K
  refine ⟨hF, ?_⟩
  have hb := pow_bounds (show n + 2 ≤ 9 by omega)
  have e2 : (1 : ℚ) / 10 ^ (n + 2) = 1 / 100 * (1 / 10 ^ n) := by rw [pow_add]; field_simp; norm_num
  have hB := dec_backward (y := (K : ℚ) / 10 ^ (n + 2)) (N := 3600 * h + 60 * ((k : ℚ) / 10 ^ n)) (p := 1 / 10 ^ (n + 2)) (by positivity) (by linarith)
    hb.1 (by have e : (1 : ℚ) / 2 / 10 ^ (n + 2) = 1 / 2 * (1 / 10 ^ (n + 2)) := by ring
             rw [← e]; exact hF)
  have hr := hB.trans (show 1840 * (1 / 10 ^ (n + 2)) ≤ 0.31 * (60 * ((1 : ℚ) / 10 ^ n)) by rw [e2]; linarith)
  have ex0 : k = 0 → K = h * 10 ^ (n + 2) := by
    rintro rfl
    rw [← (dec_exact (h := h) (D := n + 2) (by omega)).1]
    show roundEven _ = _
    simp [rnd_nat (show h < 2 ^ 53 by omega)]
  have ex : k = 0 → rnd (rnd ((K : ℚ) / 10 ^ (n + 2)) / cDec) = 3600 * h := by
    intro h1
    rw [ex0 h1]; exact (dec_exact (by omega)).2
  have st := minutes_text (rev := rnd (rnd ((K : ℚ) / 10 ^ (n + 2)) / cDec)) (k := k) hh hn hk (rnd_nonneg _) hr ex
  simp only at st
  obtain ⟨s1, s2⟩ := st
  by_cases hz : neg = true ∧ h = 0 ∧ k = 0
  · obtain ⟨rfl, rfl, rfl⟩ := hz
    rw [ex0 rfl, Nat.zero_mul]; exact p6
  · rw [deg_start (by omega) prec (by
      rintro rfl
      have : h ≠ 0 ∨ k ≠ 0 := by simp only [true_and] at hz; omega
      rw [abs_le] at hr
      rcases this with h' | h'
      · have : (1 : ℚ) ≤ h := by exact_mod_cast Nat.pos_of_ne_zero h'
        linarith
      · rcases k1 with h'' | h''
        · exact absurd h'' h'
        · linarith)]
    simp only [bind, Except.bind, pure, Except.pure]
    have d1 : ofInt 60 ≠ ofRat (mkRat 6 10) := by decide +kernel
    have d2 : ofInt 60 ≠ ofInt 6 := by decide +kernel
    have d3 : ofInt 6 ≠ ofRat (mkRat 6 10) := by decide +kernel
    obtain rfl | rfl | rfl : n = 0 ∨ n = 1 ∨ n = 2 := by omega
    · simp only [show (0 : Nat) ≠ 2 by omega, show (0 : Nat) ≠ 1 by omega, if_false] at hp
      rw [hp, if_neg d1, if_neg d2, if_pos rfl, s1, s2]
    · simp only [show (1 : Nat) ≠ 2 by omega, if_false, if_true] at hp
      rw [hp, if_neg d3, if_pos rfl, s1, s2]
    · simp only [if_true] at hp
      rw [hp, if_pos rfl, s1, s2]

theorem column_sign (c : Char) (t : Str) : Spec.column 12 (c :: t) = c :: Spec.column 11 t := by
  simp only [Spec.column, List.rightpad, List.length_cons, List.cons_append]
  congr 3; omega

theorem i1 : ofInt 1 = ⟨false, 1⟩ := ofInt_nat (n := 1) (by norm_num)

/-- the signed value, as text -/
theorem signed_fmt (neg : Bool) (D : Nat) (q : ℚ) :
    fmtF D (mul (if signOf neg = '-' then Flt.neg (ofInt 1) else ofInt 1) ⟨false, rnd q⟩) =
      signed neg (decText D (roundEven (rnd q * (10 ^ D : Nat)))) := by
  cases neg with
  | true =>
    simp only [signOf, signed, if_true, i1]
    show fmtF D ⟨true, rnd (1 * rnd q)⟩ = _
    rw [one_mul, rnd_rnd, fmtF_neg]
  | false =>
    simp only [signOf, signed, Bool.false_eq_true, if_false, i1, show ¬ ('+' = '-') by decide]
    show fmtF D ⟨false, rnd (1 * rnd q)⟩ = _
    rw [one_mul, rnd_rnd, fmtF_pos]

theorem signed_decimal (neg : Bool) {D K : Nat} (h : D ≠ 0) : signed neg (decText D K) = signed neg (Spec.decimal D K) := by
  rw [decText_eq h]

/-- declination: the decimal text, its accuracy, and the way back -/
theorem dec_roundtrip {r : Spec.Sexagesimal} (neg : Bool) (hr : r.Valid 2) : ∃ K : Nat,
    sexDeclToDecDecl (Spec.column 12 (signOf neg :: r.text)) = .ok (signed neg (Spec.decimal r.decDecimals K), (read r).prec) ∧
    |(K : ℚ) / 10 ^ r.decDecimals - r.amount / 3600| ≤ 1 / 2 / 10 ^ r.decDecimals + 1 / 10 ^ 11 ∧
    degDeclToSexDecl (signed neg (Spec.decimal r.decDecimals K)) (read r).prec = .ok (Spec.column 12 (signOf neg :: r.text)) := by
  have hr3 : r.Valid 3 := by
    cases r with
    | seconds h m s d f => obtain ⟨h1, h2, h3, h4, h5, h6⟩ := hr; exact ⟨h1, h2, h3, h4, by omega, h6⟩
    | wholeSeconds h m s => exact hr
    | minutes h m d f => exact hr
    | wholeMinutes h m => exact hr
  have hc := check_read hr3 (w := 11) (.inl rfl)
  have hs : ¬ (signOf neg ≠ '+' ∧ signOf neg ≠ '-') := by cases neg <;> simp [signOf]
  have start : sexDeclToDecDecl (Spec.column 12 (signOf neg :: r.text)) =
      .ok (fmtF (digitsFor (mul (read r).prec.f arcsecToDegrees)) (mul (if signOf neg = '-' then Flt.neg (ofInt 1) else ofInt 1)
        (add (add (read r).hh (div (read r).mm (ofInt 60))) (div (read r).ss (ofInt 3600)))), (read r).prec) := by
    rw [column_sign]
    unfold sexDeclToDecDecl
    simp only [if_neg hs, hc, bind, Except.bind, pure, Except.pure]
  rw [start]
  cases r with
  | seconds h m s d f =>
    obtain ⟨h1, h2, h3, h4, h5, h6⟩ := hr
    have p4 : precDigits (.flt (ofRat (ten (-(d : Int))))) = .ok d ∧ (Num.flt (ofRat (ten (-(d : Int))))).f ≠ ofRat (mkRat 6 10) ∧
      (Num.flt (ofRat (ten (-(d : Int))))).f ≠ ofInt 6 ∧ (Num.flt (ofRat (ten (-(d : Int))))).f ≠ ofInt 60 ∧
      digitsFor (mul (ofRat (ten (-(d : Int)))) arcsecToDegrees) = d + 4 ∧
      degDeclToSexDecl ('-' :: decText (d + 4) 0) (.flt (ofRat (ten (-(d : Int))))) =
        .ok (ljust 12 (['-'] ++ Spec.fixed 2 0 ++ [' '] ++ Spec.fixed 2 0 ++ [' '] ++ tailText d 0)) ∧
      (mul (ofRat (mkRat 1 2)) (Num.flt (ofRat (ten (-(d : Int))))).f) = ⟨false, rnd (1 / 2 * rnd (1 / 10 ^ d))⟩ := by
      obtain rfl | rfl : d = 1 ∨ d = 2 := by omega
      · exact ⟨by decide +kernel, by decide +kernel, by decide +kernel, by decide +kernel, by decide +kernel, by decide +kernel, by
          rw [ten_neg, show ofRat (mkRat 1 2) = ⟨false, 1 / 2⟩ by decide +kernel]
          simp only [Num.f]; rw [ofRat_nonneg (by positivity)]; rfl⟩
      · exact ⟨by decide +kernel, by decide +kernel, by decide +kernel, by decide +kernel, by decide +kernel, by decide +kernel, by
          rw [ten_neg, show ofRat (mkRat 1 2) = ⟨false, 1 / 2⟩ by decide +kernel]
          simp only [Num.f]; rw [ofRat_nonneg (by positivity)]; rfl⟩
    have hg : |rnd (1 / 2 * rnd ((1 : ℚ) / 10 ^ d)) - 1 / 2 * (1 / 10 ^ d)| ≤ 0.01 * (1 / 10 ^ d) := by
      have q0 : (0 : ℚ) ≤ 1 / 10 ^ d := by positivity
      have a := rnd_near q0
      have a0 := rnd_nonneg ((1 : ℚ) / 10 ^ d)
      have b := rnd_near (q := 1 / 2 * rnd ((1 : ℚ) / 10 ^ d)) (by positivity)
      rw [abs_le]; constructor <;> linarith
    have core := dec_sec_core (neg := neg) (k := s * 10 ^ d + f) h1 h2 h5 (frac_lt h3 h6) p4.2.1 p4.2.2.1 p4.2.2.2.1 p4.1 p4.2.2.2.2.2.2 hg p4.2.2.2.2.2.1
    simp only [frac_cast] at core
    simp only [read, sum_seconds (rnd_nonneg _), Num.f, p4.2.2.2.2.1, signed_fmt]
    generalize hK : roundEven _ = K at core
    refine ⟨K, ?_, ?_, ?_⟩
    · rw [decText_eq (by omega)]; rfl
    · have := core.1
      simp only [Spec.Sexagesimal.decDecimals, Spec.Sexagesimal.amount, natq_pow]
      rwa [← add_assoc (3600 * (h : ℚ) + 60 * m)] at this
    · rw [← decText_eq (by simp [Spec.Sexagesimal.decDecimals])]
      have := core.2
      rw [tailText_frac h4 h6] at this
      simpa [Spec.Sexagesimal.text, Spec.Sexagesimal.decDecimals, read, column_ljust] using this
  | wholeSeconds h m s =>
    obtain ⟨h1, h2, h3⟩ := hr
    have p4 : precDigits (.int 1) = .ok 0 ∧ (Num.int 1).f ≠ ofRat (mkRat 6 10) ∧
      (Num.int 1).f ≠ ofInt 6 ∧ (Num.int 1).f ≠ ofInt 60 ∧ digitsFor (mul (Num.int 1).f arcsecToDegrees) = 4 ∧
      degDeclToSexDecl ('-' :: decText (0 + 4) 0) (.int 1) =
        .ok (ljust 12 (['-'] ++ Spec.fixed 2 0 ++ [' '] ++ Spec.fixed 2 0 ++ [' '] ++ tailText 0 0)) ∧
      mul (ofRat (mkRat 1 2)) (Num.int 1).f = ⟨false, 1 / 2⟩ := by decide +kernel
    have core := dec_sec_core (neg := neg) (k := s) h1 h2 (by omega) (by omega) p4.2.1 p4.2.2.1 p4.2.2.2.1 p4.1 p4.2.2.2.2.2.2
      (by norm_num) p4.2.2.2.2.2.1
    simp only [pow_zero, div_one, Nat.zero_add, rnd_nat (show s < 2 ^ 53 by omega)] at core
    simp only [read, sum_seconds (show (0 : ℚ) ≤ s by positivity), p4.2.2.2.2.1, signed_fmt]
    generalize hK : roundEven _ = K at core
    refine ⟨K, ?_, ?_, ?_⟩
    · rw [decText_eq (by omega)]; rfl
    · simpa only [Spec.Sexagesimal.decDecimals, Spec.Sexagesimal.amount] using core.1
    · rw [← decText_eq (by simp [Spec.Sexagesimal.decDecimals])]
      have := core.2
      rw [tailText_whole] at this
      simpa [Spec.Sexagesimal.text, Spec.Sexagesimal.decDecimals, read, column_ljust] using this
  | minutes h m d f =>
    obtain ⟨h1, h2, h3, h4, h5⟩ := hr
    have p4 : Num.f (if d = 2 then .flt (ofRat (mkRat 6 10)) else .int 6) = (if d = 2 then ofRat (mkRat 6 10) else if d = 1 then ofInt 6 else ofInt 60) ∧
      digitsFor (mul (Num.f (if d = 2 then .flt (ofRat (mkRat 6 10)) else .int 6)) arcsecToDegrees) = d + 2 ∧
      degDeclToSexDecl ('-' :: decText (d + 2) 0) (if d = 2 then .flt (ofRat (mkRat 6 10)) else .int 6) =
        .ok (ljust 12 (['-'] ++ Spec.fixed 2 0 ++ [' '] ++ tailText d 0)) := by
      obtain rfl | rfl : d = 1 ∨ d = 2 := by omega
      · decide +kernel
      · decide +kernel
    have core := dec_min_core (neg := neg) (k := m * 10 ^ d + f) h1 h4 (frac_lt h2 h5) p4.1 p4.2.2
    simp only [frac_cast] at core
    simp only [read, sum_minutes, p4.2.1, signed_fmt]
    generalize hK : roundEven _ = K at core
    refine ⟨K, ?_, ?_, ?_⟩
    · rw [decText_eq (by omega)]; rfl
    · simpa only [Spec.Sexagesimal.decDecimals, Spec.Sexagesimal.amount, natq_pow] using core.1
    · rw [← decText_eq (by simp [Spec.Sexagesimal.decDecimals])]
      have := core.2
      rw [tailText_frac h3 h5] at this
      simpa [Spec.Sexagesimal.text, Spec.Sexagesimal.decDecimals, read, column_ljust] using this
  | wholeMinutes h m =>
    obtain ⟨h1, h2⟩ := hr
    have p4 : digitsFor (mul (Num.int 60).f arcsecToDegrees) = 2 ∧
      degDeclToSexDecl ('-' :: decText (0 + 2) 0) (.int 60) = .ok (ljust 12 (['-'] ++ Spec.fixed 2 0 ++ [' '] ++ tailText 0 0)) := by decide +kernel
    have core := dec_min_core (neg := neg) (prec := .int 60) (n := 0) (k := m) h1 (by omega) (by omega) rfl p4.2
    simp only [pow_zero, div_one, Nat.zero_add, rnd_nat (show m < 2 ^ 53 by omega)] at core
    simp only [read, sum_minutes, p4.1, signed_fmt]
    generalize hK : roundEven _ = K at core
    refine ⟨K, ?_, ?_, ?_⟩
    · rw [decText_eq (by omega)]; rfl
    · simpa only [Spec.Sexagesimal.decDecimals, Spec.Sexagesimal.amount] using core.1
    · rw [← decText_eq (by simp [Spec.Sexagesimal.decDecimals])]
      have := core.2
      rw [tailText_whole] at this
      simpa [Spec.Sexagesimal.text, Spec.Sexagesimal.decDecimals, read, column_ljust] using this

end Verif.Sex
