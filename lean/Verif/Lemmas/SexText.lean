import Verif.SexVals
import Verif.Spec.Sexagesimal
import Verif.Lemmas.Float
import Verif.Lemmas.Dec
import Verif.Lemmas.PackProv
/-
  Verif.Lemmas.SexText : writing and reading decimal numbers; the sexagesimal patterns on well formed columns.
-/
namespace Verif.Sex
open Verif Flt

theorem zfill_eq (k n : Nat) : zfill k n = Spec.fixed k n := by rw [fixed_eq]; rfl

/-! ### writing -/

/-- `k / 10^n` with n decimals, as `{:.nf}` writes it -/
def decText (n k : Nat) : Str := natStr (k / 10 ^ n) ++ (if n = 0 then [] else '.' :: zfill n (k % 10 ^ n))

theorem decText_eq {n k : Nat} (h : n ≠ 0) : decText n k = Spec.decimal n k := by
  simp [decText, Spec.decimal, h, zfill_eq, dec_eq]

theorem fmtF_pos (n : Nat) (x : ℚ) : fmtF n ⟨false, x⟩ = decText n (roundEven (x * (10 ^ n : Nat))) := by
  simp [fmtF, decText]

theorem fmtF_neg (n : Nat) (x : ℚ) : fmtF n ⟨true, x⟩ = '-' :: decText n (roundEven (x * (10 ^ n : Nat))) := by
  simp [fmtF, decText]

theorem fmtF_near {n k : Nat} {x : ℚ} (hx : 0 ≤ x) (h : |x * 10 ^ n - k| < 1 / 2) : fmtF n ⟨false, x⟩ = decText n k := by
  rw [fmtF_pos, roundEven_eq (k := k) (by positivity)]
  push_cast; exact h

theorem natStr_hundred {a : Nat} (h : a < 100) : (natStr (100 + a)).drop 1 = Spec.fixed 2 a := by
  rw [Nat.add_comm]; rw [show (100 : Nat) = 10 ^ 2 from rfl, natStr_add_pow (by omega) (by omega)]; rfl

theorem ofInt_nat {n : Nat} (h : n < 2 ^ 53) : ofInt (n : Int) = ⟨false, n⟩ := by
  unfold ofInt ofRat
  rcases Nat.eq_zero_or_pos n with rfl | h0
  · simp
  · have hq : (0 : ℚ) < n := by exact_mod_cast h0
    have e : (((n : Nat) : Int) : ℚ) = (n : ℚ) := Int.cast_natCast n
    rw [e, if_neg hq.ne', if_neg (by linarith), rnd_nat h]

theorem hundred_eq {n : Nat} (h : n < 100) : hundred (n : Int) = Spec.fixed 2 n := by
  unfold hundred
  rw [show (100 + (n : Int)) = ((100 + n : Nat) : Int) from by push_cast; rfl, ofInt_nat (by omega),
    fmtF_near (k := 100 + n) (by positivity) (by simp)]
  simp only [decText, Nat.pow_zero, Nat.div_one, if_true, List.append_nil]
  exact natStr_hundred h

theorem hundred_dec {n k : Nat} (h : k < 100 * 10 ^ n) :
    (decText n (100 * 10 ^ n + k)).drop 1 = Spec.fixed 2 (k / 10 ^ n) ++ (if n = 0 then [] else '.' :: Spec.fixed n (k % 10 ^ n)) := by
  have hp : 0 < 10 ^ n := Nat.pos_of_ne_zero (by positivity)
  have e1 : (100 * 10 ^ n + k) / 10 ^ n = 100 + k / 10 ^ n := by
    rw [Nat.mul_comm, Nat.mul_add_div hp]
  have e2 : (100 * 10 ^ n + k) % 10 ^ n = k % 10 ^ n := by rw [Nat.mul_comm, Nat.mul_add_mod]
  have hlt : k / 10 ^ n < 100 := by rw [Nat.div_lt_iff_lt_mul hp]; exact h
  have hs := natStr_hundred hlt
  rw [decText, e1, e2, zfill_eq, ← hs, List.drop_append_of_le_length (natStr_length_pos _)]

/-! ### reading -/

theorem digitsVal_append (ds : Str) (d : Nat) (hd : d < 10) (v : Nat) (h : digitsVal ds = some v) :
    digitsVal (ds ++ [digitChar d]) = some (v * 10 + d) := by
  unfold digitsVal at *
  rw [List.foldl_append, h]
  simp [decVal_digitChar hd]

theorem digitsVal_natStr (n : Nat) : digitsVal (natStr n) = some n := by
  induction n using Nat.strongRecOn with
  | _ n ih =>
    by_cases h : n < 10
    · rw [natStr_lt h]
      simp [digitsVal, decVal_digitChar h]
    · rw [natStr_ge (by omega), digitsVal_append _ _ (by omega) _ (ih (n / 10) (by omega))]
      congr 1; omega

theorem digitsVal_fixed (k n : Nat) : digitsVal (Spec.fixed k n) = some n := by
  rw [fixed_eq]
  generalize k - (natStr n).length = j
  induction j with
  | zero => simpa using digitsVal_natStr n
  | succ j ih =>
    have h0 : decVal '0' = some 0 := by decide
    simp only [List.replicate_succ, List.cons_append, digitsVal, List.foldl_cons, h0] at ih ⊢
    exact ih

theorem takeWhile_dot (a t : Str) (ha : ∀ c ∈ a, c ∈ digits10) : (a ++ '.' :: t).takeWhile (· ≠ '.') = a := by
  induction a with
  | nil => simp
  | cons c a ih =>
    have hc : c ≠ '.' := by
      have := ha c (by simp)
      intro e; subst e; revert this; decide
    simp only [List.cons_append]
    rw [List.takeWhile_cons_of_pos (by simpa using hc), ih (fun c h => ha c (by simp [h]))]

/-- `x.y` is read as its value -/
theorem decimalVal_eq {a b : Str} {x y : Nat} (ha : ∀ c ∈ a, c ∈ digits10) (hl : 0 < a.length + b.length)
    (hx : digitsVal a = some x) (hy : digitsVal b = some y) :
    decimalVal (a ++ '.' :: b) = some (mkRat (x * 10 ^ b.length + y) (10 ^ b.length)) := by
  unfold decimalVal
  simp only [takeWhile_dot a b ha]
  have : (a ++ '.' :: b).drop (a.length + 1) = b := by simp [List.drop_append]
  rw [this, if_neg (by omega), hx, hy]

theorem strip_nospace {s : Str} (h : ∀ c ∈ s, isSpace c = false) : strip s = s := by
  have h1 : ∀ t : Str, (∀ c ∈ t, isSpace c = false) → t.dropWhile isSpace = t := by
    intro t ht
    cases t with
    | nil => rfl
    | cons c t => rw [List.dropWhile_cons, ht c (by simp)]; simp
  unfold strip rstrip lstrip
  rw [h1 s.reverse (by simpa using h), List.reverse_reverse, h1 s h]

theorem digit_nospace {c : Char} (h : c ∈ digits10) : isSpace c = false := by
  have : digits10.all (fun c => !isSpace c) = true := by decide
  have := List.all_eq_true.1 this c h
  simpa using this

theorem numeric_nospace {a b : Str} (ha : ∀ c ∈ a, c ∈ digits10) (hb : ∀ c ∈ b, c ∈ digits10) :
    ∀ c ∈ a ++ '.' :: b, isSpace c = false := by
  intro c hc
  simp only [List.mem_append, List.mem_cons] at hc
  rcases hc with h | rfl | h
  · exact digit_nospace (ha c h)
  · decide
  · exact digit_nospace (hb c h)

theorem parse_pos {a b : Str} {x y : Nat} (ha : ∀ c ∈ a, c ∈ digits10) (hb : ∀ c ∈ b, c ∈ digits10) (hl : 0 < a.length + b.length)
    (hx : digitsVal a = some x) (hy : digitsVal b = some y) :
    parse (a ++ '.' :: b) = .ok (ofRat (mkRat (x * 10 ^ b.length + y) (10 ^ b.length))) := by
  unfold parse
  rw [strip_nospace (numeric_nospace ha hb)]
  have hd := magnitude_decimal (decimalVal_eq ha hl hx hy)
  cases a with
  | nil =>
    simp only [List.nil_append] at hd ⊢
    split
    · rename_i t ht; simp at ht
    · rename_i t ht; simp at ht
    · rw [hd]
  | cons c a =>
    have hc := ha c (by simp)
    have h1 : c ≠ '-' := by intro e; subst e; revert hc; decide
    have h2 : c ≠ '+' := by intro e; subst e; revert hc; decide
    simp only [List.cons_append] at hd ⊢
    split
    · rename_i t ht; simp at ht; exact absurd ht.1 h1
    · rename_i t ht; simp at ht; exact absurd ht.1 h2
    · rw [hd]

theorem parse_minus {a b : Str} {x y : Nat} (ha : ∀ c ∈ a, c ∈ digits10) (hb : ∀ c ∈ b, c ∈ digits10) (hl : 0 < a.length + b.length)
    (hx : digitsVal a = some x) (hy : digitsVal b = some y) :
    parse ('-' :: (a ++ '.' :: b)) = .ok (neg (ofRat (mkRat (x * 10 ^ b.length + y) (10 ^ b.length)))) := by
  unfold parse
  rw [strip_nospace (by
    intro c hc
    rcases List.mem_cons.1 hc with rfl | h
    · decide
    · exact numeric_nospace ha hb c h)]
  simp only [magnitude_decimal (decimalVal_eq ha hl hx hy)]

theorem natq_pow (n : Nat) : ((10 ^ n : Nat) : ℚ) = 10 ^ n := by push_cast; rfl

theorem ofRat_nonneg {q : ℚ} (h : 0 ≤ q) : ofRat q = ⟨false, rnd q⟩ := by
  unfold ofRat
  split
  · rename_i e; simp [e]
  · rw [if_neg (by linarith)]

theorem decimal_parts {n : Nat} (hn : n ≠ 0) (k : Nat) :
    mkRat (((k / 10 ^ n) * 10 ^ (Spec.fixed n (k % 10 ^ n)).length + k % 10 ^ n : Nat)) (10 ^ (Spec.fixed n (k % 10 ^ n)).length) = (k : ℚ) / 10 ^ n := by
  have hp : 0 < 10 ^ n := Nat.pos_of_ne_zero (by positivity)
  rw [fixed_length (by omega) (Nat.mod_lt _ hp), Rat.mkRat_eq_div]
  rw [Nat.mul_comm, Nat.div_add_mod]
  push_cast; rfl

theorem decText_append {n : Nat} (hn : n ≠ 0) (k : Nat) : decText n k = natStr (k / 10 ^ n) ++ '.' :: Spec.fixed n (k % 10 ^ n) := by
  simp [decText, hn, zfill_eq]

theorem parse_decText {n : Nat} (hn : n ≠ 0) (k : Nat) : parse (decText n k) = .ok ⟨false, rnd ((k : ℚ) / 10 ^ n)⟩ := by
  rw [decText_append hn, parse_pos (natStr_mem _) (fixed_mem _ _) (by have := natStr_length_pos (k / 10 ^ n); omega)
    (digitsVal_natStr _) (digitsVal_fixed _ _)]
  have := decimal_parts hn k
  push_cast at this ⊢
  rw [this, ofRat_nonneg (by positivity)]

theorem parse_neg_decText {n : Nat} (hn : n ≠ 0) (k : Nat) : parse ('-' :: decText n k) = .ok ⟨true, rnd ((k : ℚ) / 10 ^ n)⟩ := by
  rw [decText_append hn, parse_minus (natStr_mem _) (fixed_mem _ _) (by have := natStr_length_pos (k / 10 ^ n); omega)
    (digitsVal_natStr _) (digitsVal_fixed _ _)]
  have := decimal_parts hn k
  push_cast at this ⊢
  rw [this, ofRat_nonneg (by positivity)]; rfl

end Verif.Sex
