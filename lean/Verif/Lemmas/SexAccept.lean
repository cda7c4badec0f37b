import Verif.Lemmas.SexBack
import Verif.Lemmas.PackingPerm
import Verif.Lemmas.References
/-!
  Verif.Lemmas.SexAccept : every text in the columns of the position is either one of the readings of Spec.Sexagesimal or refused.
-/
namespace Verif.Sex
open Verif Flt Verif.Spec.Packing

theorem digitsVal_value {s : Str} (h : Digits0 s) : Flt.digitsVal s = some (value s) := by
  suffices H : ∀ n, s.foldl (fun acc c => match acc, decVal c with | some a, some d => some (a * 10 + d) | _, _ => none) (some n) =
      some (s.foldl (fun n c => 10 * n + (decVal c).getD 0) n) from H 0
  intro n
  induction s generalizing n with
  | nil => rfl
  | cons c s ih =>
    have hc := h c List.mem_cons_self
    rw [isDec, Option.isSome_iff_exists] at hc
    obtain ⟨v, hv⟩ := hc
    simp only [List.foldl_cons, hv, Option.getD_some]
    rw [Nat.mul_comm]
    exact ih (fun x hx => h x (List.mem_cons_of_mem _ hx)) _

theorem decVal_lt {c : Char} {v : Nat} (h : decVal c = some v) : v < 10 := by
  unfold decVal at h
  rw [Option.map_eq_some_iff] at h
  obtain ⟨z, hz, rfl⟩ := h
  have := List.find?_some hz
  simp only [Bool.and_eq_true, decide_eq_true_eq] at this
  omega

theorem value_lt : ∀ {s : Str} (_ : Digits0 s), value s < 10 ^ s.length := by
  have key : ∀ (s : Str) (n : Nat), Digits0 s → s.foldl (fun n c => 10 * n + (decVal c).getD 0) n < (n + 1) * 10 ^ s.length := by
    intro s
    induction s with
    | nil => intro n _; simp
    | cons c s ih =>
      intro n h
      have hc := h c List.mem_cons_self
      rw [isDec, Option.isSome_iff_exists] at hc
      obtain ⟨v, hv⟩ := hc
      have hl := decVal_lt hv
      simp only [List.foldl_cons, hv, Option.getD_some, List.length_cons]
      refine lt_of_lt_of_le (ih _ (fun x hx => h x (List.mem_cons_of_mem _ hx))) ?_
      rw [pow_succ, ← mul_assoc, mul_right_comm]
      exact Nat.mul_le_mul_right _ (by omega)
  intro s h
  have := key s 0 h
  rw [Nat.zero_add, Nat.one_mul] at this
  exact this

theorem isDec_ne {c d : Char} (h : isDec c = true) (hd : isDec d = false) : c ≠ d := by
  rintro rfl; rw [h] at hd; cases hd

theorem takeWhile_point : ∀ (a b : Str), Digits0 a → (a ++ '.' :: b).takeWhile (· ≠ '.') = a
  | [], b, _ => by simp
  | c :: a, b, h => by
    have hc : c ≠ '.' := isDec_ne (h c List.mem_cons_self) (by decide)
    have ih := takeWhile_point a b fun x hx => h x (List.mem_cons_of_mem _ hx)
    simp only [ne_eq, decide_not] at ih
    simp [hc, ih]

theorem parse_any {a b : Str} (ha : Digits0 a) (hb : Digits0 b) (hl : 0 < a.length + b.length) :
    parse (a ++ '.' :: b) = .ok ⟨false, rnd (((value a * 10 ^ b.length + value b : Nat) : ℚ) / 10 ^ b.length)⟩ := by
  have hs : ∀ c ∈ a ++ '.' :: b, isSpace c = false := by
    intro c hc
    simp only [List.mem_append, List.mem_cons] at hc
    rcases hc with h | rfl | h
    · exact References.dec_not_space (ha c h)
    · decide
    · exact References.dec_not_space (hb c h)
  have hd : magnitude (a ++ '.' :: b) = some (mkRat (value a * 10 ^ b.length + value b) (10 ^ b.length)) := by
    apply magnitude_decimal
    unfold decimalVal
    simp only [takeWhile_point a b ha]
    have : (a ++ '.' :: b).drop (a.length + 1) = b := by simp [List.drop_append]
    rw [this, if_neg (by omega), digitsVal_value ha, digitsVal_value hb]
  have hq : ofRat (mkRat (value a * 10 ^ b.length + value b) (10 ^ b.length)) = ⟨false, rnd (((value a * 10 ^ b.length + value b : Nat) : ℚ) / 10 ^ b.length)⟩ := by
    have e : mkRat (value a * 10 ^ b.length + value b) (10 ^ b.length) = ((value a * 10 ^ b.length + value b : Nat) : ℚ) / 10 ^ b.length := by
      rw [Rat.mkRat_eq_div]; push_cast; rfl
    rw [e, ofRat_nonneg (by positivity)]
  unfold parse
  rw [strip_nospace hs]
  cases a with
  | nil =>
    simp only [List.nil_append] at hd ⊢
    split
    · rename_i t ht; simp at ht
    · rename_i t ht; simp at ht
    · rw [hd, ← hq]
  | cons c a =>
    have hc := ha c (by simp)
    have h1 : c ≠ '-' := isDec_ne hc (by decide)
    have h2 : c ≠ '+' := isDec_ne hc (by decide)
    simp only [List.cons_append] at hd ⊢
    split
    · rename_i t ht; simp at ht; exact absurd ht.1 h1
    · rename_i t ht; simp at ht; exact absurd ht.1 h2
    · rw [hd, ← hq]

theorem two_digits {u : Str} (h1 : 1 ≤ u.length) (h2 : ∀ h, some 2 = some h → u.length ≤ h) (h3 : ∀ c ∈ u, isDec c = true) :
    pyNat u = .ok (value u) ∧ value u < 100 := by
  refine ⟨Packing.pyNat_value ⟨by rintro rfl; simp at h1, h3⟩, ?_⟩
  have := value_lt (s := u) h3
  have h4 := h2 2 rfl
  exact lt_of_lt_of_le this (Nat.pow_le_pow_right (n := 10) (by norm_num) h4)

/-- the readings, without the limits on minutes and seconds -/
inductive Reads (len : Nat) : Sexa → Prop
  | seconds {h m k d : Nat} : h < 100 → m < 100 → k < 100 * 10 ^ d → d + 6 ≤ len →
      Reads len ⟨⟨false, h⟩, ⟨false, m⟩, ⟨false, rnd ((k : ℚ) / 10 ^ d)⟩, .flt (ofRat (ten (-(d : Int))))⟩
  | wholeSeconds {h m k : Nat} : h < 100 → m < 100 → k < 100 → Reads len ⟨⟨false, h⟩, ⟨false, m⟩, ⟨false, rnd ((k : ℚ) / 10 ^ 0)⟩, .int 1⟩
  | minutes {h k d : Nat} {p : Num} : h < 100 → d ≤ 2 → k < 100 * 10 ^ d →
      p = (if d = 2 then .flt (ofRat (mkRat 6 10)) else if d = 1 then .int 6 else .int 60) →
      Reads len ⟨⟨false, h⟩, ⟨false, rnd ((k : ℚ) / 10 ^ d)⟩, ⟨false, 0⟩, p⟩

theorem parts_lt {x y d : Nat} (hx : x < 100) (hy : y < 10 ^ d) : x * 10 ^ d + y < 100 * 10 ^ d := by
  have : (x + 1) * 10 ^ d ≤ 100 * 10 ^ d := Nat.mul_le_mul_right _ (by omega)
  rw [Nat.add_mul] at this; omega

theorem zeroF : ofInt 0 = ⟨false, 0⟩ := by decide +kernel

theorem rnd_whole {k : Nat} (h : k < 100) : rnd ((k : ℚ) / 10 ^ 0) = k := by
  rw [pow_zero, div_one, rnd_nat (by omega)]

/-- what `checkSexagesimal` does with any text -/
theorem check_any (t : Str) : checkSexagesimal t = .error .runtimeError ∨ ∃ s, checkSexagesimal t = .ok s ∧ Reads t.length s := by
  unfold checkSexagesimal
  split
  · rename_i m hm
    refine .inr ?_
    obtain ⟨c, r, rfl, hp⟩ := reMatch_parse hm
    simp only [checkNormal, cat, star, plus, d12, Re.parse] at hp
    obtain ⟨w0, _, _, _, ⟨-, rfl⟩, ⟨a, _, _, _, ⟨_, ⟨⟨a1, a2, a3⟩, rfl⟩, rfl⟩, ⟨w1, _, _, _, ⟨⟨b1, -, -⟩, rfl⟩, ⟨b, _, _, _, ⟨_, ⟨⟨c1, c2, c3⟩, rfl⟩, rfl⟩,
      ⟨w2, _, _, _, ⟨⟨d1, -, -⟩, rfl⟩, ⟨_, _, _, _, ⟨_, ⟨x, _, _, _, ⟨⟨e1, e2, e3⟩, rfl⟩, ⟨_, y, _, _, ⟨⟨pt, hpt, rfl⟩, rfl⟩, ⟨_, ⟨⟨-, -, f3⟩, rfl⟩, rfl⟩, rfl, rfl⟩, rfl, rfl⟩, rfl⟩, ⟨w3, _, _, _, ⟨-, rfl⟩, ⟨rfl, rfl, -⟩, rfl, rfl⟩,
      rfl, rfl⟩, rfl, rfl⟩, rfl, rfl⟩, rfl, rfl⟩, rfl, rfl⟩, rfl, rfl⟩ := hp
    have hpt' : pt = '.' := by
      simp only [ch, beq_iff_eq] at hpt
      rw [← Char.ofNat_toNat pt, hpt]; rfl
    subst hpt'
    obtain ⟨p1, q1⟩ := two_digits a1 a2 a3
    obtain ⟨p2, q2⟩ := two_digits c1 c2 c3
    obtain ⟨-, q3⟩ := two_digits e1 e2 e3
    have p3 := parse_any (a := x) (b := y) e3 f3 (by omega)
    refine ⟨_, ?_, Reads.seconds (d := y.length) q1 q2 (parts_lt q3 (value_lt f3)) ?_⟩
    · simp [actionNormal, grpInt, grpFlt, group, bind, Except.bind, pure, Except.pure, p1, p2, p3, ofInt_nat (show value a < 2 ^ 53 by omega), ofInt_nat (show value b < 2 ^ 53 by omega)]
    · simp; omega
  · split
    · rename_i m hm
      refine .inr ?_
      obtain ⟨c, r, rfl, hp⟩ := reMatch_parse hm
      simp only [checkIntegerSeconds, cat, star, plus, d12, Re.parse] at hp
      obtain ⟨w0, _, _, _, ⟨-, rfl⟩, ⟨a, _, _, _, ⟨_, ⟨⟨a1, a2, a3⟩, rfl⟩, rfl⟩, ⟨w1, _, _, _, ⟨⟨b1, -, -⟩, rfl⟩, ⟨b, _, _, _, ⟨_, ⟨⟨c1, c2, c3⟩, rfl⟩, rfl⟩,
        ⟨w2, _, _, _, ⟨⟨d1, -, -⟩, rfl⟩, ⟨x, _, _, _, ⟨_, ⟨⟨e1, e2, e3⟩, rfl⟩, rfl⟩, ⟨w3, _, _, _, ⟨-, rfl⟩, ⟨rfl, rfl, -⟩, rfl, rfl⟩,
        rfl, rfl⟩, rfl, rfl⟩, rfl, rfl⟩, rfl, rfl⟩, rfl, rfl⟩, rfl, rfl⟩ := hp
      obtain ⟨p1, q1⟩ := two_digits a1 a2 a3
      obtain ⟨p2, q2⟩ := two_digits c1 c2 c3
      obtain ⟨p3, q3⟩ := two_digits e1 e2 e3
      refine ⟨_, ?_, Reads.wholeSeconds q1 q2 q3⟩
      simp [actionIntegerSeconds, grpInt, group, bind, Except.bind, pure, Except.pure, p1, p2, p3, ofInt_nat (show value a < 2 ^ 53 by omega), ofInt_nat (show value b < 2 ^ 53 by omega),
        ofInt_nat (show value x < 2 ^ 53 by omega), rnd_nat (show value x < 2 ^ 53 by omega)]
    · split
      · rename_i m hm
        refine .inr ?_
        obtain ⟨c, r, rfl, hp⟩ := reMatch_parse hm
        simp only [checkMinutesHundredths, cat, star, plus, d12, times, Re.parse] at hp
        obtain ⟨w0, _, _, _, ⟨-, rfl⟩, ⟨a, _, _, _, ⟨_, ⟨⟨a1, a2, a3⟩, rfl⟩, rfl⟩, ⟨w1, _, _, _, ⟨⟨b1, -, -⟩, rfl⟩,
          ⟨_, _, _, _, ⟨_, ⟨x, _, _, _, ⟨⟨e1, e2, e3⟩, rfl⟩, ⟨_, y, _, _, ⟨⟨pt, hpt, rfl⟩, rfl⟩, ⟨⟨f1, f2, f3⟩, rfl⟩, rfl, rfl⟩, rfl, rfl⟩, rfl⟩, ⟨w3, _, _, _, ⟨-, rfl⟩, ⟨rfl, rfl, -⟩, rfl, rfl⟩,
          rfl, rfl⟩, rfl, rfl⟩, rfl, rfl⟩, rfl, rfl⟩ := hp
        have hpt' : pt = '.' := by
          simp only [ch, beq_iff_eq] at hpt
          rw [← Char.ofNat_toNat pt, hpt]; rfl
        subst hpt'
        have hl : y.length = 2 := by have := f2 2 rfl; omega
        obtain ⟨p1, q1⟩ := two_digits a1 a2 a3
        obtain ⟨-, q3⟩ := two_digits e1 e2 e3
        have p3 := parse_any (a := x) (b := y) e3 f3 (by omega)
        rw [hl] at p3
        refine ⟨_, ?_, Reads.minutes (d := 2) q1 (by omega) (parts_lt q3 (by rw [← hl]; exact value_lt f3)) rfl⟩
        simp [actionMinutesHundredths, grpInt, grpFlt, group, bind, Except.bind, pure, Except.pure, p1, p3, zeroF, ofInt_nat (show value a < 2 ^ 53 by omega)]
      · split
        · rename_i m hm
          refine .inr ?_
          obtain ⟨c, r, rfl, hp⟩ := reMatch_parse hm
          simp only [checkMinutesTenths, cat, star, plus, d12, Re.parse] at hp
          obtain ⟨w0, _, _, _, ⟨-, rfl⟩, ⟨a, _, _, _, ⟨_, ⟨⟨a1, a2, a3⟩, rfl⟩, rfl⟩, ⟨w1, _, _, _, ⟨⟨b1, -, -⟩, rfl⟩,
            ⟨_, _, _, _, ⟨_, ⟨x, _, _, _, ⟨⟨e1, e2, e3⟩, rfl⟩, ⟨_, _, _, _, ⟨⟨pt, hpt, rfl⟩, rfl⟩, ⟨⟨y, f3, rfl⟩, rfl⟩, rfl, rfl⟩, rfl, rfl⟩, rfl⟩, ⟨w3, _, _, _, ⟨-, rfl⟩, ⟨rfl, rfl, -⟩, rfl, rfl⟩,
            rfl, rfl⟩, rfl, rfl⟩, rfl, rfl⟩, rfl, rfl⟩ := hp
          have hpt' : pt = '.' := by
            simp only [ch, beq_iff_eq] at hpt
            rw [← Char.ofNat_toNat pt, hpt]; rfl
          subst hpt'
          have f4 : Digits0 [y] := by intro c hc; simp at hc; subst hc; exact f3
          obtain ⟨p1, q1⟩ := two_digits a1 a2 a3
          obtain ⟨-, q3⟩ := two_digits e1 e2 e3
          have p3 := parse_any (a := x) (b := [y]) e3 f4 (by omega)
          refine ⟨_, ?_, Reads.minutes (d := 1) q1 (by omega) (parts_lt q3 (value_lt f4)) rfl⟩
          simp only [List.length_singleton] at p3
          simp [actionMinutesTenths, grpInt, grpFlt, group, bind, Except.bind, pure, Except.pure, p1, p3, zeroF, ofInt_nat (show value a < 2 ^ 53 by omega)]
        · split
          · rename_i m hm
            refine .inr ?_
            obtain ⟨c, r, rfl, hp⟩ := reMatch_parse hm
            simp only [checkIntegerMinutes, cat, star, plus, d12, Re.parse] at hp
            obtain ⟨w0, _, _, _, ⟨-, rfl⟩, ⟨a, _, _, _, ⟨_, ⟨⟨a1, a2, a3⟩, rfl⟩, rfl⟩, ⟨w1, _, _, _, ⟨⟨b1, -, -⟩, rfl⟩, ⟨x, _, _, _, ⟨_, ⟨⟨e1, e2, e3⟩, rfl⟩, rfl⟩, ⟨w3, _, _, _, ⟨-, rfl⟩, ⟨rfl, rfl, -⟩, rfl, rfl⟩,
              rfl, rfl⟩, rfl, rfl⟩, rfl, rfl⟩, rfl, rfl⟩ := hp
            obtain ⟨p1, q1⟩ := two_digits a1 a2 a3
            obtain ⟨p3, q3⟩ := two_digits e1 e2 e3
            refine ⟨_, ?_, Reads.minutes (d := 0) (k := value x) q1 (by omega) (by omega) rfl⟩
            simp [actionIntegerMinutes, grpInt, group, bind, Except.bind, pure, Except.pure, p1, p3, zeroF, ofInt_nat (show value a < 2 ^ 53 by omega),
              ofInt_nat (show value x < 2 ^ 53 by omega), rnd_nat (show value x < 2 ^ 53 by omega)]
          · exact .inl rfl

/-! ### carrying over -/

/-- the same time with less than 60 minutes and 60 seconds -/
theorem carry_seconds {h m k d : Nat} (hh : h < 100) (hm : m < 100) (hk : k < 100 * 10 ^ d) :
    ∃ h' m' k' : Nat, h' < 110 ∧ m' < 60 ∧ k' < 60 * 10 ^ d ∧ (3600 * h + 60 * m + (k : ℚ) / 10 ^ d) = 3600 * h' + 60 * m' + (k' : ℚ) / 10 ^ d := by
  have hp : 0 < 10 ^ d := by positivity
  generalize hP : 10 ^ d = P at *
  have hq : (10 : ℚ) ^ d = P := by rw [← hP]; push_cast; rfl
  have hPq : (0 : ℚ) < P := by exact_mod_cast hp
  let M := 60 * h + m + k / (60 * P)
  have h60 : 0 < 60 * P := by omega
  have hc : k / (60 * P) < 2 := by rw [Nat.div_lt_iff_lt_mul h60]; omega
  refine ⟨M / 60, M % 60, k % (60 * P), ?_, Nat.mod_lt _ (by omega), Nat.mod_lt _ h60, ?_⟩
  · show (60 * h + m + k / (60 * P)) / 60 < 110; omega
  · have e1 : (M : ℚ) = 60 * ((M / 60 : Nat) : ℚ) + ((M % 60 : Nat) : ℚ) := by exact_mod_cast (Nat.div_add_mod M 60).symm
    have e2 : (k : ℚ) = 60 * P * ((k / (60 * P) : Nat) : ℚ) + ((k % (60 * P) : Nat) : ℚ) := by exact_mod_cast (Nat.div_add_mod k (60 * P)).symm
    have e3 : (M : ℚ) = 60 * h + m + ((k / (60 * P) : Nat) : ℚ) := by push_cast [M]; rfl
    rw [hq, e2]
    have : (60 * (P : ℚ) * ((k / (60 * P) : Nat) : ℚ) + ((k % (60 * P) : Nat) : ℚ)) / P = 60 * ((k / (60 * P) : Nat) : ℚ) + ((k % (60 * P) : Nat) : ℚ) / P := by
      field_simp
    rw [this]
    linarith

theorem carry_minutes {h k d : Nat} (hh : h < 100) (hk : k < 100 * 10 ^ d) :
    ∃ h' k' : Nat, h' < 110 ∧ k' < 60 * 10 ^ d ∧ (3600 * h + 60 * ((k : ℚ) / 10 ^ d)) = 3600 * h' + 60 * ((k' : ℚ) / 10 ^ d) := by
  have hp : 0 < 10 ^ d := by positivity
  generalize hP : 10 ^ d = P at *
  have hq : (10 : ℚ) ^ d = P := by rw [← hP]; push_cast; rfl
  have hPq : (0 : ℚ) < P := by exact_mod_cast hp
  have h60 : 0 < 60 * P := by omega
  have hc : k / (60 * P) < 2 := by rw [Nat.div_lt_iff_lt_mul h60]; omega
  refine ⟨h + k / (60 * P), k % (60 * P), by omega, Nat.mod_lt _ h60, ?_⟩
  have e2 : (k : ℚ) = 60 * P * ((k / (60 * P) : Nat) : ℚ) + ((k % (60 * P) : Nat) : ℚ) := by exact_mod_cast (Nat.div_add_mod k (60 * P)).symm
  rw [hq, e2]
  have : (60 * (P : ℚ) * ((k / (60 * P) : Nat) : ℚ) + ((k % (60 * P) : Nat) : ℚ)) / P = 60 * ((k / (60 * P) : Nat) : ℚ) + ((k % (60 * P) : Nat) : ℚ) / P := by
    field_simp
  rw [this]
  push_cast
  ring

/-- the text that comes back is a reading -/
theorem reading_seconds {h m k d w : Nat} {pre t : Str} (hm : m < 60) (hk : k < 60 * 10 ^ d) (hl : t.length = 12) (hw : pre.length + 9 + w = 12)
    (ht : t = ljust 12 (pre ++ Spec.fixed 2 (h % 100) ++ [' '] ++ Spec.fixed 2 m ++ [' '] ++ tailText d k)) :
    ∃ r : Spec.Sexagesimal, r.Valid w ∧ t = Spec.column 12 (pre ++ r.text) := by
  have hh : h % 100 < 100 := Nat.mod_lt _ (by omega)
  rcases Nat.eq_zero_or_pos d with rfl | hd
  · refine ⟨.wholeSeconds (h % 100) m k, ⟨hh, hm, by omega⟩, ?_⟩
    rw [tailText_whole] at ht
    simpa [Spec.Sexagesimal.text, column_ljust] using ht
  · have hp : 0 < 10 ^ d := by positivity
    have hs : k / 10 ^ d < 60 := by rw [Nat.div_lt_iff_lt_mul hp]; exact hk
    have hf : k % 10 ^ d < 10 ^ d := Nat.mod_lt _ hp
    refine ⟨.seconds (h % 100) m (k / 10 ^ d) d (k % 10 ^ d), ⟨hh, hm, hs, hd, ?_, hf⟩, ?_⟩
    · have := congrArg List.length ht
      rw [hl] at this
      simp only [ljust, List.length_append, List.length_replicate, tailText, fixed_length (by omega : 1 ≤ 2) hh, fixed_length (by omega : 1 ≤ 2) (show m < 10 ^ 2 by omega),
        fixed_length (by omega : 1 ≤ 2) (show k / 10 ^ d < 10 ^ 2 by omega), if_neg (by omega : ¬ d = 0), List.length_cons, List.length_nil, fixed_length hd hf] at this
      omega
    · simpa [Spec.Sexagesimal.text, column_ljust, tailText, show d ≠ 0 by omega] using ht

theorem reading_minutes {h k d w : Nat} {pre t : Str} (hd2 : d ≤ 2) (hk : k < 60 * 10 ^ d)
    (ht : t = ljust 12 (pre ++ Spec.fixed 2 (h % 100) ++ [' '] ++ tailText d k)) :
    ∃ r : Spec.Sexagesimal, r.Valid w ∧ t = Spec.column 12 (pre ++ r.text) := by
  have hh : h % 100 < 100 := Nat.mod_lt _ (by omega)
  rcases Nat.eq_zero_or_pos d with rfl | hd
  · refine ⟨.wholeMinutes (h % 100) k, ⟨hh, by omega⟩, ?_⟩
    rw [tailText_whole] at ht
    simpa [Spec.Sexagesimal.text, column_ljust] using ht
  · have hp : 0 < 10 ^ d := by positivity
    have hs : k / 10 ^ d < 60 := by rw [Nat.div_lt_iff_lt_mul hp]; exact hk
    have hf : k % 10 ^ d < 10 ^ d := Nat.mod_lt _ hp
    refine ⟨.minutes (h % 100) (k / 10 ^ d) d (k % 10 ^ d), ⟨hh, hs, hd, hd2, hf⟩, ?_⟩
    simpa [Spec.Sexagesimal.text, column_ljust, tailText, show d ≠ 0 by omega] using ht

/-! ### right ascension -/

theorem checkRa_ite {t x u : Str} {p : Num} (h1 : sexRaToDecRa t = .ok (x, p)) (h2 : decRaToSexRa x p = .ok u) :
    checkRa t = if u ≠ t then .error .runtimeError else .ok (x, p) := by
  unfold checkRa
  rw [h1]
  simp only [bind, Except.bind, h2]
  rfl

theorem ra_seconds_any {t : Str} {h m k d : Nat} {p : Num} (hl : t.length = 12) (hc : checkSexagesimal t = .ok ⟨⟨false, h⟩, ⟨false, m⟩, ⟨false, rnd ((k : ℚ) / 10 ^ d)⟩, p⟩)
    (hh : h < 100) (hm : m < 100) (hk : k < 100 * 10 ^ d) (hd : d ≤ 6)
    (p1 : p.f ≠ ofRat (mkRat 6 10)) (p2 : p.f ≠ ofInt 6) (p3 : p.f ≠ ofInt 60) (p4 : precDigits p = .ok d) (p5 : digitsFor (mul p.f secToDegrees) = d + 3) :
    checkRa t = .error .runtimeError ∨ ∃ r : Spec.Sexagesimal, r.Valid 3 ∧ t = Spec.column 12 r.text := by
  obtain ⟨h', m', k', b1, b2, b3, hN⟩ := carry_seconds hh hm hk
  have k0 : (0 : ℚ) ≤ (k : ℚ) / 10 ^ d := by positivity
  have hT := total_seconds_near (h := h) (m := m) k0
  have hP : (0 : ℚ) < 10 ^ d := by positivity
  have kk : (k' : ℚ) / 10 ^ d ≤ 60 := by rw [div_le_iff₀ hP]; exact_mod_cast b3.le
  have hq1 : (h' : ℚ) ≤ 109 := by exact_mod_cast (by omega : h' ≤ 109)
  have hq2 : (m' : ℚ) ≤ 59 := by exact_mod_cast (by omega : m' ≤ 59)
  have hF := ra_forward (by positivity) (by rw [hN]; linarith) hT (d + 3)
  rw [hN] at hF
  have back := ra_sec_back' b1 b2 hd b3 p1 p2 p3 p4 hF
  have fwd : sexRaToDecRa t = .ok (decText (d + 3) (roundEven (rnd (rnd (3600 * h + 60 * m + rnd ((k : ℚ) / 10 ^ d)) * cRA) * (10 ^ (d + 3) : Nat))), p) := by
    unfold sexRaToDecRa
    rw [hc]
    simp only [bind, Except.bind, pure, Except.pure, total_seconds hh hm (rnd_nonneg _), p5]
    simp only [secToDegrees_eq, mul_pos', fmtF_pos]
  rw [checkRa_ite fwd back]
  split
  · exact .inl rfl
  · rename_i hne
    simp only [ne_eq, not_not] at hne
    have := reading_seconds (w := 3) (pre := []) b2 b3 hl rfl (by simpa using hne.symm)
    exact .inr (by simpa using this)

theorem ra_minutes_any {t : Str} {h k d : Nat} {p : Num} (hc : checkSexagesimal t = .ok ⟨⟨false, h⟩, ⟨false, rnd ((k : ℚ) / 10 ^ d)⟩, ⟨false, 0⟩, p⟩)
    (hh : h < 100) (hk : k < 100 * 10 ^ d) (hd : d ≤ 2)
    (hp : p.f = if d = 2 then ofRat (mkRat 6 10) else if d = 1 then ofInt 6 else ofInt 60) (p5 : digitsFor (mul p.f secToDegrees) = d + 1) :
    checkRa t = .error .runtimeError ∨ ∃ r : Spec.Sexagesimal, r.Valid 3 ∧ t = Spec.column 12 r.text := by
  obtain ⟨h', k', b1, b3, hN⟩ := carry_minutes hh hk
  have k0 : (0 : ℚ) ≤ (k : ℚ) / 10 ^ d := by positivity
  have hT := total_minutes_near (h := h) k0
  have hP : (0 : ℚ) < 10 ^ d := by positivity
  have kk : (k' : ℚ) / 10 ^ d ≤ 60 := by rw [div_le_iff₀ hP]; exact_mod_cast b3.le
  have hq1 : (h' : ℚ) ≤ 109 := by exact_mod_cast (by omega : h' ≤ 109)
  have hF := ra_forward (by positivity) (by rw [hN]; linarith) hT (d + 1)
  rw [hN] at hF
  have back := ra_min_back' b1 hd b3 hp hF
  have fwd : sexRaToDecRa t = .ok (decText (d + 1) (roundEven (rnd (rnd (3600 * h + rnd (60 * rnd ((k : ℚ) / 10 ^ d))) * cRA) * (10 ^ (d + 1) : Nat))), p) := by
    unfold sexRaToDecRa
    rw [hc]
    simp only [bind, Except.bind, pure, Except.pure, total_minutes hh (rnd_nonneg _), p5]
    simp only [secToDegrees_eq, mul_pos', fmtF_pos]
  rw [checkRa_ite fwd back]
  split
  · exact .inl rfl
  · rename_i hne
    simp only [ne_eq, not_not] at hne
    have := reading_minutes (w := 3) (pre := []) hd b3 (by simpa using hne.symm)
    exact .inr (by simpa using this)

theorem ra_any (t : Str) (hl : t.length = 12) : checkRa t = .error .runtimeError ∨ ∃ r : Spec.Sexagesimal, r.Valid 3 ∧ t = Spec.column 12 r.text := by
  rcases check_any t with he | ⟨s, hs, hr⟩
  · refine .inl ?_
    simp [checkRa, sexRaToDecRa, he, bind, Except.bind]
  · cases hr with
    | @seconds h m k d h1 h2 h3 h4 =>
      have hd : d ≤ 6 := by omega
      have p4 : precDigits (.flt (ofRat (ten (-(d : Int))))) = .ok d ∧ (Num.flt (ofRat (ten (-(d : Int))))).f ≠ ofRat (mkRat 6 10) ∧
        (Num.flt (ofRat (ten (-(d : Int))))).f ≠ ofInt 6 ∧ (Num.flt (ofRat (ten (-(d : Int))))).f ≠ ofInt 60 ∧
        digitsFor (mul (Num.flt (ofRat (ten (-(d : Int))))).f secToDegrees) = d + 3 := by
        obtain rfl | rfl | rfl | rfl | rfl | rfl | rfl : d = 0 ∨ d = 1 ∨ d = 2 ∨ d = 3 ∨ d = 4 ∨ d = 5 ∨ d = 6 := by omega
        all_goals decide +kernel
      exact ra_seconds_any hl hs h1 h2 h3 hd p4.2.1 p4.2.2.1 p4.2.2.2.1 p4.1 p4.2.2.2.2
    | @wholeSeconds h m k h1 h2 h3 =>
      have p4 : precDigits (.int 1) = .ok 0 ∧ (Num.int 1).f ≠ ofRat (mkRat 6 10) ∧
        (Num.int 1).f ≠ ofInt 6 ∧ (Num.int 1).f ≠ ofInt 60 ∧ digitsFor (mul (Num.int 1).f secToDegrees) = 0 + 3 := by decide +kernel
      exact ra_seconds_any (d := 0) hl hs h1 h2 (by omega) (by omega) p4.2.1 p4.2.2.1 p4.2.2.2.1 p4.1 p4.2.2.2.2
    | @minutes h k d p h1 h2 h3 h4 =>
      have p4 : p.f = (if d = 2 then ofRat (mkRat 6 10) else if d = 1 then ofInt 6 else ofInt 60) ∧ digitsFor (mul p.f secToDegrees) = d + 1 := by
        subst h4
        obtain rfl | rfl | rfl : d = 0 ∨ d = 1 ∨ d = 2 := by omega
        all_goals decide +kernel
      exact ra_minutes_any hs h1 h3 h2 p4.1 p4.2

/-! ### declination -/

theorem checkDec_ite {t x u : Str} {p : Num} (h1 : sexDeclToDecDecl t = .ok (x, p)) (h2 : degDeclToSexDecl x p = .ok u) :
    checkDec t = if u ≠ t then .error .runtimeError else .ok (x, p) := by
  unfold checkDec
  rw [h1]
  simp only [bind, Except.bind, h2]
  rfl

theorem dec_begin {t : Str} {neg : Bool} {s : Sexa} (hs : checkSexagesimal t = .ok s) :
    sexDeclToDecDecl (signOf neg :: t) = .ok (fmtF (digitsFor (mul s.prec.f arcsecToDegrees)) (mul (if signOf neg = '-' then Flt.neg (ofInt 1) else ofInt 1)
        (add (add s.hh (div s.mm (ofInt 60))) (div s.ss (ofInt 3600)))), s.prec) := by
  have hn : ¬ (signOf neg ≠ '+' ∧ signOf neg ≠ '-') := by cases neg <;> simp [signOf]
  unfold sexDeclToDecDecl
  simp only [if_neg hn, hs, bind, Except.bind, pure, Except.pure]

theorem dec_seconds_any {t : Str} {neg : Bool} {h m k d : Nat} {p : Num} {g : ℚ} (hl : t.length = 11)
    (hc : checkSexagesimal t = .ok ⟨⟨false, h⟩, ⟨false, m⟩, ⟨false, rnd ((k : ℚ) / 10 ^ d)⟩, p⟩)
    (hh : h < 100) (hm : m < 100) (hk : k < 100 * 10 ^ d) (hd : d ≤ 5)
    (p1 : p.f ≠ ofRat (mkRat 6 10)) (p2 : p.f ≠ ofInt 6) (p3 : p.f ≠ ofInt 60) (p4 : precDigits p = .ok d) (p5 : digitsFor (mul p.f arcsecToDegrees) = d + 4)
    (p6 : degDeclToSexDecl ('-' :: decText (d + 4) 0) p = .ok (ljust 12 (['-'] ++ Spec.fixed 2 0 ++ [' '] ++ Spec.fixed 2 0 ++ [' '] ++ tailText d 0)))
    (p7 : mul (ofRat (mkRat 1 2)) p.f = ⟨false, g⟩) (hg : |g - 1 / 2 * (1 / 10 ^ d)| ≤ 0.01 * (1 / 10 ^ d)) :
    checkDec (signOf neg :: t) = .error .runtimeError ∨ ∃ r : Spec.Sexagesimal, r.Valid 2 ∧ signOf neg :: t = Spec.column 12 (signOf neg :: r.text) := by
  obtain ⟨h', m', k', b1, b2, b3, hN⟩ := carry_seconds hh hm hk
  have k0 : (0 : ℚ) ≤ (k : ℚ) / 10 ^ d := by positivity
  have hT := sum_seconds_near (h := h) (m := m) k0
  have hP : (0 : ℚ) < 10 ^ d := by positivity
  have kk : (k' : ℚ) / 10 ^ d ≤ 60 := by rw [div_le_iff₀ hP]; exact_mod_cast b3.le
  have hq1 : (h' : ℚ) ≤ 109 := by exact_mod_cast (by omega : h' ≤ 109)
  have hq2 : (m' : ℚ) ≤ 59 := by exact_mod_cast (by omega : m' ≤ 59)
  have hF := dec_forward (by positivity) (by rw [hN]; linarith) hT (d + 4)
  rw [hN] at hF
  have back := dec_sec_back' (neg := neg) b1 b2 hd b3 p1 p2 p3 p4 p7 hg p6 hF
  have fwd := dec_begin (neg := neg) hc
  simp only [sum_seconds (rnd_nonneg _), p5, signed_fmt] at fwd
  rw [checkDec_ite fwd back]
  split
  · exact .inl rfl
  · rename_i hne
    simp only [ne_eq, not_not] at hne
    exact .inr (by simpa using reading_seconds (w := 2) (pre := [signOf neg]) b2 b3 (by simp [hl]) rfl hne.symm)

theorem dec_minutes_any {t : Str} {neg : Bool} {h k d : Nat} {p : Num} (hc : checkSexagesimal t = .ok ⟨⟨false, h⟩, ⟨false, rnd ((k : ℚ) / 10 ^ d)⟩, ⟨false, 0⟩, p⟩)
    (hh : h < 100) (hk : k < 100 * 10 ^ d) (hd : d ≤ 2)
    (hp : p.f = if d = 2 then ofRat (mkRat 6 10) else if d = 1 then ofInt 6 else ofInt 60) (p5 : digitsFor (mul p.f arcsecToDegrees) = d + 2)
    (p6 : degDeclToSexDecl ('-' :: decText (d + 2) 0) p = .ok (ljust 12 (['-'] ++ Spec.fixed 2 0 ++ [' '] ++ tailText d 0))) :
    checkDec (signOf neg :: t) = .error .runtimeError ∨ ∃ r : Spec.Sexagesimal, r.Valid 2 ∧ signOf neg :: t = Spec.column 12 (signOf neg :: r.text) := by
  obtain ⟨h', k', b1, b3, hN⟩ := carry_minutes hh hk
  have k0 : (0 : ℚ) ≤ (k : ℚ) / 10 ^ d := by positivity
  have hT := sum_minutes_near (h := h) k0
  have hP : (0 : ℚ) < 10 ^ d := by positivity
  have kk : (k' : ℚ) / 10 ^ d ≤ 60 := by rw [div_le_iff₀ hP]; exact_mod_cast b3.le
  have hq1 : (h' : ℚ) ≤ 109 := by exact_mod_cast (by omega : h' ≤ 109)
  have hF := dec_forward (by positivity) (by rw [hN]; linarith) hT (d + 2)
  rw [hN] at hF
  have back := dec_min_back' (neg := neg) b1 hd b3 hp p6 hF
  have fwd := dec_begin (neg := neg) hc
  simp only [sum_minutes, p5, signed_fmt] at fwd
  rw [checkDec_ite fwd back]
  split
  · exact .inl rfl
  · rename_i hne
    simp only [ne_eq, not_not] at hne
    exact .inr (by simpa using reading_minutes (w := 2) (pre := [signOf neg]) hd b3 hne.symm)

theorem half_unit (d : Nat) : |rnd (1 / 2 * rnd ((1 : ℚ) / 10 ^ d)) - 1 / 2 * (1 / 10 ^ d)| ≤ 0.01 * (1 / 10 ^ d) := by
  have q0 : (0 : ℚ) ≤ 1 / 10 ^ d := by positivity
  have a := rnd_near q0
  have a0 := rnd_nonneg ((1 : ℚ) / 10 ^ d)
  have b := rnd_near (q := 1 / 2 * rnd ((1 : ℚ) / 10 ^ d)) (by positivity)
  rw [abs_le]; constructor <;> linarith

theorem dec_any_signed (neg : Bool) (t : Str) (hl : t.length = 11) :
    checkDec (signOf neg :: t) = .error .runtimeError ∨ ∃ r : Spec.Sexagesimal, r.Valid 2 ∧ signOf neg :: t = Spec.column 12 (signOf neg :: r.text) := by
  rcases check_any t with he | ⟨s, hs, hr⟩
  · refine .inl ?_
    have hn : ¬ (signOf neg ≠ '+' ∧ signOf neg ≠ '-') := by cases neg <;> simp [signOf]
    unfold checkDec sexDeclToDecDecl
    simp only [if_neg hn, he, bind, Except.bind]
  · cases hr with
    | @seconds h m k d h1 h2 h3 h4 =>
      have hd : d ≤ 5 := by omega
      have p4 : precDigits (.flt (ofRat (ten (-(d : Int))))) = .ok d ∧ (Num.flt (ofRat (ten (-(d : Int))))).f ≠ ofRat (mkRat 6 10) ∧
        (Num.flt (ofRat (ten (-(d : Int))))).f ≠ ofInt 6 ∧ (Num.flt (ofRat (ten (-(d : Int))))).f ≠ ofInt 60 ∧
        digitsFor (mul (Num.flt (ofRat (ten (-(d : Int))))).f arcsecToDegrees) = d + 4 ∧
        degDeclToSexDecl ('-' :: decText (d + 4) 0) (.flt (ofRat (ten (-(d : Int))))) =
          .ok (ljust 12 (['-'] ++ Spec.fixed 2 0 ++ [' '] ++ Spec.fixed 2 0 ++ [' '] ++ tailText d 0)) := by
        obtain rfl | rfl | rfl | rfl | rfl | rfl : d = 0 ∨ d = 1 ∨ d = 2 ∨ d = 3 ∨ d = 4 ∨ d = 5 := by omega
        all_goals decide +kernel
      have p5 : (mul (ofRat (mkRat 1 2)) (Num.flt (ofRat (ten (-(d : Int))))).f) = ⟨false, rnd (1 / 2 * rnd (1 / 10 ^ d))⟩ := by
        rw [ten_neg, show ofRat (mkRat 1 2) = ⟨false, 1 / 2⟩ by decide +kernel]
        simp only [Num.f]; rw [ofRat_nonneg (by positivity)]; rfl
      exact dec_seconds_any hl hs h1 h2 h3 hd p4.2.1 p4.2.2.1 p4.2.2.2.1 p4.1 p4.2.2.2.2.1 p4.2.2.2.2.2 p5 (half_unit d)
    | @wholeSeconds h m k h1 h2 h3 =>
      have p4 : precDigits (.int 1) = .ok 0 ∧ (Num.int 1).f ≠ ofRat (mkRat 6 10) ∧
        (Num.int 1).f ≠ ofInt 6 ∧ (Num.int 1).f ≠ ofInt 60 ∧ digitsFor (mul (Num.int 1).f arcsecToDegrees) = 0 + 4 ∧
        degDeclToSexDecl ('-' :: decText (0 + 4) 0) (.int 1) =
          .ok (ljust 12 (['-'] ++ Spec.fixed 2 0 ++ [' '] ++ Spec.fixed 2 0 ++ [' '] ++ tailText 0 0)) ∧
        mul (ofRat (mkRat 1 2)) (Num.int 1).f = ⟨false, 1 / 2⟩ := by decide +kernel
      exact dec_seconds_any (d := 0) hl hs h1 h2 (by omega) (by omega) p4.2.1 p4.2.2.1 p4.2.2.2.1 p4.1 p4.2.2.2.2.1 p4.2.2.2.2.2.1 p4.2.2.2.2.2.2 (by norm_num)
    | @minutes h k d p h1 h2 h3 h4 =>
      have p4 : p.f = (if d = 2 then ofRat (mkRat 6 10) else if d = 1 then ofInt 6 else ofInt 60) ∧ digitsFor (mul p.f arcsecToDegrees) = d + 2 ∧
        degDeclToSexDecl ('-' :: decText (d + 2) 0) p = .ok (ljust 12 (['-'] ++ Spec.fixed 2 0 ++ [' '] ++ tailText d 0)) := by
        subst h4
        obtain rfl | rfl | rfl : d = 0 ∨ d = 1 ∨ d = 2 := by omega
        all_goals decide +kernel
      exact dec_minutes_any hs h1 h3 h2 p4.1 p4.2.1 p4.2.2

theorem dec_any (t : Str) (hl : t.length = 12) :
    checkDec t = .error .runtimeError ∨ ∃ neg, ∃ r : Spec.Sexagesimal, r.Valid 2 ∧ t = Spec.column 12 (signOf neg :: r.text) := by
  cases t with
  | nil => simp at hl
  | cons c t =>
    have hl' : t.length = 11 := by simpa using hl
    by_cases hp : c = '+'
    · subst hp
      rcases dec_any_signed false t hl' with h | h
      · exact .inl h
      · exact .inr ⟨false, h⟩
    · by_cases hm : c = '-'
      · subst hm
        rcases dec_any_signed true t hl' with h | h
        · exact .inl h
        · exact .inr ⟨true, h⟩
      · refine .inl ?_
        unfold checkDec sexDeclToDecDecl
        simp [hp, hm, bind, Except.bind, raiseRT]

end Verif.Sex
