import Verif.Lemmas.SexText
import Verif.Spec.Numeral
/-
  Verif.Lemmas.Numeral : decimal numerals are read as the nearest float.
-/
namespace Verif.Sex
open Verif Flt

theorem digit_val {c : Char} (h : c ∈ digits10) : decVal c = some (c.toNat - 48) := by
  have : digits10.all (fun c => decVal c == some (c.toNat - 48)) = true := by decide
  simpa using List.all_eq_true.1 this c h

theorem digitsVal_digits {ds : Str} (h : ∀ c ∈ ds, c ∈ digits10) : digitsVal ds = some (Spec.digitsNat ds) := by
  unfold digitsVal Spec.digitsNat
  generalize 0 = n
  induction ds generalizing n with
  | nil => rfl
  | cons c ds ih =>
    simp only [List.foldl_cons, digit_val (h c (by simp))]
    rw [ih (fun c hc => h c (by simp [hc])), Nat.mul_comm n 10]

theorem decimalVal_whole {a : Str} (ha : ∀ c ∈ a, c ∈ digits10) (hl : a ≠ []) :
    decimalVal a = some (Spec.digitsNat a) := by
  have ht : a.takeWhile (· ≠ '.') = a := by
    have := takeWhile_dot a [] ha
    clear hl
    induction a with
    | nil => rfl
    | cons c a ih =>
      have hc : c ≠ '.' := by
        have := ha c (by simp)
        intro e; subst e; revert this; decide
      have hc' : (decide (c ≠ '.')) = true := by simpa using hc
      rw [List.takeWhile_cons, hc']
      simp only [if_true]
      rw [ih (fun c h => ha c (by simp [h])) (takeWhile_dot a [] (fun c h => ha c (by simp [h])))]
  unfold decimalVal
  simp only [ht]
  have : a.drop (a.length + 1) = [] := by simp
  rw [this]
  have hlen : a.length ≠ 0 := by simpa using hl
  rw [if_neg (by simpa using hl), digitsVal_digits ha]
  have : digitsVal [] = some 0 := rfl
  simp only [this, List.length_nil, pow_zero, mul_one]
  rw [Rat.mkRat_eq_div]
  simp

/-- what stands after the sign -/
def unsigned (n : Spec.Numeral) : Str := n.whole ++ (match n.frac with | some f => '.' :: f | none => [])

theorem size_nonneg (n : Spec.Numeral) : 0 ≤ n.size := by
  unfold Spec.Numeral.size; positivity

theorem decimalVal_numeral {n : Spec.Numeral} (h : n.Valid) : decimalVal (unsigned n) = some n.size := by
  obtain ⟨-, h1, h2, h3⟩ := h
  unfold unsigned Spec.Numeral.size
  cases hf : n.frac with
  | none =>
    rw [hf] at h3
    simp only [Option.getD_none, ne_eq, not_true_eq_false, or_false] at h3
    simp only [List.append_nil, decimalVal_whole h1 h3, Option.getD_none]
    have : Spec.digitsNat [] = 0 := rfl
    simp [this]
  | some f =>
    rw [hf] at h2 h3
    have h2 := h2 f rfl
    simp only [Option.getD_some] at h3 ⊢
    rw [decimalVal_eq h1 (by
      rcases h3 with h3 | h3
      · have := List.length_pos_iff.2 h3; omega
      · have := List.length_pos_iff.2 h3; omega) (digitsVal_digits h1) (digitsVal_digits h2), Rat.mkRat_eq_div]
    congr 1
    push_cast
    field_simp

theorem unsigned_head {n : Spec.Numeral} (h : n.Valid) : ∀ c ∈ unsigned n, isSpace c = false ∧ c ≠ '-' ∧ c ≠ '+' := by
  obtain ⟨-, h1, h2, -⟩ := h
  have dig : ∀ c ∈ digits10, isSpace c = false ∧ c ≠ '-' ∧ c ≠ '+' := by decide
  intro c hc
  unfold unsigned at hc
  rcases List.mem_append.1 hc with hc | hc
  · exact dig c (h1 c hc)
  · cases hf : n.frac with
    | none => rw [hf] at hc; simp at hc
    | some f =>
      rw [hf] at hc
      rcases List.mem_cons.1 hc with rfl | hc
      · decide
      · exact dig c (h2 f hf c hc)

theorem text_unsigned (n : Spec.Numeral) : n.text = n.sign.toList ++ unsigned n := by
  unfold Spec.Numeral.text unsigned
  rw [List.append_assoc]; cases n.frac <;> rfl

/-- a numeral is read as the nearest float -/
theorem parse_numeral {n : Spec.Numeral} (h : n.Valid) : parse n.text = .ok ⟨decide (n.sign = some '-'), rnd n.size⟩ := by
  have hd := magnitude_decimal (decimalVal_numeral h)
  have hh := unsigned_head h
  have hne : unsigned n ≠ [] := by
    intro e
    have : magnitude [] = none := rfl
    rw [e, this] at hd; cases hd
  have hs0 := size_nonneg n
  have hsp : ∀ c ∈ n.text, isSpace c = false := by
    intro c hc
    rw [text_unsigned] at hc
    rcases List.mem_append.1 hc with hc | hc
    · have := h.1 c (by simpa using hc)
      rcases this with rfl | rfl <;> decide
    · exact (hh c hc).1
  unfold parse
  rw [strip_nospace hsp, text_unsigned]
  cases hs : n.sign with
  | none =>
    cases hu : unsigned n with
    | nil => exact absurd hu hne
    | cons c t =>
      rw [hu] at hd hh
      have hc := (hh c (by simp)).2
      simp only [Option.toList_none, List.nil_append]
      split
      · rename_i e; injection e with e1; exact absurd e1 hc.1
      · rename_i e; injection e with e1; exact absurd e1 hc.2
      · simp only [hd, ofRat_nonneg hs0]; rfl
  | some c =>
    rcases h.1 c hs with rfl | rfl
    · simp only [Option.toList_some, List.cons_append, List.nil_append, hd, ofRat_nonneg hs0]; rfl
    · simp only [Option.toList_some, List.cons_append, List.nil_append, hd, ofRat_nonneg hs0]; rfl

/-! exponents and underscores -/
example : parse (c! "1.5e-3") = parse (c! "0.0015") ∧ parse (c! "1_0.5E+1") = parse (c! "105") ∧ parse (c! " -2e0\n") = parse (c! "-2.") := by decide +kernel
example : parse (c! "1__0") = .error .valueError ∧ parse (c! "_1") = .error .valueError ∧ parse (c! "1e") = .error .valueError ∧
    parse (c! "1_e5") = .error .valueError ∧ parse (c! "e5") = .error .valueError := by decide +kernel

end Verif.Sex
