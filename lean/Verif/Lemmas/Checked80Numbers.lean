import Verif.Lemmas.Checked80Fields
import Verif.Lemmas.Mpc80Second
import Verif.Lemmas.BackNormal
import Mathlib.Tactic.Linarith
import Mathlib.Tactic.Positivity
import Mathlib.Tactic.FieldSimp
import Mathlib.Tactic.Ring
import Mathlib.Tactic.NormNum
/-!
  Lemmas.Checked80Numbers : the numbers that the converter writes.
-/
namespace Verif.Checked
open Verif.Xml Verif.Spec Verif.Check Verif.Xsd Verif.Fields Verif.Submission Verif.PackUtil Verif.Mpc80
open Verif.Spec.Mpc80 (leafOf nodeOf val Optical RefCols modeOf catName precText progText bandText noteLetters programLetters)
open Verif.Spec.Xsd (white)

/-! ### numbers -/

theorem dec_zeros (n : Nat) : (Spec.dec n).head? = some '0' → Spec.dec n = ['0'] := by
  rw [dec_eq]
  induction n using Nat.strongRecOn with
  | _ n ih =>
    by_cases h : n < 10
    · rw [natStr_lt h]
      intro e; simp at e; rw [e]
    · rw [natStr_ge (by omega)]
      intro e
      have hne := natStr_ne_nil (n / 10)
      cases hq : natStr (n / 10) with
      | nil => exact absurd hq hne
      | cons c s =>
        rw [hq] at e
        simp at e
        have := ih (n / 10) (by omega) (by rw [hq, e]; rfl)
        have hv := intDigits_natStr (n / 10)
        rw [this] at hv
        have : n / 10 = 0 := by
          have : intDigits 0 false ['0'] = some 0 := by decide
          rw [this] at hv
          injection hv with hv
          exact hv.symm
        omega

/-- decimal texts as numerals -/
def num (sign : Option Char) (n k : Nat) : Numeral := ⟨sign, Spec.dec (k / 10 ^ n), some (fixed n (k % 10 ^ n))⟩

theorem num_plain {sign : Option Char} (hs : ∀ c ∈ sign, c = '+' ∨ c = '-') (n k : Nat) : Plain (num sign n k) :=
  ⟨⟨hs, dec_mem _, by intro f hf; simp [num] at hf; subst hf; exact fixed_mem _ _, .inl (by have := dec_pos (k / 10 ^ n); intro e; simp [num] at e; simp [e] at this)⟩, dec_zeros _⟩

theorem num_text (sign : Option Char) (n k : Nat) : (num sign n k).text = sign.toList ++ decimal n k := by simp [num, Numeral.text, decimal]

theorem digitsNat_dec (n : Nat) : digitsNat (Spec.dec n) = n := by
  have := Submit80.digitsNat_fixed 1 n
  rwa [fixed, show List.leftpad 1 '0' (Spec.dec n) = Spec.dec n from by
    have := dec_pos n
    simp [List.leftpad, show 1 - (Spec.dec n).length = 0 by omega]] at this

theorem num_size {sign : Option Char} {n : Nat} (hn : 1 ≤ n) (k : Nat) : (num sign n k).size = (k : Rat) / ((10 ^ n : Nat) : Rat) := by
  have hp : 0 < 10 ^ n := Nat.pow_pos (by decide)
  have hl : (fixed n (k % 10 ^ n)).length = n := fixed_length hn (Nat.mod_lt _ hp)
  simp only [Numeral.size, num, Option.getD_some, digitsNat_dec, Submit80.digitsNat_fixed, hl]
  have hq : ((10 ^ n : Nat) : Rat) ≠ 0 := by exact_mod_cast hp.ne'
  have hk : (k : Rat) = ((10 ^ n : Nat) : Rat) * ((k / 10 ^ n : Nat) : Rat) + ((k % 10 ^ n : Nat) : Rat) := by exact_mod_cast (Nat.div_add_mod k (10 ^ n)).symm
  field_simp
  rw [hk]; ring

theorem num_strip (sign : Option Char) (hs : ∀ c ∈ sign, c = '+' ∨ c = '-') (n k : Nat) : Spec.Xsd.trim (num sign n k).text = (num sign n k).text :=
  trim_of_strip (Submit80.numeral_strip (num_plain hs n k).1)

theorem num_unique {sign : Option Char} (hs : ∀ c ∈ sign, c = '+' ∨ c = '-') {n k : Nat} {m : Numeral} (hm : m.Valid) (e : (num sign n k).text = m.text) : m = num sign n k :=
  (text_inj (Good.of (num_plain hs n k).1) (Good.of hm) e).symm

theorem num_frac {sign : Option Char} {n : Nat} (hn : 1 ≤ n) (k : Nat) : ((num sign n k).frac.getD []).length = n :=
  fixed_length hn (Nat.mod_lt _ (Nat.pow_pos (by decide)))

theorem ra_field {n k : Nat} (h1 : 1 ≤ n) (h9 : n ≤ 9) : Field (c! "ra") (decimal n k) ↔ k < 360 * 10 ^ n := by
  rw [general_field (P := fun v => RightAscension (Spec.Xsd.trim v)) (by in_list fieldValue) (by decide)]
  have hp : (0 : Rat) < ((10 ^ n : Nat) : Rat) := by exact_mod_cast Nat.pow_pos (by decide)
  have et : decimal n k = (num none n k).text := by simp [num_text]
  rw [et, num_strip none (by simp)]
  have key : (num none n k).value < 360 ↔ k < 360 * 10 ^ n := by
    rw [show (num none n k).value = (num none n k).size by simp [Numeral.value, num], num_size h1, div_lt_iff₀ hp]
    exact_mod_cast Iff.rfl
  constructor
  · rintro ⟨m, hm, e, -, -, hv⟩
    rw [num_unique (by simp) hm.1 e] at hv
    exact key.1 hv
  · intro h
    exact ⟨_, num_plain (by simp) n k, rfl, rfl, by rw [num_frac h1]; exact h9, key.2 h⟩

theorem dec_field {n k : Nat} (h1 : 1 ≤ n) (h9 : n ≤ 9) (south : Bool) : Field (c! "dec") ((if south then ['-'] else []) ++ decimal n k) ↔ k ≤ 90 * 10 ^ n := by
  rw [general_field (P := fun v => DeclinationValue (Spec.Xsd.trim v)) (by in_list fieldValue) (by decide)]
  have hp : (0 : Rat) < ((10 ^ n : Nat) : Rat) := by exact_mod_cast Nat.pow_pos (by decide)
  obtain ⟨sg, hs, hsg⟩ : ∃ sg : Option Char, (∀ c ∈ sg, c = '+' ∨ c = '-') ∧ sg.toList = if south then ['-'] else [] := by
    cases south
    · exact ⟨none, by simp, rfl⟩
    · exact ⟨some '-', by simp, rfl⟩
  rw [← hsg, ← num_text, num_strip sg hs]
  have key : (num sg n k).size ≤ 90 ↔ k ≤ 90 * 10 ^ n := by
    rw [num_size h1, div_le_iff₀ hp]
    exact_mod_cast Iff.rfl
  constructor
  · rintro ⟨m, hm, e, -, hv⟩
    rw [num_unique hs hm.1 e] at hv
    exact key.1 hv
  · intro h
    exact ⟨_, num_plain hs n k, rfl, by rw [num_frac h1]; exact h9, key.2 h⟩

theorem coord_field {n : Str} (hn : n ∈ [c! "pos1", c! "pos2", c! "pos3"]) {c : Mpc80.Coord} {w : Nat} (hw : 1 ≤ w) (hw' : w ≤ 8) (h : c.Valid w) : Field n c.text := by
  have : Field n c.text ↔ Signed 13 (Spec.Xsd.trim c.text) := by
    simp only [List.mem_cons, List.not_mem_nil, or_false] at hn
    rcases hn with rfl | rfl | rfl <;> exact general_field (P := fun v => Signed 13 (Spec.Xsd.trim v)) (by in_list fieldValue) (by decide)
  rw [this]
  obtain ⟨h1, h2, h3, h4⟩ := h
  have hs : ∀ x ∈ some c.sign, x = '+' ∨ x = '-' := by
    intro x hx; simp [Mpc80.Coord.sign] at hx; subst hx; split <;> simp
  have hp : 0 < 10 ^ c.digits := Nat.pow_pos (by decide)
  have hd : (c.whole * 10 ^ c.digits + c.frac) / 10 ^ c.digits = c.whole := by
    rw [Nat.add_comm, Nat.add_mul_div_right _ _ hp, Nat.div_eq_of_lt h4, Nat.zero_add]
  have hm : (c.whole * 10 ^ c.digits + c.frac) % 10 ^ c.digits = c.frac := by
    rw [Nat.add_comm, Nat.add_mul_mod_self_right, Nat.mod_eq_of_lt h4]
  have e : c.text = (num (some c.sign) c.digits (c.whole * 10 ^ c.digits + c.frac)).text := by
    rw [num_text, decimal, hd, hm]; simp [Mpc80.Coord.text]
  rw [e, num_strip _ hs]
  refine ⟨_, num_plain hs _ _, rfl, ?_, ?_⟩
  · have := dec_pos ((c.whole * 10 ^ c.digits + c.frac) / 10 ^ c.digits)
    intro e; simp [num] at e; simp [e] at this
  · have k1 := dec_le (n := c.whole) (k := w) hw h1
    have k2 : (fixed c.digits c.frac).length = c.digits := fixed_length h2 h4
    simp only [width, num, hd, hm, k2]
    omega

end Verif.Checked
