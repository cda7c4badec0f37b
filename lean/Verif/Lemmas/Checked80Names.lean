import Verif.Lemmas.Checked80
import Verif.Lemmas.Mpc80Second
import Verif.Lemmas.BackNormal
import Mathlib.Tactic.Linarith
import Mathlib.Tactic.Positivity
import Mathlib.Tactic.FieldSimp
import Mathlib.Tactic.Ring
import Mathlib.Tactic.NormNum
/-!
  Lemmas.Checked80Names : the designations that the converter writes.
-/
namespace Verif.Checked
open Verif.Xml Verif.Spec Verif.Check Verif.Xsd Verif.Fields Verif.Submission Verif.PackUtil Verif.Mpc80
open Verif.Spec.Mpc80 (leafOf nodeOf val Optical RefCols modeOf catName precText progText bandText noteLetters programLetters)
open Verif.Spec.Xsd (white)

/-! ### digits -/

theorem dec_mem (n : Nat) : ∀ c ∈ Spec.dec n, c ∈ c! "0123456789" := by rw [dec_eq]; exact natStr_mem n
theorem dec_isDec (n : Nat) : ∀ c ∈ Spec.dec n, isDec c = true := by rw [dec_eq]; exact natStr_isDec n
theorem dec_pos (n : Nat) : 1 ≤ (Spec.dec n).length := by rw [dec_eq]; exact natStr_length_pos n
theorem dec_le {n k : Nat} (hk : 0 < k) (h : n < 10 ^ k) : (Spec.dec n).length ≤ k := by rw [dec_eq]; exact natStr_length_le hk h

theorem dec_digits (n : Nat) : Digits 1 none (Spec.dec n) := ⟨dec_pos n, by simp, dec_isDec n⟩
theorem dec_digits3 {n : Nat} (h : n < 1000) : Digits 1 (some 3) (Spec.dec n) := ⟨dec_pos n, fun _ e => by cases e; exact dec_le (by decide) h, dec_isDec n⟩
theorem year_digits {y : Nat} (h1 : 1000 ≤ y) (h2 : y ≤ 9999) : Digits 4 (some 4) (Spec.dec y) := by
  have : (Spec.dec y).length = 4 := by rw [dec_eq]; exact year_len h1 h2
  exact ⟨by omega, fun _ e => by cases e; omega, dec_isDec y⟩
theorem fixed_digits {n : Nat} (h : n < 10000) : Digits 4 (some 4) (fixed 4 n) := by
  have : (fixed 4 n).length = 4 := fixed_length (by decide) h
  exact ⟨by omega, fun _ e => by cases e; omega, fixed_isDec 4 n⟩
theorem count_digits (n : Nat) : Digits 0 none (count n) := by
  unfold count
  split
  · exact ⟨by simp, by simp, by simp⟩
  · exact ⟨by simp, by simp, dec_isDec n⟩
theorem count_le {n k : Nat} (hk : 0 < k) (h : n < 10 ^ k) : (count n).length ≤ k := by
  unfold count
  split
  · simp
  · exact dec_le hk h

theorem upper_capital {c : Char} (h : c ∈ upperCase) : Capital c := by
  have : ∀ c ∈ upperCase, 'A' ≤ c ∧ c ≤ 'Z' := by decide
  exact this c h
theorem half_ok {c : Char} (h : c ∈ halfMonths) : HalfMonth c := by
  have : ∀ c ∈ halfMonths, 'A' ≤ c ∧ c ≤ 'Y' ∧ c ≠ 'I' := by decide
  exact this c h
theorem order_ok {c : Char} (h : c ∈ orders) : Second c := by
  have : ∀ c ∈ orders, 'A' ≤ c ∧ c ≤ 'Z' ∧ c ≠ 'I' := by decide
  exact this c h
theorem half_capital {c : Char} (h : c ∈ halfMonths) : Capital c := by
  have : ∀ c ∈ halfMonths, 'A' ≤ c ∧ c ≤ 'Z' := by decide
  exact this c h

/-! ### designations -/

theorem perm_name {p : Perm} (h : p.Valid) : PermanentName p.text := by
  cases p with
  | minor n =>
    obtain ⟨h1, h2⟩ := h
    refine ⟨?_, .inl ⟨_, dec_digits n, .inl rfl⟩⟩
    have := dec_le (n := n) (k := 8) (by decide) (by omega)
    simp only [Perm.text]; omega
  | comet n ty =>
    obtain ⟨h1, h2, h3⟩ := h
    refine ⟨?_, .inl ⟨_, dec_digits n, .inr ⟨ty, .inr h3, .inl rfl⟩⟩⟩
    have := dec_le (n := n) (k := 8) (by decide) (by omega)
    simp only [Perm.text, List.length_append, List.length_singleton]; omega
  | fragment n ty f =>
    obtain ⟨h1, h2, h3, h4, h5⟩ := h
    refine ⟨?_, .inl ⟨_, dec_digits n, .inr ⟨ty, .inr h3, .inr ⟨f, by omega, by omega, fun c hc => upper_capital (h5 c hc), by simp [Perm.text]⟩⟩⟩⟩
    have := dec_le (n := n) (k := 8) (by decide) (by omega)
    simp only [Perm.text, List.length_append, List.length_cons, List.length_nil]; omega
  | satellite p n =>
    obtain ⟨h1, h2⟩ := h
    refine ⟨?_, .inr (.inl ⟨p.name, Spec.dec n, by cases p <;> decide, dec_digits3 (by omega), by simp [Perm.text]⟩)⟩
    have := dec_le (n := n) (k := 3) (by decide) (by omega)
    have : p.name.length ≤ 7 := by cases p <;> decide
    simp only [Perm.text, List.length_append, List.length_cons, List.length_nil]; omega

theorem prov_name {q : Prov} (h : q.Valid) (hu : '_' ∉ q.cols.drop 1) : ProvisionalName q.text := by
  cases q with
  | minor y a b n =>
    obtain ⟨h1, h2, h3, h4, h5⟩ := h
    have hn : n ≤ 619 := by
      rcases h5 with h5 | h5
      · exact h5
      · by_cases hn : n ≤ 619
        · exact hn
        · simp [Prov.cols, hn] at hu
    refine ⟨?_, Spec.dec y, year_digits (by omega) (by omega), .inl ⟨a, b, count n, half_ok h3, order_ok h4, count_digits n, by simp [Prov.text]⟩⟩
    have := dec_le (n := y) (k := 4) (by decide) (by omega)
    have := count_le (n := n) (k := 3) (by decide) (by omega)
    simp only [Prov.text, List.length_append, List.length_cons, List.length_nil]; omega
  | survey n s =>
    have h : n ≤ 9999 := h
    refine ⟨?_, fixed 4 n, fixed_digits (n := n) (by omega), .inr (.inl ⟨[s.letter, '-', s.digit], by cases s <;> decide, by simp [Prov.text]⟩)⟩
    have : (fixed 4 n).length = 4 := fixed_length (by decide) (by omega)
    simp only [Prov.text, List.length_append, List.length_cons, List.length_nil]; omega
  | comet ty y a b n =>
    obtain ⟨h1, h2, h3, h4, h5, h6⟩ := h
    refine ⟨?_, Spec.dec y, year_digits (y := y) (by omega) (by omega), .inr (.inr (.inl ⟨ty, a :: b.toList, count n, [], ?_, by simp, by cases b <;> simp, ?_, count_digits n, .inl rfl, by simp [Prov.text]⟩))⟩
    · have := dec_le (n := y) (k := 4) (by decide) (by omega)
      have := count_le (n := n) (k := 3) (by decide) (by omega)
      have : b.toList.length ≤ 1 := by cases b <;> simp
      simp only [Prov.text, List.length_append, List.length_cons, List.length_nil]; omega
    · have : ∀ c ∈ ['A','C','D','P','X'], c ∈ c! "ADCPX" := by decide
      exact this ty h1
    · intro c hc
      rcases List.mem_cons.1 hc with rfl | hc
      · exact half_capital h4
      · cases b with
        | none => simp at hc
        | some b => simp at hc; subst hc; exact upper_capital (h5 c rfl)
  | fragment ty y a n f =>
    obtain ⟨h1, h2, h3, h4, h5, h6, h7⟩ := h
    refine ⟨?_, Spec.dec y, year_digits (y := y) (by omega) (by omega), .inr (.inr (.inl ⟨ty, [a], count n, ['-', f], ?_, by simp, by simp, ?_, count_digits n, .inr ⟨f, upper_capital h7, rfl⟩, by simp [Prov.text]⟩))⟩
    · have := dec_le (n := y) (k := 4) (by decide) (by omega)
      have := count_le (n := n) (k := 3) (by decide) (by omega)
      simp only [Prov.text, List.length_append, List.length_cons, List.length_nil]; omega
    · have : ∀ c ∈ ['C','D','P','X'], c ∈ c! "ADCPX" := by decide
      exact this ty h1
    · intro c hc; simp at hc; subst hc; exact half_capital h4
  | satellite y p n =>
    obtain ⟨h1, h2, h3, h4⟩ := h
    refine ⟨?_, Spec.dec y, year_digits (y := y) (by omega) (by omega), .inr (.inr (.inr ⟨[p.letter], Spec.dec n, dec_digits n, by simp [Prov.text], .inl ⟨p.letter, by cases p <;> decide, rfl⟩⟩))⟩
    have := dec_le (n := y) (k := 4) (by decide) (by omega)
    have := dec_le (n := n) (k := 3) (by decide) (by omega)
    simp only [Prov.text, List.length_append, List.length_cons, List.length_nil]; omega

theorem trk_alnum {c : Char} (h : c ∈ trkChars) : Alnum c ∨ c = '-' := by
  have : ∀ c ∈ trkChars, ('A' ≤ c ∧ c ≤ 'Z' ∨ 'a' ≤ c ∧ c ≤ 'z' ∨ '0' ≤ c ∧ c ≤ '9' ∨ c = '_') ∨ c = '-' := by decide +kernel
  exact this c h

theorem trk_name {t : Str} (h : (Designation.tracklet t).Valid) : TrackletName t :=
  ⟨h.1, Nat.le_trans h.2.1 (by decide), fun c hc => trk_alnum (h.2.2.1 c hc)⟩

end Verif.Checked
