import Verif.Lemmas.Total
import Verif.Lemmas.PackProv
import Verif.Spec.Packing
/-! Which texts the patterns for designations match, and what they capture. -/
namespace Verif.Packing
open Verif Verif.PackUtil Verif.Spec Verif.Spec.Packing

/-! ### a pattern matches whatever it can be read as -/

theorem spanLen_ge (p : Char → Bool) : ∀ (hi : Option Nat) (c t : Str), (∀ a ∈ c, p a = true) → (∀ h, hi = some h → c.length ≤ h) → c.length ≤ spanLen p hi (c ++ t)
  | _, [], _, _, _ => Nat.zero_le _
  | none, a :: c, t, h, _ => by
    have := spanLen_ge p none c t (fun x hx => h x (List.mem_cons_of_mem _ hx)) (by simp)
    simp [spanLen, h a List.mem_cons_self]; omega
  | some 0, a :: c, t, _, h2 => absurd (h2 0 rfl) (by simp)
  | some (k + 1), a :: c, t, h, h2 => by
    have := spanLen_ge p (some k) c t (fun x hx => h x (List.mem_cons_of_mem _ hx)) (by
      intro j hj; injection hj with hj; subst hj; have := h2 _ rfl; simp at this; omega)
    simp [spanLen, h a List.mem_cons_self]; omega

theorem parse_run {r : Re} : ∀ {c t : Str} {k : Caps}, r.parse c t k → (c, t, k) ∈ run r (c ++ t) := by
  induction r with
  | eps => rintro c t k ⟨rfl, rfl⟩; simp [run]
  | cls p => rintro c t k ⟨⟨a, ha, rfl⟩, rfl⟩; simp [run, ha]
  | rep lo hi p =>
    rintro c t k ⟨⟨h1, h2, h3⟩, rfl⟩
    simp only [run, List.mem_map, mem_downTo]
    exact ⟨c.length, ⟨h1, spanLen_ge p hi c t h3 h2⟩, by simp⟩
  | seq a b iha ihb =>
    rintro c t k ⟨c1, c2, k1, k2, h1, h2, rfl, rfl⟩
    simp only [run, List.mem_flatMap, List.mem_map]
    refine ⟨(c1, c2 ++ t, k1), ?_, (c2, t, k2), ihb h2, rfl⟩
    rw [List.append_assoc]
    exact iha h1
  | alt a b iha ihb =>
    rintro c t k (h | h)
    · exact List.mem_append_left _ (iha h)
    · exact List.mem_append_right _ (ihb h)
  | grp n r ih =>
    rintro c t k ⟨k', h, rfl⟩
    simp only [run, List.mem_map]
    exact ⟨(c, t, k'), ih h, rfl⟩
  | eos =>
    rintro c t k ⟨rfl, rfl, h⟩
    simp [run, h]

theorem parse_some {r : Re} {c t : Str} {k : Caps} (h : r.parse c t k) : ∃ m, reMatch r (c ++ t) = some m := by
  have := parse_run h
  simp only [reMatch]
  cases hr : run r (c ++ t) with
  | nil => rw [hr] at this; simp at this
  | cons a l => exact ⟨a.2.2, rfl⟩

/-! ### digits -/

theorem intDigits_value : ∀ (s : Str) (acc : Nat) (b : Bool), (∀ c ∈ s, isDec c = true) → (s ≠ [] ∨ b = true) →
    intDigits acc b s = some (s.foldl (fun n c => 10 * n + (decVal c).getD 0) acc)
  | [], acc, b, _, h => by simp only [ne_eq, not_true_eq_false, false_or] at h; simp [intDigits, h]
  | c :: s, acc, b, h, _ => by
    have hc := h c List.mem_cons_self
    have hu : (c == '_') = false := by
      cases hq : c == '_' with
      | false => rfl
      | true => rw [eq_of_beq hq] at hc; exact absurd hc (by decide)
    rw [isDec, Option.isSome_iff_exists] at hc
    obtain ⟨d, hd⟩ := hc
    simp only [intDigits, hu, hd, List.foldl_cons, Option.getD_some, Bool.false_eq_true, if_false]
    rw [intDigits_value s _ true (fun x hx => h x (List.mem_cons_of_mem _ hx)) (.inr rfl), Nat.mul_comm]

theorem pyNat_value {s : Str} (h : Number s) : pyNat s = .ok (value s) := by
  simp [pyNat, intDigits_value s 0 false h.2 (.inl h.1), value]

theorem pyNat_zero_value {s : Str} (h : Digits0 s) : pyNat ('0' :: s) = .ok (value s) := by
  have := pyNat_value (s := '0' :: s) ⟨by simp, by
    intro c hc; rcases List.mem_cons.1 hc with rfl | hc
    · decide
    · exact h c hc⟩
  rw [this]
  have : (decVal '0').getD 0 = 0 := by decide
  simp [value, this]

theorem value_lt {s : Str} (h : Number s) : value s < 10 ^ s.length := pyNat_bound (pyNat_value h)

/-! ### cutting a text where a class of characters ends -/

theorem split_unique {p : Char → Bool} : ∀ {a b s t : Str}, (∀ c ∈ a, p c = true) → (∀ c ∈ b, p c = true) → (∀ c ∈ s.head?, p c = false) → (∀ c ∈ t.head?, p c = false) →
    a ++ s = b ++ t → a = b ∧ s = t
  | [], [], _, _, _, _, _, _, e => ⟨rfl, e⟩
  | [], c :: b, s, t, _, hb, hs, _, e => by
    simp only [List.nil_append, List.cons_append] at e
    have := hs c (by rw [e]; rfl)
    rw [hb c List.mem_cons_self] at this; simp at this
  | c :: a, [], s, t, ha, _, _, ht, e => by
    simp only [List.nil_append, List.cons_append] at e
    have := ht c (by rw [← e]; rfl)
    rw [ha c List.mem_cons_self] at this; simp at this
  | c :: a, d :: b, s, t, ha, hb, hs, ht, e => by
    simp only [List.cons_append, List.cons.injEq] at e
    obtain ⟨h1, h2⟩ := split_unique (fun x hx => ha x (List.mem_cons_of_mem _ hx)) (fun x hx => hb x (List.mem_cons_of_mem _ hx)) hs ht e.2
    exact ⟨by rw [e.1, h1], h2⟩

theorem capital_rng {c : Char} : Capital c ↔ rng 'A' 'Z' c = true := by simp only [Capital, rng, Bool.and_eq_true, decide_eq_true_eq]; exact Iff.rfl
theorem capital_notDec {c : Char} (h : Capital c) : isDec c = false := by
  obtain ⟨h1, h2⟩ := h
  have e1 : 65 ≤ c.toNat := h1
  have e2 : c.toNat ≤ 90 := h2
  have hall : ∀ n : Fin 91, 65 ≤ n.val → isDec (Char.ofNat n) = false := by decide +kernel
  have := hall ⟨c.toNat, by omega⟩ e1
  simpa [Char.ofNat_toNat] using this
theorem capital_ne {c d : Char} (h : Capital c) (hd : rng 'A' 'Z' d = false) : c ≠ d := by
  rintro rfl; rw [capital_rng.1 h] at hd; simp at hd
theorem half_capital {c : Char} (h : HalfMonth c) : Capital c := ⟨h.1, Char.le_trans h.2.1 (by decide)⟩
theorem second_capital {c : Char} (h : Second c) : Capital c := ⟨h.1, h.2.1⟩

theorem halfCls_iff {c : Char} : halfCls c = true ↔ HalfMonth c := by
  have e : c ≠ 'I' ↔ c.toNat ≠ 73 := ⟨fun h h' => h (by rw [← Char.ofNat_toNat c, h']), fun h h' => h (by rw [h']; rfl)⟩
  simp only [halfCls, rng, HalfMonth, Bool.or_eq_true, Bool.and_eq_true, decide_eq_true_eq, e]
  simp only [Char.le_def, UInt32.le_iff_toNat_le, ← Char.toNat_val]
  have := show ('A' : Char).val.toNat = 65 from rfl
  have := show ('H' : Char).val.toNat = 72 from rfl
  have := show ('J' : Char).val.toNat = 74 from rfl
  have := show ('Y' : Char).val.toNat = 89 from rfl
  omega
theorem orderCls_iff {c : Char} : orderCls c = true ↔ Second c := by
  have e : c ≠ 'I' ↔ c.toNat ≠ 73 := ⟨fun h h' => h (by rw [← Char.ofNat_toNat c, h']), fun h h' => h (by rw [h']; rfl)⟩
  simp only [orderCls, rng, Second, Bool.or_eq_true, Bool.and_eq_true, decide_eq_true_eq, e]
  simp only [Char.le_def, UInt32.le_iff_toNat_le, ← Char.toNat_val]
  have := show ('A' : Char).val.toNat = 65 from rfl
  have := show ('H' : Char).val.toNat = 72 from rfl
  have := show ('J' : Char).val.toNat = 74 from rfl
  have := show ('Z' : Char).val.toNat = 90 from rfl
  omega

theorem end_head {e : Str} (h : End e) {p : Char → Bool} (hp : p '\n' = false) : ∀ c ∈ e.head?, p c = false := by
  rcases h with rfl | rfl
  · simp
  · intro c hc; simp at hc; rw [← hc]; exact hp

theorem year_chars {y : Str} (h : Year y) : ∃ a b c d, y = [a, b, c, d] ∧ isDec a = true ∧ isDec b = true ∧ isDec c = true ∧ isDec d = true := by
  obtain ⟨h1, h2⟩ := h
  match y, h1 with
  | [a, b, c, d], _ => exact ⟨a, b, c, d, rfl, h2 a (by simp), h2 b (by simp), h2 c (by simp), h2 d (by simp)⟩

theorem dec_ne {c d : Char} (h : isDec c = true) (hd : isDec d = false) : c ≠ d := by rintro rfl; rw [h] at hd; simp at hd

end Verif.Packing
