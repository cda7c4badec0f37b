import Verif.Lemmas.Fields
/-!
  Lemmas about the simple types of ADES: numbers.
-/
namespace Verif.Xsd
open Verif Verif.Xml Verif.Spec Verif.Spec.Xsd

/-! ### numerals -/

/-- signs and digits are where they should be (but there may be no digit) -/
def Good (n : Numeral) : Prop := (∀ c ∈ n.sign, c = '+' ∨ c = '-') ∧ (∀ c ∈ n.whole, c ∈ c! "0123456789") ∧ ∀ f ∈ n.frac, ∀ c ∈ f, c ∈ c! "0123456789"

theorem Good.of {n : Numeral} (h : n.Valid) : Good n := ⟨h.1, h.2.1, h.2.2.1⟩
theorem Good.valid {n : Numeral} (h : Good n) (hd : n.whole ≠ [] ∨ n.frac.getD [] ≠ []) : n.Valid := ⟨h.1, h.2.1, h.2.2, hd⟩

/-- the fraction with its point -/
def tail : Option Str → Str
  | some f => '.' :: f
  | none => []

theorem text_eq (n : Numeral) : n.text = n.sign.toList ++ (n.whole ++ tail n.frac) := by
  cases n with
  | mk s w f => cases f <;> simp [Numeral.text, tail]

theorem width_eq (n : Numeral) : width n = (n.whole ++ tail n.frac).length := by
  cases n with
  | mk s w f => cases f <;> simp [width, tail]

theorem tail_head {f : Option Str} : ∀ c ∈ (tail f).head?, isDec c = false := by
  cases f with
  | none => simp [tail]
  | some f => simp only [tail, List.head?_cons]; rintro c ⟨⟩; decide

theorem tail_inj {f g : Option Str} (h : tail f = tail g) : f = g := by
  cases f <;> cases g <;> simp [tail] at h ⊢
  exact h

theorem digit_isDec {c : Char} (h : c ∈ c! "0123456789") : isDec c = true := isDec_of_mem h

theorem sign_head {n : Numeral} (h : Good n) : ∀ c ∈ (n.whole ++ tail n.frac).head?, c ≠ '+' ∧ c ≠ '-' := by
  intro c hc
  cases hw : n.whole with
  | nil =>
    rw [hw] at hc
    cases hf : n.frac with
    | none => rw [hf] at hc; simp [tail] at hc
    | some f => rw [hf] at hc; simp only [tail, List.nil_append, List.head?_cons, Option.mem_def, Option.some.injEq] at hc; subst hc; decide
  | cons d t =>
    rw [hw] at hc
    simp only [List.cons_append, List.head?_cons, Option.mem_def, Option.some.injEq] at hc
    subst hc
    have := h.2.1 d (by rw [hw]; simp)
    constructor <;> (rintro rfl; revert this; decide)

theorem text_inj {n m : Numeral} (hn : Good n) (hm : Good m) (h : n.text = m.text) : n = m := by
  rw [text_eq, text_eq] at h
  have hs : n.sign = m.sign := by
    cases h1 : n.sign with
    | none =>
      cases h2 : m.sign with
      | none => rfl
      | some c =>
        rw [h1, h2] at h
        simp only [Option.toList_none, List.nil_append, Option.toList_some, List.singleton_append] at h
        have := sign_head hn c (by rw [h]; simp)
        rcases hm.1 c h2 with e | e
        · exact absurd e this.1
        · exact absurd e this.2
    | some c =>
      cases h2 : m.sign with
      | none =>
        rw [h1, h2] at h
        simp only [Option.toList_none, List.nil_append, Option.toList_some, List.singleton_append] at h
        have := sign_head hm c (by rw [← h]; simp)
        rcases hn.1 c h1 with e | e
        · exact absurd e this.1
        · exact absurd e this.2
      | some d =>
        rw [h1, h2] at h
        simp only [Option.toList_some, List.singleton_append, List.cons.injEq] at h
        rw [h.1]
  rw [hs] at h
  have h := List.append_cancel_left h
  obtain ⟨e1, e2⟩ := num_append_inj (fun c hc => digit_isDec (hn.2.1 c hc)) (fun c hc => digit_isDec (hm.2.1 c hc)) tail_head tail_head h
  have e3 := tail_inj e2
  cases n; cases m
  simp only [Numeral.mk.injEq]
  exact ⟨hs, e1, e3⟩

theorem decimal_value {n : Numeral} (hn : n.Valid) {q : Rat} (h : Decimal n.text q) : q = n.value := by
  obtain ⟨m, hm, e, rfl⟩ := h
  rw [text_inj (.of hn) (.of hm) e]

theorem decimal_self {n : Numeral} (hn : n.Valid) : Decimal n.text n.value := ⟨n, hn, rfl, rfl⟩

theorem decimal_unique {v : Str} {p q : Rat} (h : Decimal v p) (h' : Decimal v q) : p = q := by
  obtain ⟨n, hn, rfl, rfl⟩ := h
  exact (decimal_value hn h').symm

/-- a limit, when the numbers are known -/
theorem limit_iff {R : Rat → Rat → Prop} {n : Numeral} (hn : n.Valid) {b : Str} {p : Rat} (hb : decimalOf b = some p) :
    (∃ p q, Decimal b p ∧ Decimal n.text q ∧ R p q) ↔ R p n.value := by
  constructor
  · rintro ⟨p', q, h1, h2, h3⟩
    rw [← decimal_unique (decimalOf_sound hb) h1, decimal_value hn h2] at h3
    exact h3
  · intro h; exact ⟨p, _, decimalOf_sound hb, decimal_self hn, h⟩

theorem size_nonneg (n : Numeral) : 0 ≤ n.size := by
  unfold Numeral.size; positivity

theorem whole_le_size (n : Numeral) : (digitsNat n.whole : Rat) ≤ n.size := by
  unfold Numeral.size
  have : (0 : Rat) ≤ (digitsNat (n.frac.getD []) : Rat) / ((10 ^ (n.frac.getD []).length : Nat) : Rat) := by positivity
  linarith

theorem digitsNat_from (ds : Str) : ∀ a : Nat, ds.foldl (fun n c => 10 * n + (c.toNat - 48)) a = a * 10 ^ ds.length + digitsNat ds := by
  induction ds with
  | nil => intro a; simp [digitsNat]
  | cons d ds ih =>
    intro a
    have e : digitsNat (d :: ds) = (d.toNat - 48) * 10 ^ ds.length + digitsNat ds := by
      show ds.foldl _ (10 * 0 + (d.toNat - 48)) = _
      rw [ih]; simp
    rw [List.foldl_cons, ih, e, List.length_cons, pow_succ]
    ring

theorem digitsNat_cons (d : Char) (ds : Str) : digitsNat (d :: ds) = (d.toNat - 48) * 10 ^ ds.length + digitsNat ds := by
  have := digitsNat_from ds (10 * 0 + (d.toNat - 48))
  simpa [digitsNat] using this

/-! ### pieces of patterns -/

theorem takes_sgn {s : Str} : (opt (.one sgn)).Takes s ↔ ∃ o : Option Char, (∀ c ∈ o, c = '+' ∨ c = '-') ∧ s = o.toList := by
  rw [takes_opt, takes_one]
  constructor
  · rintro (rfl | ⟨c, hc, rfl⟩)
    · exact ⟨none, by simp, rfl⟩
    · exact ⟨some c, by rintro d ⟨⟩; exact sgn_iff.1 hc, rfl⟩
  · rintro ⟨o, ho, rfl⟩
    cases o with
    | none => exact .inl rfl
    | some c => exact .inr ⟨c, sgn_iff.2 (ho c rfl), rfl⟩

theorem takes_frac {D : Char → Bool} (hD : ∀ c, D c = true ↔ c ∈ c! "0123456789") {hi : Option Nat} {s : Str} :
    (opt (sq [lit '.', .rep 0 hi (.one D)])).Takes s ↔ ∃ f : Option Str, (∀ d ∈ f, (∀ c ∈ d, c ∈ c! "0123456789") ∧ ∀ n, hi = some n → d.length ≤ n) ∧ s = tail f := by
  rw [takes_opt]
  simp only [sq, takes_seq_lit, takes_seq_eps, takes_rep, hD]
  constructor
  · rintro (rfl | ⟨t, rfl, -, h1, h2⟩)
    · exact ⟨none, by simp, rfl⟩
    · exact ⟨some t, by rintro d ⟨⟩; exact ⟨h2, h1⟩, rfl⟩
  · rintro ⟨f, hf, rfl⟩
    cases f with
    | none => exact .inl rfl
    | some t => exact .inr ⟨t, rfl, by simp, (hf t rfl).2, (hf t rfl).1⟩

/-- sign, whole part, fraction -/
theorem takes_signed {W : Rx} {D : Char → Bool} (hD : ∀ c, D c = true ↔ c ∈ c! "0123456789") (hW : ∀ w, W.Takes w → ∀ c ∈ w, c ∈ c! "0123456789") {hi : Option Nat} {u : Str} :
    (sq [opt (.one sgn), W, opt (sq [lit '.', .rep 0 hi (.one D)])]).Takes u ↔ ∃ n, Good n ∧ W.Takes n.whole ∧ (∀ d ∈ n.frac, ∀ k, hi = some k → d.length ≤ k) ∧ u = n.text := by
  rw [sq, takes_seq]
  constructor
  · rintro ⟨s, t, rfl, h1, h2⟩
    rw [sq, takes_seq] at h2
    obtain ⟨w, f, rfl, h2, h3⟩ := h2
    rw [sq, sq, takes_seq_eps, takes_frac hD] at h3
    obtain ⟨o, ho, rfl⟩ := takes_sgn.1 h1
    obtain ⟨g, hg, rfl⟩ := h3
    exact ⟨⟨o, w, g⟩, ⟨ho, hW w h2, fun f hf => (hg f hf).1⟩, h2, fun f hf => (hg f hf).2, by rw [text_eq]⟩
  · rintro ⟨n, ⟨g1, g2, g3⟩, h1, h2, rfl⟩
    refine ⟨_, _, text_eq n, takes_sgn.2 ⟨_, g1, rfl⟩, ?_⟩
    rw [sq, takes_seq]
    refine ⟨_, _, rfl, h1, ?_⟩
    rw [sq, sq, takes_seq_eps, takes_frac hD]
    exact ⟨_, fun d hd => ⟨g3 d hd, h2 d hd⟩, rfl⟩

theorem takes_unsigned {W : Rx} {D : Char → Bool} (hD : ∀ c, D c = true ↔ c ∈ c! "0123456789") (hW : ∀ w, W.Takes w → ∀ c ∈ w, c ∈ c! "0123456789") {hi : Option Nat} {u : Str} :
    (sq [W, opt (sq [lit '.', .rep 0 hi (.one D)])]).Takes u ↔ ∃ n, Good n ∧ n.sign = none ∧ W.Takes n.whole ∧ (∀ d ∈ n.frac, ∀ k, hi = some k → d.length ≤ k) ∧ u = n.text := by
  rw [sq, takes_seq]
  constructor
  · rintro ⟨w, f, rfl, h2, h3⟩
    rw [sq, sq, takes_seq_eps, takes_frac hD] at h3
    obtain ⟨g, hg, rfl⟩ := h3
    exact ⟨⟨none, w, g⟩, ⟨by simp, hW w h2, fun f hf => (hg f hf).1⟩, rfl, h2, fun f hf => (hg f hf).2, by rw [text_eq]; rfl⟩
  · rintro ⟨n, ⟨g1, g2, g3⟩, h0, h1, h2, rfl⟩
    refine ⟨_, _, by rw [text_eq, h0]; rfl, h1, ?_⟩
    rw [sq, sq, takes_seq_eps, takes_frac hD]
    exact ⟨_, fun d hd => ⟨g3 d hd, h2 d hd⟩, rfl⟩

theorem body_chars {n : Numeral} (h : Good n) : ∀ c ∈ n.whole ++ tail n.frac, c ∈ c! "0123456789." := by
  have sub : ∀ c, c ∈ c! "0123456789" → c ∈ c! "0123456789." := by
    intro c hc
    simp only [List.mem_cons, List.not_mem_nil, or_false] at hc ⊢
    tauto
  intro c hc
  rcases List.mem_append.1 hc with hc | hc
  · exact sub c (h.2.1 c hc)
  · cases hf : n.frac with
    | none => rw [hf] at hc; simp [tail] at hc
    | some f =>
      rw [hf] at hc
      rcases List.mem_cons.1 hc with rfl | hc
      · decide
      · exact sub c (h.2.2 f hf c hc)

/-- the width of a numeral with a sign -/
theorem takes_width {n : Numeral} (h : Good n) {k : Nat} : (sq [opt (.one sgn), .rep 1 (some k) (.one digDot)]).Takes n.text ↔ 1 ≤ width n ∧ width n ≤ k := by
  simp only [sq]
  rw [takes_seq, width_eq]
  constructor
  · rintro ⟨s, t, e, h0, h1⟩
    simp only [takes_seq_eps, takes_rep, digDot_iff, Option.some.injEq, forall_eq'] at h1
    obtain ⟨h1, h2, h3⟩ := h1
    obtain ⟨o, ho, rfl⟩ := takes_sgn.1 h0
    rw [text_eq] at e
    have : t = n.whole ++ tail n.frac := by
      cases hs : n.sign with
      | none =>
        rw [hs] at e
        cases o with
        | none => simpa using e.symm
        | some c =>
          simp only [Option.toList_none, List.nil_append, Option.toList_some, List.singleton_append] at e
          have := sign_head h c (by rw [e]; simp)
          rcases ho c rfl with e | e
          · exact absurd e this.1
          · exact absurd e this.2
      | some c =>
        rw [hs] at e
        cases o with
        | none =>
          simp only [Option.toList_none, List.nil_append, Option.toList_some, List.singleton_append] at e
          have := h3 c (by rw [← e]; simp)
          rcases h.1 c hs with rfl | rfl <;> exact absurd this (by decide)
        | some d =>
          simp only [Option.toList_some, List.singleton_append, List.cons.injEq] at e
          exact e.2.symm
    subst this
    exact ⟨h1, h2⟩
  · rintro ⟨h1, h2⟩
    refine ⟨_, _, text_eq n, takes_sgn.2 ⟨_, h.1, rfl⟩, ?_⟩
    simp only [takes_seq_eps, takes_rep, digDot_iff, Option.some.injEq, forall_eq']
    exact ⟨h1, h2, body_chars h⟩

/-- the width of a numeral without one -/
theorem takes_width' {n : Numeral} (h : Good n) {k : Nat} : (sq [.rep 1 (some k) (.one digDot)]).Takes n.text ↔ n.sign = none ∧ 1 ≤ width n ∧ width n ≤ k := by
  simp only [sq]
  rw [takes_seq_eps, width_eq]
  simp only [takes_rep, digDot_iff, Option.some.injEq, forall_eq']
  rw [text_eq]
  cases hs : n.sign with
  | none => simpa using fun _ _ => body_chars h
  | some c =>
    simp only [reduceCtorEq, false_and, iff_false, not_and]
    intro _ _ h3
    have := h3 c (by simp)
    rcases h.1 c hs with rfl | rfl <;> exact absurd this (by decide)

end Verif.Xsd
