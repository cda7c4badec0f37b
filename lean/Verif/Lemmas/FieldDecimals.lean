import Verif.Lemmas.FieldNumbers
/-!
  Lemmas about the simple types of ADES: the numerical types.
-/
namespace Verif.Xsd
open Verif Verif.Xml Verif.Spec Verif.Spec.Xsd

theorem pat_corr : pattern (c! "[+\\-]?(0|1)(\\.[0123456789]{0,11})?") =
    some (sq [opt (.one sgn), .alt (sq [lit '0']) (sq [lit '1']), opt (sq [lit '.', .rep 0 (some 11) (.one digList)])]) := by kernel_rfl
theorem pat_decimal : pattern (c! "[+\\-]?(0|([1-9][0-9]*))(\\.[0-9]*)?") =
    some (sq [opt (.one sgn), .alt (sq [lit '0']) (sq [sq [.one dig1, .rep 0 none (.one dig)]]), opt (sq [lit '.', .rep 0 none (.one dig)])]) := by kernel_rfl
theorem pat_pos : pattern (c! "(0|([1-9][0-9]*))(\\.[0-9]*)?") =
    some (sq [.alt (sq [lit '0']) (sq [sq [.one dig1, .rep 0 none (.one dig)]]), opt (sq [lit '.', .rep 0 none (.one dig)])]) := by kernel_rfl
theorem pat_dec : pattern (c! "[+\\-]?([1-9]?[0-9])?(\\.[0123456789]{0,9})?") =
    some (sq [opt (.one sgn), opt (sq [opt (.one dig1), .one dig]), opt (sq [lit '.', .rep 0 (some 9) (.one digList)])]) := by kernel_rfl
theorem pat_ra : pattern (c! "([1-3][0-9]{2}|[1-9]?[0-9])?(\\.[0-9]{0,9})?") =
    some (sq [opt (.alt (sq [.one dig3, .rep 2 (some 2) (.one dig)]) (sq [opt (.one dig1), .one dig])), opt (sq [lit '.', .rep 0 (some 9) (.one dig)])]) := by kernel_rfl
theorem pat_double : pattern (c! "[+\\-]?[+\\-Ee0123456789\\.]{1,20}") = some (sq [opt (.one sgn), .rep 1 (some 20) (.one expo)]) := by kernel_rfl
theorem pat_freq : pattern (c! "[0123456789\\.]{1,16}") = some (sq [.rep 1 (some 16) (.one digDot)]) := by kernel_rfl

/-! ### whole parts -/

theorem dig1_iff {c : Char} : dig1 c = true ↔ c ∈ c! "0123456789" ∧ c ≠ '0' := by
  rw [← dig_iff]
  simp only [dig, dig1, anyOf, rg, Bool.or_false, Bool.and_eq_true, decide_eq_true_eq]
  constructor
  · rintro ⟨h1, h2⟩
    have h1 : 49 ≤ c.toNat := h1
    refine ⟨⟨show 48 ≤ c.toNat by omega, h2⟩, ?_⟩
    rintro rfl
    exact absurd h1 (by decide)
  · rintro ⟨⟨h1, h2⟩, h3⟩
    refine ⟨?_, h2⟩
    have h1 : 48 ≤ c.toNat := h1
    have : c.toNat ≠ 48 := fun h => h3 (Char.toNat_inj.1 h)
    show 49 ≤ c.toNat
    omega

theorem dig3_iff {c : Char} : dig3 c = true ↔ c ∈ c! "0123456789" ∧ c ≠ '0' ∧ c.toNat ≤ 51 := by
  rw [← and_assoc, ← dig1_iff]
  simp only [dig3, dig1, anyOf, rg, Bool.or_false, Bool.and_eq_true, decide_eq_true_eq]
  constructor
  · rintro ⟨h1, h2⟩
    have h2 : c.toNat ≤ 51 := h2
    exact ⟨⟨h1, show c.toNat ≤ 57 by omega⟩, h2⟩
  · rintro ⟨⟨h1, -⟩, h2⟩
    exact ⟨h1, h2⟩

/-- digits without superfluous zeros in front -/
def NoZeros (w : Str) : Prop := (∀ c ∈ w, c ∈ c! "0123456789") ∧ (w.head? = some '0' → w = ['0'])

theorem takes_whole {w : Str} : (Rx.alt (sq [lit '0']) (sq [sq [.one dig1, .rep 0 none (.one dig)]])).Takes w ↔ NoZeros w ∧ w ≠ [] := by
  rw [takes_alt]
  simp only [sq, takes_seq_eps, takes_seq_one, takes_rep, dig1_iff, dig_iff]
  constructor
  · rintro (h | ⟨c, t, ⟨h1, h2⟩, rfl, -, -, h3⟩)
    · obtain ⟨c, hc, rfl⟩ := takes_one.1 h
      have : c = '0' := by simpa using hc
      subst this
      exact ⟨⟨by simp, by simp⟩, by simp⟩
    · refine ⟨⟨?_, fun h => absurd (by simpa using h) h2⟩, by simp⟩
      intro d hd
      rcases List.mem_cons.1 hd with rfl | hd
      · exact h1
      · exact h3 d hd
  · rintro ⟨⟨h1, h2⟩, h3⟩
    cases w with
    | nil => exact absurd rfl h3
    | cons c t =>
      by_cases hc : c = '0'
      · subst hc
        rw [h2 rfl]
        exact .inl (takes_one.2 ⟨_, by simp, rfl⟩)
      · exact .inr ⟨c, t, ⟨h1 c (by simp), hc⟩, rfl, by simp, by simp, fun d hd => h1 d (by simp [hd])⟩

theorem takes_two {w : Str} : (sq [opt (.one dig1), .one dig]).Takes w ↔ NoZeros w ∧ w ≠ [] ∧ w.length ≤ 2 := by
  simp only [sq]
  rw [takes_seq]
  simp only [takes_seq_eps, takes_opt, takes_one, dig1_iff, dig_iff]
  constructor
  · rintro ⟨s, t, rfl, h, c, hc, rfl⟩
    rcases h with rfl | ⟨d, ⟨h1, h2⟩, rfl⟩
    · refine ⟨⟨by simpa using hc, by simp⟩, by simp, by simp⟩
    · refine ⟨⟨?_, fun h => absurd (by simpa using h) h2⟩, by simp, by simp⟩
      intro e he
      simp only [List.singleton_append, List.mem_cons, List.not_mem_nil, or_false] at he
      rcases he with rfl | rfl
      · exact h1
      · exact hc
  · rintro ⟨⟨h1, h2⟩, h3, h4⟩
    match w, h1, h2, h3, h4 with
    | [c], h1, h2, _, _ => exact ⟨[], [c], rfl, .inl rfl, c, h1 c (by simp), rfl⟩
    | [d, c], h1, h2, _, _ =>
      refine ⟨[d], [c], rfl, .inr ⟨d, ⟨h1 d (by simp), ?_⟩, rfl⟩, c, h1 c (by simp), rfl⟩
      rintro rfl
      exact absurd (h2 rfl) (by simp)

theorem takes_three {w : Str} : (sq [.one dig3, .rep 2 (some 2) (.one dig)]).Takes w ↔ NoZeros w ∧ w.length = 3 ∧ ∀ c ∈ w.head?, c.toNat ≤ 51 := by
  simp only [sq]
  rw [takes_seq_one]
  simp only [takes_seq_eps, takes_rep, dig3_iff, dig_iff, Option.some.injEq, forall_eq']
  constructor
  · rintro ⟨c, t, ⟨h1, h2, h3⟩, rfl, h4, h5, h6⟩
    refine ⟨⟨?_, fun h => absurd (by simpa using h) h2⟩, by simp only [List.length_cons]; omega, by simpa using h3⟩
    intro e he
    rcases List.mem_cons.1 he with rfl | he
    · exact h1
    · exact h6 e he
  · rintro ⟨⟨h1, h2⟩, h3, h4⟩
    cases w with
    | nil => simp at h3
    | cons c t =>
      simp only [List.length_cons] at h3
      refine ⟨c, t, ⟨h1 c (by simp), ?_, h4 c rfl⟩, rfl, by omega, by omega, fun d hd => h1 d (by simp [hd])⟩
      rintro rfl
      have := h2 rfl
      simp only [List.cons.injEq, true_and] at this
      subst this
      simp at h3

/-! ### sizes -/

theorem digit_ge {c : Char} (h : c ∈ c! "0123456789") (h0 : c ≠ '0') : 1 ≤ c.toNat - 48 ∧ c.toNat ≤ 57 := by
  simp only [List.mem_cons, List.not_mem_nil, or_false] at h
  rcases h with rfl | rfl | rfl | rfl | rfl | rfl | rfl | rfl | rfl | rfl
  · exact absurd rfl h0
  all_goals decide

/-- a number without superfluous zeros is as large as its length says -/
theorem noZeros_size {w : Str} (h : NoZeros w) {k : Nat} (hk : k + 1 < w.length) : 10 ^ (k + 1) ≤ digitsNat w := by
  cases w with
  | nil => simp at hk
  | cons c t =>
    have h0 : c ≠ '0' := by
      rintro rfl
      have := h.2 rfl
      simp only [List.cons.injEq, true_and] at this
      subst this
      simp at hk
    rw [digitsNat_cons]
    simp only [List.length_cons] at hk
    have h1 := (digit_ge (h.1 c (by simp)) h0).1
    calc 10 ^ (k + 1) ≤ 1 * 10 ^ t.length := by rw [one_mul]; exact Nat.pow_le_pow_right (by omega) (by omega)
      _ ≤ (c.toNat - 48) * 10 ^ t.length := Nat.mul_le_mul_right _ h1
      _ ≤ _ := Nat.le_add_right _ _

theorem frac_lt {n : Numeral} (h : Good n) : (digitsNat (n.frac.getD []) : Rat) / ((10 ^ (n.frac.getD []).length : Nat) : Rat) < 1 := by
  have : digitsNat (n.frac.getD []) < 10 ^ (n.frac.getD []).length := by
    apply Verif.ToMpc80.digitsNat_lt
    cases hf : n.frac with
    | none => simp
    | some f => exact h.2.2 f hf
  rw [div_lt_one (by positivity)]
  exact_mod_cast this

theorem size_lt {n : Numeral} (h : Good n) : n.size < digitsNat n.whole + 1 := by
  unfold Numeral.size
  have := frac_lt h
  linarith

theorem value_none {n : Numeral} (h : n.sign = none) : n.value = n.size := by simp [Numeral.value, h]

theorem value_le {n : Numeral} {q : Rat} : (-q ≤ n.value ∧ n.value ≤ q) ↔ n.size ≤ q := by
  have := size_nonneg n
  unfold Numeral.value
  split
  · constructor
    · rintro ⟨h1, h2⟩; linarith
    · intro h; constructor <;> linarith
  · constructor
    · rintro ⟨h1, h2⟩; linarith
    · intro h; constructor <;> linarith

theorem value_lt {n : Numeral} {q : Rat} : (-q < n.value ∧ n.value < q) ↔ n.size < q := by
  have := size_nonneg n
  unfold Numeral.value
  split
  · constructor
    · rintro ⟨h1, h2⟩; linarith
    · intro h; constructor <;> linarith
  · constructor
    · rintro ⟨h1, h2⟩; linarith
    · intro h; constructor <;> linarith

/-! ### types based on xsd:decimal -/

theorem builtin_decimal {x : Str} : Builtin (c! "xsd:decimal") x ↔ ∃ q, Decimal (trim x) q := by
  unfold Builtin
  constructor
  · rintro (h | ⟨-, h⟩ | ⟨h, -⟩ | ⟨h, -⟩ | ⟨h, -⟩ | ⟨h, -⟩)
    · exact absurd h (by decide)
    · exact h
    all_goals exact absurd h (by decide)
  · intro h; exact .inr (.inl ⟨rfl, h⟩)

theorem has_decimal {ls : List (Str × List (Str × Str))} {v : Str} {P : Numeral → Prop}
    (h : ∀ n, n.Valid → trim v = n.text → ((∀ s ∈ ls, Within s.1 s.2 v) ↔ P n)) : Alt.Has (c! "xsd:decimal", ls) v ↔ ∃ n, n.Valid ∧ P n ∧ trim v = n.text := by
  unfold Alt.Has
  rw [builtin_decimal]
  constructor
  · rintro ⟨⟨q, n, hn, e, -⟩, h2⟩
    exact ⟨n, hn, (h n hn e).1 h2, e⟩
  · rintro ⟨n, hn, hp, e⟩
    exact ⟨⟨_, n, hn, e, rfl⟩, (h n hn e).2 hp⟩

theorem normal_dec {x : Str} : normal (c! "xsd:decimal") x = trim x := normal_other (by decide)

/-- a pattern that a numeral matches: the numeral is determined -/
theorem takes_at {R : Rx} {Q : Numeral → Prop} (hR : ∀ u, R.Takes u ↔ ∃ n, Good n ∧ Q n ∧ u = n.text) {n : Numeral} (hn : n.Valid) : R.Takes n.text ↔ Q n := by
  rw [hR]
  constructor
  · rintro ⟨m, hm, hq, e⟩
    rw [text_inj (.of hn) hm e]; exact hq
  · intro h; exact ⟨n, .of hn, h, rfl⟩

theorem whole_digits {w : Str} (h : (Rx.alt (sq [lit '0']) (sq [sq [.one dig1, .rep 0 none (.one dig)]])).Takes w) : ∀ c ∈ w, c ∈ c! "0123456789" := (takes_whole.1 h).1.1

theorem frac_len {n : Numeral} {k : Nat} : (∀ d ∈ n.frac, ∀ m, some k = some m → d.length ≤ m) ↔ (n.frac.getD []).length ≤ k := by
  cases n.frac <;> simp

theorem plain_iff {n : Numeral} (hn : n.Valid) : NoZeros n.whole ↔ Plain n := ⟨fun h => ⟨hn, h.2⟩, fun h => ⟨hn.2.1, h.2⟩⟩

theorem takes_decimal {n : Numeral} (hn : n.Valid) :
    (sq [opt (.one sgn), .alt (sq [lit '0']) (sq [sq [.one dig1, .rep 0 none (.one dig)]]), opt (sq [lit '.', .rep 0 none (.one dig)])]).Takes n.text ↔ Plain n ∧ n.whole ≠ [] := by
  rw [takes_at (Q := fun n => (Rx.alt (sq [lit '0']) (sq [sq [.one dig1, .rep 0 none (.one dig)]])).Takes n.whole ∧ ∀ d ∈ n.frac, ∀ k, none = some k → d.length ≤ k) _ hn]
  · rw [takes_whole, plain_iff hn]; simp
  · intro u; rw [takes_signed (fun c => dig_iff) fun w => whole_digits]
    constructor
    · rintro ⟨n, a, b, c, d⟩; exact ⟨n, a, ⟨b, c⟩, d⟩
    · rintro ⟨n, a, ⟨b, c⟩, d⟩; exact ⟨n, a, b, c, d⟩

theorem takes_pos {n : Numeral} (hn : n.Valid) :
    (sq [.alt (sq [lit '0']) (sq [sq [.one dig1, .rep 0 none (.one dig)]]), opt (sq [lit '.', .rep 0 none (.one dig)])]).Takes n.text ↔ Plain n ∧ n.sign = none ∧ n.whole ≠ [] := by
  rw [takes_at (Q := fun n => n.sign = none ∧ (Rx.alt (sq [lit '0']) (sq [sq [.one dig1, .rep 0 none (.one dig)]])).Takes n.whole ∧ ∀ d ∈ n.frac, ∀ k, none = some k → d.length ≤ k) _ hn]
  · rw [takes_whole, plain_iff hn]; simp; tauto
  · intro u; rw [takes_unsigned (fun c => dig_iff) fun w => whole_digits]
    constructor
    · rintro ⟨n, a, b, c, d, e⟩; exact ⟨n, a, ⟨b, c, d⟩, e⟩
    · rintro ⟨n, a, ⟨b, c, d⟩, e⟩; exact ⟨n, a, b, c, d, e⟩

theorem width_pos {n : Numeral} (hn : n.Valid) : 1 ≤ width n := by
  unfold width
  rcases hn.2.2.2 with h | h
  · have := List.length_pos_iff.2 h; omega
  · cases hf : n.frac with
    | none => rw [hf] at h; simp at h
    | some f => simp only; omega

/-- the width pattern of numbers with a sign -/
abbrev widthLayer (p : Str) : Str × List (Str × Str) := (c! "xsd:decimal", [(c! "xsd:pattern", p)])
abbrev decimalLayer : Str × List (Str × Str) := (c! "xsd:decimal", [(c! "xsd:pattern", c! "[+\\-]?(0|([1-9][0-9]*))(\\.[0-9]*)?")])
abbrev posLayer : Str × List (Str × Str) := (c! "xsd:decimal", [(c! "xsd:minExclusive", c! "0.0"), (c! "xsd:maxExclusive", c! "100000.0"), (c! "xsd:pattern", c! "(0|([1-9][0-9]*))(\\.[0-9]*)?")])

theorem has_signed {p v : Str} {k : Nat} (hp : pattern p = some (sq [opt (.one sgn), .rep 1 (some k) (.one digDot)])) :
    Alt.Has (c! "xsd:decimal", [widthLayer p, decimalLayer]) v ↔ Signed k (trim v) := by
  rw [has_decimal (P := fun n => Plain n ∧ n.whole ≠ [] ∧ width n ≤ k)]
  · unfold Signed
    exact ⟨fun ⟨n, h1, ⟨h2, h3, h4⟩, h5⟩ => ⟨n, h2, h5, h3, h4⟩, fun ⟨n, h2, h5, h3, h4⟩ => ⟨n, h2.1, ⟨h2, h3, h4⟩, h5⟩⟩
  · intro n hn e
    simp only [List.mem_cons, List.not_mem_nil, or_false, forall_eq_or_imp, forall_eq, within_pattern hp, within_pattern pat_decimal, normal_dec, e, takes_width (.of hn), takes_decimal hn]
    have := width_pos hn
    tauto

theorem has_mag {p v : Str} (hp : pattern p = some (sq [opt (.one sgn), .rep 1 (some 7) (.one digDot)])) :
    Alt.Has (c! "xsd:decimal", [(c! "xsd:decimal", [(c! "xsd:minInclusive", c! "-5.0"), (c! "xsd:maxInclusive", c! "35.0")]), widthLayer p, decimalLayer]) v ↔ Magnitude (trim v) := by
  rw [has_decimal (P := fun n => Plain n ∧ n.whole ≠ [] ∧ width n ≤ 7 ∧ -5 ≤ n.value ∧ n.value ≤ 35)]
  · unfold Magnitude
    exact ⟨fun ⟨n, h1, ⟨h2, h3, h4⟩, h5⟩ => ⟨n, h2, h5, h3, h4⟩, fun ⟨n, h2, h5, h3, h4⟩ => ⟨n, h2.1, ⟨h2, h3, h4⟩, h5⟩⟩
  · intro n hn e
    simp only [List.mem_cons, List.not_mem_nil, or_false, forall_eq_or_imp, forall_eq, within_pattern hp, within_pattern pat_decimal, normal_dec, e, takes_width (.of hn), takes_decimal hn]
    rw [within_iff { minI := [c! "-5.0"], maxI := [c! "35.0"] } rfl rfl]
    simp only [normal_dec, e, List.mem_singleton, forall_eq, limit_iff (R := fun p q => p ≤ q) hn (show decimalOf (c! "-5.0") = some (-5) by decide +kernel),
      limit_iff (R := fun p q => q ≤ p) hn (show decimalOf (c! "35.0") = some 35 by decide +kernel), List.not_mem_nil, false_implies, implies_true, true_or, true_and, and_true]
    have := width_pos hn
    tauto

theorem has_positive {p v : Str} {k : Nat} (hp : pattern p = some (sq [.rep 1 (some k) (.one digDot)])) :
    Alt.Has (c! "xsd:decimal", [widthLayer p, posLayer]) v ↔ PositiveNumber k (trim v) := by
  rw [has_decimal (P := fun n => Plain n ∧ n.sign = none ∧ n.whole ≠ [] ∧ width n ≤ k ∧ 0 < n.value ∧ n.value < 100000)]
  · unfold PositiveNumber
    exact ⟨fun ⟨n, h1, ⟨h2, h3, h4⟩, h5⟩ => ⟨n, h2, h5, h3, h4⟩, fun ⟨n, h2, h5, h3, h4⟩ => ⟨n, h2.1, ⟨h2, h3, h4⟩, h5⟩⟩
  · intro n hn e
    simp only [List.mem_cons, List.not_mem_nil, or_false, forall_eq_or_imp, forall_eq, within_pattern hp, normal_dec, e, takes_width' (.of hn)]
    rw [within_iff { minE := [c! "0.0"], maxE := [c! "100000.0"], pattern := [c! "(0|([1-9][0-9]*))(\\.[0-9]*)?"] } rfl rfl]
    simp only [normal_dec, e, List.mem_singleton, forall_eq, limit_iff (R := fun p q => p < q) hn (show decimalOf (c! "0.0") = some 0 by decide +kernel),
      limit_iff (R := fun p q => q < p) hn (show decimalOf (c! "100000.0") = some 100000 by decide +kernel), List.not_mem_nil, false_implies, implies_true, true_or, true_and, and_true, exists_eq_left,
      pat_pos, Option.some.injEq, exists_eq_left', takes_pos hn, List.cons_ne_nil, false_or]
    have := width_pos hn
    tauto

theorem has_frequency {v : Str} :
    Alt.Has (c! "xsd:decimal", [(c! "xsd:decimal", [(c! "xsd:minExclusive", c! "0.0"), (c! "xsd:pattern", c! "[0123456789\\.]{1,16}")])]) v ↔ Frequency (trim v) := by
  rw [has_decimal (P := fun n => n.sign = none ∧ width n ≤ 16 ∧ 0 < n.value)]
  · unfold Frequency
    exact ⟨fun ⟨n, h1, ⟨h2, h3, h4⟩, h5⟩ => ⟨n, h1, h5, h2, h3, h4⟩, fun ⟨n, h1, h5, h2, h3, h4⟩ => ⟨n, h1, ⟨h2, h3, h4⟩, h5⟩⟩
  · intro n hn e
    simp only [List.mem_cons, List.not_mem_nil, or_false, forall_eq]
    rw [within_iff { minE := [c! "0.0"], pattern := [c! "[0123456789\\.]{1,16}"] } rfl rfl]
    simp only [normal_dec, e, List.mem_singleton, forall_eq, limit_iff (R := fun p q => p < q) hn (show decimalOf (c! "0.0") = some 0 by decide +kernel),
      List.not_mem_nil, false_implies, implies_true, true_or, true_and, and_true, exists_eq_left, pat_freq, Option.some.injEq, exists_eq_left', takes_width' (.of hn), List.cons_ne_nil, false_or]
    have := width_pos hn
    tauto

theorem has_corr {v : Str} :
    Alt.Has (c! "xsd:decimal", [(c! "xsd:decimal", [(c! "xsd:minExclusive", c! "-1.0"), (c! "xsd:maxExclusive", c! "1.0"), (c! "xsd:pattern", c! "[+\\-]?(0|1)(\\.[0123456789]{0,11})?")])]) v ↔ Correlation (trim v) := by
  rw [has_decimal (P := fun n => n.whole = ['0'] ∧ (n.frac.getD []).length ≤ 11)]
  · unfold Correlation
    exact ⟨fun ⟨n, h1, ⟨h2, h3⟩, h5⟩ => ⟨n, h1, h5, h2, h3⟩, fun ⟨n, h1, h5, h2, h3⟩ => ⟨n, h1, ⟨h2, h3⟩, h5⟩⟩
  · intro n hn e
    simp only [List.mem_cons, List.not_mem_nil, or_false, forall_eq]
    rw [within_iff { minE := [c! "-1.0"], maxE := [c! "1.0"], pattern := [c! "[+\\-]?(0|1)(\\.[0123456789]{0,11})?"] } rfl rfl]
    have hw : ∀ w : Str, (Rx.alt (sq [lit '0']) (sq [lit '1'])).Takes w ↔ w = ['0'] ∨ w = ['1'] := by
      intro w
      rw [takes_alt]
      exact or_congr (takes_text (s := ['0'])) (takes_text (s := ['1']))
    have ht : (sq [opt (.one sgn), .alt (sq [lit '0']) (sq [lit '1']), opt (sq [lit '.', .rep 0 (some 11) (.one digList)])]).Takes n.text ↔ (n.whole = ['0'] ∨ n.whole = ['1']) ∧ (n.frac.getD []).length ≤ 11 := by
      rw [takes_at (Q := fun n => (n.whole = ['0'] ∨ n.whole = ['1']) ∧ (n.frac.getD []).length ≤ 11) _ hn]
      intro u
      rw [takes_signed (fun c => digList_iff)]
      · simp only [hw, frac_len]
        constructor
        · rintro ⟨n, a, b, c, d⟩; exact ⟨n, a, ⟨b, c⟩, d⟩
        · rintro ⟨n, a, ⟨b, c⟩, d⟩; exact ⟨n, a, b, c, d⟩
      · intro w h
        rcases (hw w).1 h with rfl | rfl <;> simp
    simp only [normal_dec, e, List.mem_singleton, forall_eq, limit_iff (R := fun p q => p < q) hn (show decimalOf (c! "-1.0") = some (-1) by decide +kernel),
      limit_iff (R := fun p q => q < p) hn (show decimalOf (c! "1.0") = some 1 by decide +kernel), List.not_mem_nil, false_implies, implies_true, true_or, true_and, and_true, exists_eq_left,
      pat_corr, Option.some.injEq, exists_eq_left', ht, List.cons_ne_nil, false_or]
    have h0 : n.whole = ['0'] → n.size < 1 := by
      intro h
      have := size_lt (.of hn)
      rw [h] at this
      simpa [digitsNat] using this
    have h1 : n.whole = ['1'] → ¬ n.size < 1 := by
      intro h
      have := whole_le_size n
      rw [h] at this
      simp only [digitsNat] at this
      simp at this
      linarith
    have h2 := value_lt (n := n) (q := 1)
    constructor
    · rintro ⟨⟨h3 | h3, h4⟩, h5, h6⟩
      · exact ⟨h3, h4⟩
      · exact absurd (h2.1 ⟨h5, h6⟩) (h1 h3)
    · rintro ⟨h3, h4⟩
      have := h2.2 (h0 h3)
      exact ⟨⟨.inl h3, h4⟩, this.1, this.2⟩

theorem has_dec {v : Str} :
    Alt.Has (c! "xsd:decimal", [(c! "xsd:decimal", [(c! "xsd:minInclusive", c! "-90.0"), (c! "xsd:maxInclusive", c! "90.0"), (c! "xsd:pattern", c! "[+\\-]?([1-9]?[0-9])?(\\.[0123456789]{0,9})?")])]) v ↔ DeclinationValue (trim v) := by
  rw [has_decimal (P := fun n => Plain n ∧ (n.frac.getD []).length ≤ 9 ∧ n.size ≤ 90)]
  · unfold DeclinationValue
    exact ⟨fun ⟨n, h1, ⟨h2, h3⟩, h5⟩ => ⟨n, h2, h5, h3⟩, fun ⟨n, h2, h5, h3⟩ => ⟨n, h2.1, ⟨h2, h3⟩, h5⟩⟩
  · intro n hn e
    simp only [List.mem_cons, List.not_mem_nil, or_false, forall_eq]
    rw [within_iff { minI := [c! "-90.0"], maxI := [c! "90.0"], pattern := [c! "[+\\-]?([1-9]?[0-9])?(\\.[0123456789]{0,9})?"] } rfl rfl]
    have hw : ∀ w : Str, (opt (sq [opt (.one dig1), .one dig])).Takes w ↔ NoZeros w ∧ w.length ≤ 2 := by
      intro w
      rw [takes_opt, takes_two]
      constructor
      · rintro (rfl | ⟨h1, -, h2⟩)
        · exact ⟨⟨by simp, by simp⟩, by simp⟩
        · exact ⟨h1, h2⟩
      · rintro ⟨h1, h2⟩
        by_cases hc : w = []
        · exact .inl hc
        · exact .inr ⟨h1, hc, h2⟩
    have ht : (sq [opt (.one sgn), opt (sq [opt (.one dig1), .one dig]), opt (sq [lit '.', .rep 0 (some 9) (.one digList)])]).Takes n.text ↔ (NoZeros n.whole ∧ n.whole.length ≤ 2) ∧ (n.frac.getD []).length ≤ 9 := by
      rw [takes_at (Q := fun n => (NoZeros n.whole ∧ n.whole.length ≤ 2) ∧ (n.frac.getD []).length ≤ 9) _ hn]
      intro u
      rw [takes_signed (fun c => digList_iff)]
      · simp only [hw, frac_len]
        constructor
        · rintro ⟨n, a, b, c, d⟩; exact ⟨n, a, ⟨b, c⟩, d⟩
        · rintro ⟨n, a, ⟨b, c⟩, d⟩; exact ⟨n, a, b, c, d⟩
      · intro w h
        exact ((hw w).1 h).1.1
    simp only [normal_dec, e, List.mem_singleton, forall_eq, limit_iff (R := fun p q => p ≤ q) hn (show decimalOf (c! "-90.0") = some (-90) by decide +kernel),
      limit_iff (R := fun p q => q ≤ p) hn (show decimalOf (c! "90.0") = some 90 by decide +kernel), List.not_mem_nil, false_implies, implies_true, true_or, true_and, and_true, exists_eq_left,
      pat_dec, Option.some.injEq, exists_eq_left', ht, List.cons_ne_nil, false_or]
    have h2 := value_le (n := n) (q := 90)
    constructor
    · rintro ⟨⟨⟨h3, h4⟩, h5⟩, h6⟩
      exact ⟨(plain_iff hn).1 h3, h5, h2.1 h6⟩
    · rintro ⟨h3, h4, h5⟩
      have h3 := (plain_iff hn).2 h3
      refine ⟨⟨⟨h3, ?_⟩, h4⟩, h2.2 h5⟩
      rcases Nat.lt_or_ge 2 n.whole.length with hc | hc
      · have a := noZeros_size h3 (k := 1) hc
        have b := whole_le_size n
        have c : (100 : Rat) ≤ (digitsNat n.whole : Rat) := by exact_mod_cast a
        linarith
      · exact hc

theorem has_ra {v : Str} :
    Alt.Has (c! "xsd:decimal", [(c! "xsd:decimal", [(c! "xsd:minInclusive", c! "0.0"), (c! "xsd:maxExclusive", c! "360.0"), (c! "xsd:pattern", c! "([1-3][0-9]{2}|[1-9]?[0-9])?(\\.[0-9]{0,9})?")])]) v ↔ RightAscension (trim v) := by
  rw [has_decimal (P := fun n => Plain n ∧ n.sign = none ∧ (n.frac.getD []).length ≤ 9 ∧ n.value < 360)]
  · unfold RightAscension
    exact ⟨fun ⟨n, h1, ⟨h2, h3⟩, h5⟩ => ⟨n, h2, h5, h3⟩, fun ⟨n, h2, h5, h3⟩ => ⟨n, h2.1, ⟨h2, h3⟩, h5⟩⟩
  · intro n hn e
    simp only [List.mem_cons, List.not_mem_nil, or_false, forall_eq]
    rw [within_iff { minI := [c! "0.0"], maxE := [c! "360.0"], pattern := [c! "([1-3][0-9]{2}|[1-9]?[0-9])?(\\.[0-9]{0,9})?"] } rfl rfl]
    have hw : ∀ w : Str, (opt (.alt (sq [.one dig3, .rep 2 (some 2) (.one dig)]) (sq [opt (.one dig1), .one dig]))).Takes w ↔ NoZeros w ∧ (w.length ≤ 2 ∨ w.length = 3 ∧ ∀ c ∈ w.head?, c.toNat ≤ 51) := by
      intro w
      rw [takes_opt, takes_alt, takes_two, takes_three]
      constructor
      · rintro (rfl | ⟨h1, h2⟩ | ⟨h1, -, h2⟩)
        · exact ⟨⟨by simp, by simp⟩, by simp⟩
        · exact ⟨h1, .inr h2⟩
        · exact ⟨h1, .inl h2⟩
      · rintro ⟨h1, h2⟩
        by_cases hc : w = []
        · exact .inl hc
        · rcases h2 with h2 | h2
          · exact .inr (.inr ⟨h1, hc, h2⟩)
          · exact .inr (.inl ⟨h1, h2⟩)
    have ht : (sq [opt (.alt (sq [.one dig3, .rep 2 (some 2) (.one dig)]) (sq [opt (.one dig1), .one dig])), opt (sq [lit '.', .rep 0 (some 9) (.one dig)])]).Takes n.text ↔
        n.sign = none ∧ (NoZeros n.whole ∧ (n.whole.length ≤ 2 ∨ n.whole.length = 3 ∧ ∀ c ∈ n.whole.head?, c.toNat ≤ 51)) ∧ (n.frac.getD []).length ≤ 9 := by
      rw [takes_at (Q := fun n => n.sign = none ∧ (NoZeros n.whole ∧ (n.whole.length ≤ 2 ∨ n.whole.length = 3 ∧ ∀ c ∈ n.whole.head?, c.toNat ≤ 51)) ∧ (n.frac.getD []).length ≤ 9) _ hn]
      intro u
      rw [takes_unsigned (fun c => dig_iff)]
      · simp only [hw, frac_len]
        constructor
        · rintro ⟨n, a, b, c, d, e⟩; exact ⟨n, a, ⟨b, c, d⟩, e⟩
        · rintro ⟨n, a, ⟨b, c, d⟩, e⟩; exact ⟨n, a, b, c, d, e⟩
      · intro w h
        exact ((hw w).1 h).1.1
    simp only [normal_dec, e, List.mem_singleton, forall_eq, limit_iff (R := fun p q => p ≤ q) hn (show decimalOf (c! "0.0") = some 0 by decide +kernel),
      limit_iff (R := fun p q => q < p) hn (show decimalOf (c! "360.0") = some 360 by decide +kernel), List.not_mem_nil, false_implies, implies_true, true_or, true_and, and_true, exists_eq_left,
      pat_ra, Option.some.injEq, exists_eq_left', ht, List.cons_ne_nil, false_or]
    constructor
    · rintro ⟨⟨h1, ⟨h3, h4⟩, h5⟩, h6, h7⟩
      exact ⟨(plain_iff hn).1 h3, h1, h5, h7⟩
    · rintro ⟨h3, h1, h4, h5⟩
      have h3 := (plain_iff hn).2 h3
      refine ⟨⟨h1, ⟨h3, ?_⟩, h4⟩, by rw [value_none h1]; exact size_nonneg n, h5⟩
      rw [value_none h1] at h5
      have b := whole_le_size n
      have lt : digitsNat n.whole < 360 := by
        have : (digitsNat n.whole : Rat) < 360 := by linarith
        exact_mod_cast this
      rcases Nat.lt_or_ge 3 n.whole.length with hc | hc
      · have a := noZeros_size h3 (k := 2) hc
        norm_num at a
        omega
      · rcases Nat.lt_or_ge 2 n.whole.length with hd | hd
        · right
          refine ⟨by omega, ?_⟩
          intro c hc'
          cases hwn : n.whole with
          | nil => rw [hwn] at hd; simp at hd
          | cons d t =>
            rw [hwn] at hc' hc hd lt
            simp only [List.head?_cons, Option.mem_def, Option.some.injEq] at hc'
            subst hc'
            rw [digitsNat_cons] at lt
            simp only [List.length_cons] at hc hd
            have : t.length = 2 := by omega
            rw [this] at lt
            norm_num at lt
            omega
        · exact .inl hd

end Verif.Xsd
