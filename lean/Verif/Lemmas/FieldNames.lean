import Verif.Lemmas.FieldDecimals
/-!
  Lemmas about the simple types of ADES: designations, integers, numbers with exponents.
-/
namespace Verif.Xsd
open Verif Verif.Xml Verif.Spec Verif.Spec.Xsd

/-- capital letters, letters of half months, second letters -/
def cap : Char → Bool := anyOf [rg 'A' 'Z']
def half : Char → Bool := anyOf [rg 'A' 'H', rg 'J' 'Y']
def second : Char → Bool := anyOf [rg 'A' 'H', rg 'J' 'Z']
/-- digits of any script -/
abbrev digs (lo : Nat) (hi : Option Nat) : Rx := .rep lo hi (.one isDec)
/-- the pattern of permanent designations -/
def permRx : Rx := .alt (sq [digs 1 none, opt (sq [.one (anyOf [ch 'I', ch 'P', ch 'D']), opt (sq [lit '-', .rep 1 (some 2) (.one cap)])])])
  (sq [.alt (sq [.alt (word (c! "Mars")) (.alt (word (c! "Jupiter")) (.alt (word (c! "Saturn")) (.alt (word (c! "Uranus")) (word (c! "Neptune"))))), lit ' ', digs 1 (some 3)])
    (sq [lit '(', digs 1 none, lit ')', lit ' ', digs 1 (some 3)])])
theorem pat_perm : pattern (c! "\\d+([IPD](-[A-Z]{1,2})?)?|((Mars|Jupiter|Saturn|Uranus|Neptune) \\d{1,3}|\\(\\d+\\) \\d{1,3})") = some permRx := by kernel_rfl
/-- the pattern of provisional designations -/
def provRx : Rx := .alt (sq [digs 4 (some 4), lit ' ', .one half, .one second, digs 0 none])
  (.alt (sq [digs 4 (some 4), lit ' ', .alt (word (c! "P-L")) (sq [lit 'T', lit '-', .one (anyOf [ch '1', ch '2', ch '3'])])])
  (.alt (sq [.one (anyOf ((c! "ADCPX").map ch)), lit '/', digs 4 (some 4), lit ' ', .rep 1 (some 2) (.one cap), digs 0 none, opt (sq [lit '-', .one cap])])
  (sq [lit 'S', lit '/', digs 4 (some 4), lit ' ', .alt (sq [.alt (sq [lit 'M']) (.alt (sq [lit 'J']) (.alt (sq [lit 'S']) (.alt (sq [lit 'U']) (sq [lit 'N']))))])
    (sq [lit '(', .alt (sq [digs 1 none]) (sq [digs 4 (some 4), lit ' ', .one half, opt (.one second), digs 1 none]), lit ')']), lit ' ', digs 1 none])))
theorem pat_prov : pattern (c! "\\d{4} [A-HJ-Y][A-HJ-Z]\\d*|\\d{4} (P-L|T-[123])|[ADCPX]/\\d{4} [A-Z]{1,2}\\d*(-[A-Z])?|S/\\d{4} ((M|J|S|U|N)|\\((\\d+|\\d{4} [A-HJ-Y][A-HJ-Z]?\\d+)\\)) \\d+") = some provRx := by kernel_rfl

theorem cap_iff {c : Char} : cap c = true ↔ Capital c := by simp [cap, anyOf, Capital]

theorem half_iff {c : Char} : half c = true ↔ HalfMonth c := by
  simp only [half, anyOf, rg, HalfMonth, Bool.or_false, Bool.or_eq_true, Bool.and_eq_true, decide_eq_true_eq]
  have e : c = 'I' ↔ c.toNat = 73 := ⟨fun h => by rw [h]; rfl, fun h => Char.toNat_inj.1 h⟩
  rw [ne_eq, e]
  show (65 ≤ c.toNat ∧ c.toNat ≤ 72 ∨ 74 ≤ c.toNat ∧ c.toNat ≤ 89) ↔ 65 ≤ c.toNat ∧ c.toNat ≤ 89 ∧ ¬ c.toNat = 73
  omega

theorem second_iff {c : Char} : second c = true ↔ Second c := by
  simp only [second, anyOf, rg, Second, Bool.or_false, Bool.or_eq_true, Bool.and_eq_true, decide_eq_true_eq]
  have e : c = 'I' ↔ c.toNat = 73 := ⟨fun h => by rw [h]; rfl, fun h => Char.toNat_inj.1 h⟩
  rw [ne_eq, e]
  show (65 ≤ c.toNat ∧ c.toNat ≤ 72 ∨ 74 ≤ c.toNat ∧ c.toNat ≤ 90) ↔ 65 ≤ c.toNat ∧ c.toNat ≤ 90 ∧ ¬ c.toNat = 73
  omega

theorem takes_digs {lo : Nat} {hi : Option Nat} {v : Str} : (digs lo hi).Takes v ↔ Digits lo hi v := takes_rep

theorem takes_digs_seq {lo : Nat} {hi : Option Nat} {b : Rx} {v : Str} : (Rx.seq (digs lo hi) b).Takes v ↔ ∃ n t, v = n ++ t ∧ Digits lo hi n ∧ b.Takes t := by
  rw [takes_seq]; simp only [takes_digs]

theorem caps_iff {v : Str} : (Rx.rep 1 (some 2) (.one cap)).Takes v ↔ 1 ≤ v.length ∧ v.length ≤ 2 ∧ ∀ c ∈ v, Capital c := by
  rw [takes_rep]; simp only [cap_iff, Option.some.injEq, forall_eq']

theorem takes_perm {v : Str} : permRx.Takes v ↔
    (∃ n, Digits 1 none n ∧ (v = n ∨ ∃ k, (k = 'I' ∨ k = 'P' ∨ k = 'D') ∧ (v = n ++ [k] ∨ ∃ f, 1 ≤ f.length ∧ f.length ≤ 2 ∧ (∀ c ∈ f, Capital c) ∧ v = n ++ k :: '-' :: f)))
    ∨ (∃ p n, p ∈ [c! "Mars", c! "Jupiter", c! "Saturn", c! "Uranus", c! "Neptune"] ∧ Digits 1 (some 3) n ∧ v = p ++ ' ' :: n)
    ∨ ∃ a n, Digits 1 none a ∧ Digits 1 (some 3) n ∧ v = '(' :: a ++ c! ") " ++ n := by
  unfold permRx
  rw [takes_alt]
  simp only [sq]
  refine or_congr ?_ ?_
  · rw [takes_digs_seq]
    simp only [takes_seq_eps, takes_opt, takes_seq_one, beq_iff_eq, caps_iff]
    have kk : ∀ c, anyOf [ch 'I', ch 'P', ch 'D'] c = true ↔ c = 'I' ∨ c = 'P' ∨ c = 'D' := by intro c; simp [anyOf]
    simp only [kk]
    constructor
    · rintro ⟨n, t, rfl, hn, rfl | ⟨k, u, hk, rfl, rfl | ⟨_, f, rfl, rfl, hf⟩⟩⟩
      · exact ⟨n, hn, .inl (by simp)⟩
      · exact ⟨n, hn, .inr ⟨k, hk, .inl rfl⟩⟩
      · exact ⟨n, hn, .inr ⟨k, hk, .inr ⟨f, hf.1, hf.2.1, hf.2.2, rfl⟩⟩⟩
    · rintro ⟨n, hn, rfl | ⟨k, hk, rfl | ⟨f, h1, h2, h3, rfl⟩⟩⟩
      · exact ⟨v, [], by simp, hn, .inl rfl⟩
      · exact ⟨n, [k], rfl, hn, .inr ⟨k, [], hk, rfl, .inl rfl⟩⟩
      · exact ⟨n, _, rfl, hn, .inr ⟨k, _, hk, rfl, .inr ⟨_, f, rfl, rfl, h1, h2, h3⟩⟩⟩
  · rw [takes_seq_eps, takes_alt]
    refine or_congr ?_ ?_
    · rw [takes_seq]
      simp only [takes_alt, takes_text, takes_seq_lit, takes_seq_eps, takes_digs, List.mem_cons, List.not_mem_nil, or_false]
      constructor
      · rintro ⟨p, t, rfl, hp, n, rfl, hn⟩
        exact ⟨p, n, hp, hn, rfl⟩
      · rintro ⟨p, n, hp, hn, rfl⟩
        exact ⟨p, _, rfl, hp, n, rfl, hn⟩
    · rw [takes_seq_lit]
      simp only [takes_digs_seq, takes_seq_lit, takes_seq_eps, takes_digs]
      constructor
      · rintro ⟨_, rfl, a, _, rfl, ha, _, rfl, n, rfl, hn⟩
        exact ⟨a, n, ha, hn, by simp⟩
      · rintro ⟨a, n, ha, hn, rfl⟩
        exact ⟨_, by simp, a, _, rfl, ha, _, rfl, n, rfl, hn⟩

theorem dec_plain {c : Char} (h : isDec c = true) : white c = false := by
  cases hw : white c with
  | false => rfl
  | true =>
    simp only [white, Bool.decide_or, Bool.or_eq_true, decide_eq_true_eq] at hw
    rcases hw with rfl | rfl | rfl | rfl <;> exact absurd h (by decide)

theorem Digits.plain {lo : Nat} {hi : Option Nat} {n : Str} (h : Digits (lo + 1) hi n) : ∃ c ∈ n, white c = false := by
  cases n with
  | nil => exact absurd h.1 (by simp)
  | cons c t => exact ⟨c, by simp, dec_plain (h.2.2 c (by simp))⟩

theorem plain_append_left {s t : Str} (h : ∃ c ∈ s, white c = false) : ∃ c ∈ s ++ t, white c = false := by
  obtain ⟨c, hc, h⟩ := h; exact ⟨c, by simp [hc], h⟩
theorem plain_append_right {s t : Str} (h : ∃ c ∈ t, white c = false) : ∃ c ∈ s ++ t, white c = false := by
  obtain ⟨c, hc, h⟩ := h; exact ⟨c, by simp [hc], h⟩
theorem plain_first {c : Char} {t : Str} (h : white c = false) : ∃ d ∈ c :: t, white d = false := ⟨c, by simp, h⟩

abbrev lengthLayer : Str × List (Str × Str) := (c! "xsd:string", [(c! "xsd:maxLength", c! "25")])

theorem has_name {p v : Str} {r : Rx} {Q : Prop} (hp : pattern p = some r) (hr : r.Takes v ↔ Q) (ha : avoids '|' r = true) (hw : Q → ∃ c ∈ v, white c = false) :
    Alt.Has (c! "xsd:string", [(c! "xsd:string", [(c! "xsd:pattern", p)]), lengthLayer, strLayer]) v ↔ v.length ≤ 25 ∧ Q := by
  rw [has_string]
  simp only [List.mem_cons, List.not_mem_nil, or_false, forall_eq_or_imp, forall_eq, within_length, normal_string, within_str, within_pattern hp, show digitsNat (c! "25") = 25 from rfl]
  rw [hr]
  constructor
  · rintro ⟨h1, h2, -⟩; exact ⟨h2, h1⟩
  · rintro ⟨h2, h1⟩; exact ⟨h1, h2, avoids_sound (hr.2 h1) ha, hw h1⟩

theorem has_perm {v : Str} :
    Alt.Has (c! "xsd:string", [(c! "xsd:string", [(c! "xsd:pattern", c! "\\d+([IPD](-[A-Z]{1,2})?)?|((Mars|Jupiter|Saturn|Uranus|Neptune) \\d{1,3}|\\(\\d+\\) \\d{1,3})")]), lengthLayer, strLayer]) v ↔ PermanentName v := by
  rw [has_name pat_perm takes_perm (by decide +kernel)]
  · rfl
  · rintro (⟨n, hn, rfl | ⟨k, hk, rfl | ⟨f, -, -, -, rfl⟩⟩⟩ | ⟨p, n, -, hn, rfl⟩ | ⟨a, n, -, hn, rfl⟩)
    · exact Digits.plain hn
    · exact plain_append_left (Digits.plain hn)
    · exact plain_append_left (Digits.plain hn)
    · exact plain_append_right (plain_append_right (s := [' ']) (Digits.plain hn))
    · exact plain_append_right (Digits.plain hn)

theorem takes_planet {v : Str} : (Rx.alt (sq [lit 'M']) (.alt (sq [lit 'J']) (.alt (sq [lit 'S']) (.alt (sq [lit 'U']) (sq [lit 'N']))))).Takes v ↔ ∃ c ∈ c! "MJSUN", v = [c] := by
  have e : ∀ c, (sq [lit c]).Takes v ↔ v = [c] := fun c => takes_text (s := [c])
  simp only [takes_alt, e, List.mem_cons, List.not_mem_nil, or_false, or_and_right, exists_or, exists_eq_left]

theorem four_ways {α : Type} {p a b c d : α → Prop} : (∃ x, p x ∧ (a x ∨ b x ∨ c x ∨ d x)) ↔ (∃ x, p x ∧ a x) ∨ (∃ x, p x ∧ b x) ∨ (∃ x, p x ∧ c x) ∨ ∃ x, p x ∧ d x := by
  simp only [and_or_left, exists_or]

theorem takes_prov {v : Str} : provRx.Takes v ↔ ∃ y, Digits 4 (some 4) y ∧
  ((∃ h s n, HalfMonth h ∧ Second s ∧ Digits 0 none n ∧ v = y ++ ' ' :: h :: s :: n)
  ∨ (∃ s ∈ [c! "P-L", c! "T-1", c! "T-2", c! "T-3"], v = y ++ ' ' :: s)
  ∨ (∃ k l n f, k ∈ c! "ADCPX" ∧ 1 ≤ l.length ∧ l.length ≤ 2 ∧ (∀ c ∈ l, Capital c) ∧ Digits 0 none n ∧ (f = [] ∨ ∃ c, Capital c ∧ f = ['-', c]) ∧ v = k :: '/' :: y ++ ' ' :: l ++ n ++ f)
  ∨ (∃ p n, Digits 1 none n ∧ v = c! "S/" ++ y ++ ' ' :: p ++ ' ' :: n ∧ ((∃ c ∈ c! "MJSUN", p = [c])
      ∨ (∃ a, Digits 1 none a ∧ p = '(' :: a ++ [')'])
      ∨ ∃ z h s m, Digits 4 (some 4) z ∧ HalfMonth h ∧ (s = [] ∨ ∃ c, Second c ∧ s = [c]) ∧ Digits 1 none m ∧ p = '(' :: z ++ ' ' :: h :: s ++ m ++ [')']))) := by
  unfold provRx
  rw [takes_alt, takes_alt, takes_alt]
  refine Iff.trans ?_ four_ways.symm
  refine or_congr ?_ (or_congr ?_ (or_congr ?_ ?_))
  · simp only [sq, takes_digs_seq, takes_seq_one, beq_iff_eq, half_iff, second_iff, takes_seq_eps, takes_digs]
    constructor
    · rintro ⟨y, _, rfl, hy, _, _, rfl, rfl, h, _, hh, rfl, s, n, hs, rfl, hn⟩
      exact ⟨y, hy, h, s, n, hh, hs, hn, rfl⟩
    · rintro ⟨y, hy, h, s, n, hh, hs, hn, rfl⟩
      exact ⟨y, _, rfl, hy, _, _, rfl, rfl, h, _, hh, rfl, s, n, hs, rfl, hn⟩
  · have tt : ∀ t : Str, (Rx.alt (word (c! "P-L")) (sq [lit 'T', lit '-', .one (anyOf [ch '1', ch '2', ch '3'])])).Takes t ↔ t ∈ [c! "P-L", c! "T-1", c! "T-2", c! "T-3"] := by
      intro t
      have e : ∀ c, anyOf [ch '1', ch '2', ch '3'] c = true ↔ c = '1' ∨ c = '2' ∨ c = '3' := by intro c; simp [anyOf]
      rw [takes_alt, takes_text]
      simp only [sq, takes_seq_lit, takes_seq_eps, takes_one, e, List.mem_cons, List.not_mem_nil, or_false]
      refine or_congr Iff.rfl ?_
      constructor
      · rintro ⟨_, rfl, _, rfl, c, rfl | rfl | rfl, rfl⟩ <;> simp
      · rintro (rfl | rfl | rfl)
        · exact ⟨_, rfl, _, rfl, _, .inl rfl, rfl⟩
        · exact ⟨_, rfl, _, rfl, _, .inr (.inl rfl), rfl⟩
        · exact ⟨_, rfl, _, rfl, _, .inr (.inr rfl), rfl⟩
    rw [sq, takes_digs_seq]
    rw [sq]
    simp only [takes_seq_lit]
    rw [sq, sq]
    simp only [takes_seq_eps, tt]
    constructor
    · rintro ⟨y, _, rfl, hy, s, rfl, hs⟩
      exact ⟨y, hy, s, hs, rfl⟩
    · rintro ⟨y, hy, s, hs, rfl⟩
      exact ⟨y, _, rfl, hy, s, rfl, hs⟩
  · have ff : ∀ t : Str, (opt (sq [lit '-', .one cap])).Takes t ↔ t = [] ∨ ∃ c, Capital c ∧ t = ['-', c] := by
      intro t
      rw [takes_opt]
      simp only [sq, takes_seq_lit, takes_seq_eps, takes_one, cap_iff]
      refine or_congr Iff.rfl ?_
      constructor
      · rintro ⟨_, rfl, c, hc, rfl⟩; exact ⟨c, hc, rfl⟩
      · rintro ⟨c, hc, rfl⟩; exact ⟨_, rfl, c, hc, rfl⟩
    have cc : ∀ {b : Rx} {t : Str}, (Rx.seq (.rep 1 (some 2) (.one cap)) b).Takes t ↔ ∃ l u, t = l ++ u ∧ (1 ≤ l.length ∧ l.length ≤ 2 ∧ ∀ c ∈ l, Capital c) ∧ b.Takes u := by
      intro b t; rw [takes_seq]; simp only [caps_iff]
    rw [sq, takes_seq_one]
    simp only [anyOf_chars]
    rw [sq]
    simp only [takes_seq_lit]
    rw [sq]
    simp only [takes_digs_seq]
    rw [sq]
    simp only [takes_seq_lit]
    rw [sq]
    simp only [cc]
    rw [sq]
    simp only [takes_digs_seq]
    rw [sq, sq]
    simp only [takes_seq_eps, ff]
    constructor
    · rintro ⟨k, _, hk, rfl, _, rfl, y, _, rfl, hy, _, rfl, l, _, rfl, ⟨h1, h2, h3⟩, n, f, rfl, hn, hf⟩
      exact ⟨y, hy, k, l, n, f, hk, h1, h2, h3, hn, hf, by simp⟩
    · rintro ⟨y, hy, k, l, n, f, hk, h1, h2, h3, hn, hf, rfl⟩
      exact ⟨k, '/' :: (y ++ ' ' :: (l ++ (n ++ f))), hk, by simp, _, rfl, y, _, rfl, hy, _, rfl, l, _, rfl, ⟨h1, h2, h3⟩, n, f, rfl, hn, hf⟩
  · have pp : ∀ t : Str, (Rx.alt (sq [.alt (sq [lit 'M']) (.alt (sq [lit 'J']) (.alt (sq [lit 'S']) (.alt (sq [lit 'U']) (sq [lit 'N']))))])
        (sq [lit '(', .alt (sq [digs 1 none]) (sq [digs 4 (some 4), lit ' ', .one half, opt (.one second), digs 1 none]), lit ')'])).Takes t ↔
        ((∃ c ∈ c! "MJSUN", t = [c]) ∨ (∃ a, Digits 1 none a ∧ t = '(' :: a ++ [')'])
      ∨ ∃ z h s m, Digits 4 (some 4) z ∧ HalfMonth h ∧ (s = [] ∨ ∃ c, Second c ∧ s = [c]) ∧ Digits 1 none m ∧ t = '(' :: z ++ ' ' :: h :: s ++ m ++ [')']) := by
      intro t
      rw [takes_alt, sq, sq, takes_seq_eps, takes_planet]
      refine or_congr Iff.rfl ?_
      rw [sq, takes_seq_lit]
      have oo : ∀ {b : Rx} {t : Str}, (Rx.seq (opt (.one second)) b).Takes t ↔ ∃ s u, t = s ++ u ∧ (s = [] ∨ ∃ c, Second c ∧ s = [c]) ∧ b.Takes u := by
        intro b t; rw [takes_seq]; simp only [takes_opt, takes_one, second_iff]
      have mm : ∀ u : Str, (sq [Rx.alt (sq [digs 1 none]) (sq [digs 4 (some 4), lit ' ', .one half, opt (.one second), digs 1 none]), lit ')']).Takes u ↔
          ∃ s, u = s ++ [')'] ∧ (Digits 1 none s ∨ ∃ z h q m, Digits 4 (some 4) z ∧ HalfMonth h ∧ (q = [] ∨ ∃ c, Second c ∧ q = [c]) ∧ Digits 1 none m ∧ s = z ++ ' ' :: h :: q ++ m) := by
        intro u
        rw [sq, takes_seq]
        have e : ∀ t : Str, (sq [lit ')']).Takes t ↔ t = [')'] := fun t => takes_text (s := [')'])
        simp only [e, takes_alt]
        rw [sq, sq]
        simp only [takes_seq_eps, takes_digs]
        rw [sq]
        simp only [takes_digs_seq]
        rw [sq]
        simp only [takes_seq_lit]
        rw [sq]
        simp only [takes_seq_one, half_iff]
        rw [sq]
        simp only [oo]
        rw [sq, sq]
        simp only [takes_seq_eps, takes_digs]
        constructor
        · rintro ⟨s, _, rfl, hs, rfl⟩
          refine ⟨s, rfl, hs.imp id ?_⟩
          rintro ⟨z, _, rfl, hz, _, rfl, h, _, hh, rfl, q, m, rfl, hq, hm⟩
          exact ⟨z, h, q, m, hz, hh, hq, hm, by simp⟩
        · rintro ⟨s, rfl, hs⟩
          refine ⟨s, _, rfl, hs.imp id ?_, rfl⟩
          rintro ⟨z, h, q, m, hz, hh, hq, hm, rfl⟩
          exact ⟨z, ' ' :: h :: (q ++ m), by simp, hz, _, rfl, h, _, hh, rfl, q, m, rfl, hq, hm⟩
      simp only [mm]
      constructor
      · rintro ⟨_, rfl, s, rfl, h | ⟨z, h, q, m, hz, hh, hq, hm, rfl⟩⟩
        · exact .inl ⟨s, h, rfl⟩
        · exact .inr ⟨z, h, q, m, hz, hh, hq, hm, by simp⟩
      · rintro (⟨a, ha, rfl⟩ | ⟨z, h, q, m, hz, hh, hq, hm, rfl⟩)
        · exact ⟨a ++ [')'], rfl, a, rfl, .inl ha⟩
        · exact ⟨z ++ ' ' :: h :: q ++ m ++ [')'], by simp, _, rfl, .inr ⟨z, h, q, m, hz, hh, hq, hm, rfl⟩⟩
    rw [sq, takes_seq_lit]
    rw [sq]
    simp only [takes_seq_lit]
    rw [sq]
    simp only [takes_digs_seq]
    rw [sq]
    simp only [takes_seq_lit]
    rw [sq]
    have ps : ∀ {b : Rx} {t : Str}, (Rx.seq (Rx.alt (sq [.alt (sq [lit 'M']) (.alt (sq [lit 'J']) (.alt (sq [lit 'S']) (.alt (sq [lit 'U']) (sq [lit 'N']))))])
        (sq [lit '(', .alt (sq [digs 1 none]) (sq [digs 4 (some 4), lit ' ', .one half, opt (.one second), digs 1 none]), lit ')'])) b).Takes t ↔ ∃ p u, t = p ++ u ∧ ((∃ c ∈ c! "MJSUN", p = [c]) ∨ (∃ a, Digits 1 none a ∧ p = '(' :: a ++ [')'])
      ∨ ∃ z h s m, Digits 4 (some 4) z ∧ HalfMonth h ∧ (s = [] ∨ ∃ c, Second c ∧ s = [c]) ∧ Digits 1 none m ∧ p = '(' :: z ++ ' ' :: h :: s ++ m ++ [')']) ∧ b.Takes u := by
      intro b t; rw [takes_seq]; simp only [pp]
    simp only [ps]
    rw [sq]
    simp only [takes_seq_lit]
    rw [sq, sq]
    simp only [takes_seq_eps, takes_digs]
    constructor
    · rintro ⟨_, rfl, _, rfl, y, _, rfl, hy, _, rfl, p, _, rfl, hp, n, rfl, hn⟩
      exact ⟨y, hy, p, n, hn, by simp, hp⟩
    · rintro ⟨y, hy, p, n, hn, rfl, hp⟩
      exact ⟨'/' :: (y ++ ' ' :: (p ++ ' ' :: n)), by simp, _, rfl, y, _, rfl, hy, _, rfl, p, _, rfl, hp, n, rfl, hn⟩

theorem has_prov {v : Str} :
    Alt.Has (c! "xsd:string", [(c! "xsd:string", [(c! "xsd:pattern", c! "\\d{4} [A-HJ-Y][A-HJ-Z]\\d*|\\d{4} (P-L|T-[123])|[ADCPX]/\\d{4} [A-Z]{1,2}\\d*(-[A-Z])?|S/\\d{4} ((M|J|S|U|N)|\\((\\d+|\\d{4} [A-HJ-Y][A-HJ-Z]?\\d+)\\)) \\d+")]), lengthLayer, strLayer]) v ↔ ProvisionalName v := by
  rw [has_name pat_prov takes_prov (by decide +kernel)]
  · rfl
  · rintro ⟨y, hy, ⟨h, s, n, -, -, -, rfl⟩ | ⟨s, -, rfl⟩ | ⟨k, l, n, f, -, -, -, -, -, -, rfl⟩ | ⟨p, n, -, rfl, -⟩⟩
    · exact plain_append_left (Digits.plain hy)
    · exact plain_append_left (Digits.plain hy)
    · refine plain_append_left (plain_append_left (plain_append_left ?_)) 
      exact plain_append_right (s := [k, '/']) (Digits.plain hy)
    · exact plain_append_left (plain_append_left (plain_append_right (Digits.plain hy)))

theorem has_planet {v : Str} {vs : List Str} (hne : vs ≠ []) (hv : ∀ v ∈ vs, v.length ≤ 25 ∧ '|' ∉ v ∧ ∃ c ∈ v, white c = false) :
    Alt.Has (c! "xsd:string", [(c! "xsd:string", vs.map fun v => (c! "xsd:enumeration", v)), lengthLayer, strLayer]) v ↔ v ∈ vs := by
  rw [has_string]
  simp only [List.mem_cons, List.not_mem_nil, or_false, forall_eq_or_imp, forall_eq, within_length, normal_string, within_str, within_listed hne, show digitsNat (c! "25") = 25 from rfl]
  exact ⟨fun h => h.1, fun h => ⟨h, hv v h⟩⟩

theorem pat_oldName : pattern (c! "A[89]\\d{2} [A-HJ-Y][A-HJ-Z]") = some (sq [lit 'A', .one (anyOf [ch '8', ch '9']), digs 2 (some 2), lit ' ', .one half, .one second]) := by kernel_rfl

theorem has_oldName {v : Str} : Alt.Has (c! "xsd:string", [(c! "xsd:string", [(c! "xsd:pattern", c! "A[89]\\d{2} [A-HJ-Y][A-HJ-Z]")]), lengthLayer, strLayer]) v ↔ OldName v := by
  have ht : (sq [lit 'A', .one (anyOf [ch '8', ch '9']), digs 2 (some 2), lit ' ', .one half, .one second]).Takes v ↔ OldName v := by
    have e : ∀ c, anyOf [ch '8', ch '9'] c = true ↔ c = '8' ∨ c = '9' := by intro c; simp [anyOf]
    simp only [sq, takes_seq_one, takes_digs_seq, takes_seq_eps, takes_one, beq_iff_eq, half_iff, second_iff, e]
    constructor
    · rintro ⟨_, _, rfl, rfl, c, _, hc, rfl, y, _, rfl, hy, _, _, rfl, rfl, h, _, hh, rfl, s, hs, rfl⟩
      exact ⟨c, y, h, s, hc, hy, hh, hs, rfl⟩
    · rintro ⟨c, y, h, s, hc, hy, hh, hs, rfl⟩
      exact ⟨_, _, rfl, rfl, c, _, hc, rfl, y, _, rfl, hy, _, _, rfl, rfl, h, _, hh, rfl, s, hs, rfl⟩
  rw [has_name pat_oldName ht (by decide +kernel)]
  · constructor
    · exact fun h => h.2
    · rintro ⟨c, y, h, s, hc, hy, hh, hs, rfl⟩
      have := hy.2.1 2 rfl
      refine ⟨?_, c, y, h, s, hc, hy, hh, hs, rfl⟩
      simp only [List.length_cons, List.length_append, List.length_nil]
      omega
  · rintro ⟨c, y, h, s, hc, hy, hh, hs, rfl⟩
    exact plain_append_left (plain_append_right (s := ['A', c]) (Digits.plain hy))

/-! ### numbers that are listed -/

/-- equal to a number that is listed -/
theorem same_iff {b x y : Str} {n : Numeral} {p : Rat} (hb : b ≠ c! "xsd:string") (hn : n.Valid) (e : trim x = n.text) (hy : decimalOf (trim y) = some p) : Same b x y ↔ n.value = p := by
  unfold Same
  rw [if_neg hb, e]
  constructor
  · rintro ⟨q, h1, h2⟩
    rw [← decimal_value hn h1, decimal_unique h2 (decimalOf_sound hy)]
  · intro h
    exact ⟨n.value, decimal_self hn, by rw [h]; exact decimalOf_sound hy⟩

theorem has_oneOf {vs : List Str} {ps : List Rat} {v : Str} (hv : vs.map (fun v => decimalOf (trim v)) = ps.map some) (hne : vs ≠ [])
    (hl : limits (vs.map fun v => (c! "xsd:enumeration", v)) = { enumeration := vs }) :
    Alt.Has (c! "xsd:decimal", [(c! "xsd:decimal", vs.map fun v => (c! "xsd:enumeration", v))]) v ↔ OneOf ps (trim v) := by
  rw [has_decimal (P := fun n => n.value ∈ ps)]
  · exact ⟨fun ⟨n, a, b, c⟩ => ⟨n, a, c, b⟩, fun ⟨n, a, c, b⟩ => ⟨n, a, b, c⟩⟩
  · intro n hn e
    simp only [List.mem_singleton, forall_eq]
    rw [within_iff _ hl]
    · simp only [List.not_mem_nil, false_implies, implies_true, true_or, true_and, and_true]
      constructor
      · rintro (h | ⟨y, hy, h⟩)
        · exact absurd h hne
        · have : decimalOf (trim y) ∈ ps.map some := by rw [← hv]; exact List.mem_map.2 ⟨y, hy, rfl⟩
          obtain ⟨p, hp, e2⟩ := List.mem_map.1 this
          rw [(same_iff (by decide) hn e e2.symm).1 h]
          exact hp
      · intro h
        right
        have : some n.value ∈ vs.map (fun v => decimalOf (trim v)) := by rw [hv]; exact List.mem_map.2 ⟨_, h, rfl⟩
        obtain ⟨y, hy, e2⟩ := List.mem_map.1 this
        exact ⟨y, hy, (same_iff (by decide) hn e e2).2 rfl⟩
    · unfold knownB
      rw [List.all_eq_true]
      intro f hf
      obtain ⟨v, -, rfl⟩ := List.mem_map.1 hf
      simp

/-! ### integers -/

theorem builtin_integer {x : Str} : Builtin (c! "xsd:integer") x ↔ ∃ q, Integer (trim x) q := by
  unfold Builtin
  constructor
  · rintro (h | ⟨h, -⟩ | ⟨-, h⟩ | ⟨h, -⟩ | ⟨h, -⟩ | ⟨h, -⟩)
    · exact absurd h (by decide)
    · exact absurd h (by decide)
    · exact h
    all_goals exact absurd h (by decide)
  · intro h; exact .inr (.inr (.inl ⟨rfl, h⟩))

theorem builtin_count {x : Str} : Builtin (c! "xsd:positiveInteger") x ↔ ∃ q, Integer (trim x) q ∧ 0 < q := by
  unfold Builtin
  constructor
  · rintro (h | ⟨h, -⟩ | ⟨h, -⟩ | ⟨-, h⟩ | ⟨h, -⟩ | ⟨h, -⟩)
    · exact absurd h (by decide)
    · exact absurd h (by decide)
    · exact absurd h (by decide)
    · exact h
    all_goals exact absurd h (by decide)
  · intro h; exact .inr (.inr (.inr (.inl ⟨rfl, h⟩)))

theorem normal_int {x : Str} : normal (c! "xsd:integer") x = trim x := normal_other (by decide)
theorem normal_count {x : Str} : normal (c! "xsd:positiveInteger") x = trim x := normal_other (by decide)

theorem has_logical {v : Str} : Alt.Has (c! "xsd:integer", [(c! "xsd:integer", [(c! "xsd:enumeration", c! "0"), (c! "xsd:enumeration", c! "1")])]) v ↔ IntegerValue 0 (trim v) ∨ IntegerValue 1 (trim v) := by
  unfold Alt.Has
  rw [builtin_integer]
  simp only [List.mem_singleton, forall_eq]
  rw [within_iff { enumeration := [c! "0", c! "1"] } rfl rfl]
  simp only [List.not_mem_nil, false_implies, implies_true, true_or, true_and, and_true, List.mem_cons, or_false, exists_eq_or_imp, exists_eq_left, List.cons_ne_nil, false_or]
  have s0 : ∀ n : Numeral, n.Valid → trim v = n.text → (Same (c! "xsd:integer") v (c! "0") ↔ n.value = 0) := fun n hn e => same_iff (by decide) hn e (by decide +kernel)
  have s1 : ∀ n : Numeral, n.Valid → trim v = n.text → (Same (c! "xsd:integer") v (c! "1") ↔ n.value = 1) := fun n hn e => same_iff (by decide) hn e (by decide +kernel)
  constructor
  · rintro ⟨⟨q, n, hn, hf, e, -⟩, h | h⟩
    · exact .inl ⟨n, hn, e, hf, (s0 n hn e).1 h⟩
    · exact .inr ⟨n, hn, e, hf, (s1 n hn e).1 h⟩
  · rintro (⟨n, hn, e, hf, h⟩ | ⟨n, hn, e, hf, h⟩)
    · exact ⟨⟨_, n, hn, hf, e, rfl⟩, .inl ((s0 n hn e).2 h)⟩
    · exact ⟨⟨_, n, hn, hf, e, rfl⟩, .inr ((s1 n hn e).2 h)⟩

theorem has_centre {v : Str} : Alt.Has (c! "xsd:integer", [(c! "xsd:integer", [(c! "xsd:enumeration", c! "399")]),
    (c! "xsd:integer", [(c! "xsd:maxExclusive", c! "+1000000000"), (c! "xsd:minExclusive", c! "-1000000000")])]) v ↔ IntegerValue 399 (trim v) := by
  unfold Alt.Has
  rw [builtin_integer]
  simp only [List.mem_cons, List.not_mem_nil, or_false, forall_eq_or_imp, forall_eq]
  rw [within_iff { enumeration := [c! "399"] } rfl rfl, within_iff { maxE := [c! "+1000000000"], minE := [c! "-1000000000"] } rfl rfl]
  simp only [List.not_mem_nil, false_implies, implies_true, true_or, true_and, and_true, List.mem_singleton, exists_eq_left, List.cons_ne_nil, false_or, forall_eq, normal_int]
  have s0 : ∀ n : Numeral, n.Valid → trim v = n.text → (Same (c! "xsd:integer") v (c! "399") ↔ n.value = 399) := fun n hn e => same_iff (by decide) hn e (by decide +kernel)
  constructor
  · rintro ⟨⟨q, n, hn, hf, e, -⟩, h, -⟩
    exact ⟨n, hn, e, hf, (s0 n hn e).1 h⟩
  · rintro ⟨n, hn, e, hf, h⟩
    refine ⟨⟨_, n, hn, hf, e, rfl⟩, (s0 n hn e).2 h, ?_, ?_⟩ <;> rw [e]
    · rw [limit_iff (R := fun p q => p < q) hn (show decimalOf (c! "-1000000000") = some (-1000000000) by decide +kernel), h]; norm_num
    · rw [limit_iff (R := fun p q => q < p) hn (show decimalOf (c! "+1000000000") = some 1000000000 by decide +kernel), h]; norm_num

theorem has_count {v : Str} : Alt.Has (c! "xsd:positiveInteger", [(c! "xsd:positiveInteger", [(c! "xsd:maxExclusive", c! "1000000")])]) v ↔ CountValue (trim v) := by
  unfold Alt.Has
  rw [builtin_count]
  simp only [List.mem_singleton, forall_eq]
  rw [within_iff { maxE := [c! "1000000"] } rfl rfl]
  simp only [List.not_mem_nil, false_implies, implies_true, true_or, true_and, and_true, List.mem_singleton, forall_eq, normal_count]
  constructor
  · rintro ⟨⟨q, ⟨n, hn, hf, e, rfl⟩, h0⟩, h⟩
    rw [e, limit_iff (R := fun p q => q < p) hn (show decimalOf (c! "1000000") = some 1000000 by decide +kernel)] at h
    exact ⟨n, hn, e, hf, h0, h⟩
  · rintro ⟨n, hn, e, hf, h0, h⟩
    refine ⟨⟨_, ⟨n, hn, hf, e, rfl⟩, h0⟩, ?_⟩
    rw [e, limit_iff (R := fun p q => q < p) hn (show decimalOf (c! "1000000") = some 1000000 by decide +kernel)]
    exact h

/-! ### numbers with exponents -/

theorem builtin_double {x : Str} : Builtin (c! "xsd:double") x ↔ Double (trim x) := by
  unfold Builtin
  constructor
  · rintro (h | ⟨h, -⟩ | ⟨h, -⟩ | ⟨h, -⟩ | ⟨-, h⟩ | ⟨h, -⟩)
    · exact absurd h (by decide)
    · exact absurd h (by decide)
    · exact absurd h (by decide)
    · exact absurd h (by decide)
    · exact h
    · exact absurd h (by decide)
  · intro h; exact .inr (.inr (.inr (.inr (.inl ⟨rfl, h⟩))))

theorem text_chars {n : Numeral} (hn : n.Valid) : ∀ c ∈ n.text, c ∈ c! "+-Ee0123456789." := by
  intro c hc
  rw [text_eq] at hc
  rcases List.mem_append.1 hc with hc | hc
  · have := hn.1 c (by simpa using hc)
    rcases this with rfl | rfl <;> decide
  · have := body_chars (.of hn) c hc
    simp only [List.mem_cons, List.not_mem_nil, or_false] at this ⊢
    tauto

theorem text_ne {n : Numeral} (hn : n.Valid) : n.text ≠ [] := by
  intro h
  have := width_pos hn
  rw [width_eq] at this
  rw [text_eq] at h
  have := congrArg List.length h
  simp only [List.length_append, List.length_nil] at this
  simp only [List.length_append] at *
  omega

theorem has_covariance {v : Str} : Alt.Has (c! "xsd:double", [(c! "xsd:double", [(c! "xsd:pattern", c! "[+\\-]?[+\\-Ee0123456789\\.]{1,20}")])]) v ↔ Covariance (trim v) := by
  unfold Alt.Has
  rw [builtin_double]
  simp only [List.mem_singleton, forall_eq, within_pattern pat_double, normal_other (show c! "xsd:double" ≠ c! "xsd:string" by decide)]
  unfold Covariance
  refine and_congr_right fun hd => ?_
  generalize trim v = u at hd
  simp only [sq]
  rw [takes_seq]
  have e : ∀ t, (Rx.seq (.rep 1 (some 20) (.one expo)) .eps).Takes t ↔ 1 ≤ t.length ∧ t.length ≤ 20 ∧ ∀ c ∈ t, c ∈ c! "+-Ee0123456789." := by
    intro t; simp only [takes_seq_eps, takes_rep, expo_iff, Option.some.injEq, forall_eq']
  simp only [e]
  constructor
  · rintro ⟨s, t, rfl, hs, h1, h2, h3⟩
    obtain ⟨o, ho, rfl⟩ := takes_sgn.1 hs
    have all : ∀ c ∈ o.toList ++ t, c ∈ c! "+-Ee0123456789." := by
      intro c hc
      rcases List.mem_append.1 hc with hc | hc
      · rcases ho c (by simpa using hc) with rfl | rfl <;> decide
      · exact h3 c hc
    refine ⟨?_, ?_, ?_, ?_⟩
    · intro h; rw [h] at all; exact absurd (all 'I' (by decide)) (by decide)
    · intro h; rw [h] at all; exact absurd (all 'I' (by decide)) (by decide)
    · intro h; rw [h] at all; exact absurd (all 'N' (by decide)) (by decide)
    · cases o with
      | none => left; simpa using h2
      | some c =>
        rcases Nat.lt_or_ge t.length 20 with hl | hl
        · left; simp; omega
        · right
          refine ⟨by simp; omega, ?_⟩
          rcases ho c rfl with rfl | rfl <;> simp
  · rintro ⟨h1, h2, h3, h4⟩
    have all : (∀ c ∈ u, c ∈ c! "+-Ee0123456789.") ∧ u ≠ [] := by
      rcases hd with ⟨n, hn, rfl | ⟨m, hm, -, rfl | rfl⟩⟩ | h | h | h
      · exact ⟨text_chars hn, text_ne hn⟩
      · refine ⟨?_, by simp⟩
        intro c hc
        rcases List.mem_append.1 hc with hc | hc
        · exact text_chars hn c hc
        · rcases List.mem_cons.1 hc with rfl | hc
          · decide
          · exact text_chars hm c hc
      · refine ⟨?_, by simp⟩
        intro c hc
        rcases List.mem_append.1 hc with hc | hc
        · exact text_chars hn c hc
        · rcases List.mem_cons.1 hc with rfl | hc
          · decide
          · exact text_chars hm c hc
      · exact absurd h h1
      · exact absurd h h2
      · exact absurd h h3
    rcases h4 with h4 | ⟨h4, h5⟩
    · exact ⟨[], u, rfl, takes_sgn.2 ⟨none, by simp, rfl⟩, List.length_pos_iff.2 all.2, h4, all.1⟩
    · cases u with
      | nil => simp at h4
      | cons c t =>
        simp only [List.head?_cons, Option.some.injEq] at h5
        simp only [List.length_cons] at h4
        exact ⟨[c], t, rfl, takes_sgn.2 ⟨some c, by rintro d ⟨⟩; exact h5, rfl⟩, by omega, by omega, fun d hd => all.1 d (by simp [hd])⟩

end Verif.Xsd
