import Verif.Props.Packing
import Verif.Props.Total
import Verif.Lemmas.UnpackingUnique
/-! Which texts come back as they were: the designations that columns stand for are packed into those columns, or refused. -/
set_option linter.unusedSimpArgs false
namespace Verif.Unpacking
open Verif Verif.PackUtil Verif.Spec Verif.Spec.Packing Verif.Spec.Unpacking Verif.Packing

theorem ascii_mem {P : Char → Bool} {l : Str} (h1 : ∀ c : Char, P c = true → c ≤ 'z') (h2 : ∀ n : Fin 128, P (Char.ofNat n) = true → Char.ofNat n ∈ l) {c : Char} (h : P c = true) : c ∈ l := by
  have hlt : c.toNat < 128 := lt_of_le_of_lt (h1 c h) (by decide)
  have := h2 ⟨c.toNat, hlt⟩
  simp only [Char.ofNat_toNat] at this
  exact this h

theorem half_mem {c : Char} (h : HalfMonth c) : c ∈ halfMonths :=
  ascii_mem (P := fun c => decide ('A' ≤ c ∧ c ≤ 'Y' ∧ c ≠ 'I')) (fun c h => Char.le_trans (of_decide_eq_true h).2.1 (by decide)) (by decide +kernel) (decide_eq_true h)

theorem capital_mem {c : Char} (h : Capital c) : c ∈ upperCase :=
  ascii_mem (P := fun c => decide ('A' ≤ c ∧ c ≤ 'Z')) (fun c h => Char.le_trans (of_decide_eq_true h).2 (by decide)) (by decide +kernel) (decide_eq_true h)

theorem digits_lt {n : Nat} {s : Str} (hn : n ≠ 0) (h : Unpacking.Digits n s) : value s < 10 ^ n := by
  rw [← h.1]
  exact value_lt ⟨by rintro rfl; exact hn h.1.symm, h.2⟩

theorem digit_lt {d : Char} (h : isDec d = true) : value [d] < 10 := digits_lt (n := 1) (by omega) ⟨rfl, by simpa using h⟩

/-! ### what is refused -/

/-- a name that begins with a letter and a slash -/
theorem slashed {w : ProvName} {ty : Char} {r : Str} (hty : isDec ty = false) (h : w.Is (ty :: '/' :: r)) :
    (∃ y half order n e, Year y ∧ Capital half ∧ (∀ o ∈ order, Capital o) ∧ Digits0 n ∧ End e ∧ w = .comet ty y half order n ∧ ty ∈ ['A', 'C', 'D', 'P', 'X'] ∧ r = y ++ [' ', half] ++ order.toList ++ n ++ e)
    ∨ (∃ y half n f e, Year y ∧ Capital half ∧ Digits0 n ∧ Capital f ∧ End e ∧ w = .fragment ty y half n f ∧ ty ∈ ['C', 'D', 'P', 'X'] ∧ r = y ++ [' ', half] ++ n ++ ['-', f] ++ e)
    ∨ ∃ y p n e, Year y ∧ Number n ∧ End e ∧ w = .satellite y p n ∧ ty = 'S' ∧ r = y ++ [' ', p.letter, ' '] ++ n ++ e := by
  obtain ⟨hf, e, he, hv⟩ := h
  cases w with
  | minor y half order n =>
    obtain ⟨a, b, c, d, rfl, h1, -⟩ := year_chars hf.1
    simp only [ProvName.text, List.cons_append, List.nil_append, List.cons.injEq] at hv
    rw [hv.1, h1] at hty; simp at hty
  | survey n s =>
    obtain ⟨a, b, c, d, rfl, h1, -⟩ := year_chars hf
    simp only [ProvName.text, List.cons_append, List.nil_append, List.cons.injEq] at hv
    rw [hv.1, h1] at hty; simp at hty
  | comet ty' y half order n =>
    obtain ⟨a1, a2, a3, a4, a5⟩ := hf
    simp only [ProvName.text, List.cons_append, List.nil_append, List.cons.injEq, true_and] at hv
    obtain ⟨rfl, rfl⟩ := hv
    exact .inl ⟨y, half, order, n, e, a2, a3, a4, a5, he, rfl, a1, by simp⟩
  | fragment ty' y half n f =>
    obtain ⟨a1, a2, a3, a4, a5⟩ := hf
    simp only [ProvName.text, List.cons_append, List.nil_append, List.cons.injEq, true_and] at hv
    obtain ⟨rfl, rfl⟩ := hv
    exact .inr (.inl ⟨y, half, n, f, e, a2, a3, a4, a5, he, rfl, a1, by simp⟩)
  | satellite y p n =>
    simp only [ProvName.text, List.cons_append, List.nil_append, List.cons.injEq, true_and] at hv
    obtain ⟨rfl, rfl⟩ := hv
    exact .inr (.inr ⟨y, p, n, e, hf.1, hf.2, he, rfl, rfl, by simp⟩)

theorem dec_digits (n : Nat) : ∀ c ∈ dec n, isDec c = true := by
  rw [dec_eq]; exact fun c hc => natStr_isDec n c hc

theorem year_same {y : Nat} {y' r r' : Str} (hy : Year y') (h : dec y ++ ' ' :: r = y' ++ ' ' :: r') : dec y = y' ∧ r = r' := by
  obtain ⟨e1, e2⟩ := split_unique (p := isDec) (dec_digits y) hy.2 (by simp; decide) (by simp; decide) h
  exact ⟨e1, by simpa using e2⟩

theorem year_ge {y : Nat} (h : (dec y).length = 4) : 1000 ≤ y := by
  by_contra hlt
  have : (dec y).length ≤ 3 := by
    rw [dec_eq]
    have := natStr_length_le (n := y) (k := 3) (by omega)
    omega
  omega


theorem no_dash {l e : Str} (h : ∀ c ∈ l, Capital c ∨ isDec c = true) (he : End e) : '-' ∉ l ++ e := by
  rw [List.mem_append]
  rintro (h1 | h1)
  · rcases h _ h1 with h2 | h2
    · exact capital_ne h2 (by decide) rfl
    · exact dec_ne h2 (by decide) rfl
  · rcases he with rfl | rfl <;> simp at h1

/-- nothing is packed from a comet's name before the year 1000, of type I, or of a fragment of an object A/ or without a count -/
theorem comet_packed {w : ProvName} {ty h : Char} {y k : Nat} {o f : Option Char} {c : Str} (hty : ty ∈ c! "APCDXI")
    (hw : w.Is ([ty, '/'] ++ dec y ++ [' ', h] ++ o.toList ++ count k ++ (f.map fun f => ['-', f]).getD [])) (hf : f ≠ none → o = none) (hc : w.cols = .ok c) :
    1000 ≤ y ∧ ty ≠ 'I' ∧ (f ≠ none → ty ≠ 'A' ∧ k ≠ 0) := by
  have hd : isDec ty = false := by
    have : ∀ t ∈ c! "APCDXI", isDec t = false := by decide
    exact this ty hty
  have hS : ty ≠ 'S' := by rintro rfl; exact absurd hty (by decide)
  have ev : [ty, '/'] ++ dec y ++ [' ', h] ++ o.toList ++ count k ++ (f.map fun f => ['-', f]).getD [] = ty :: '/' :: (dec y ++ ' ' :: (h :: (o.toList ++ count k ++ (f.map fun f => ['-', f]).getD []))) := by simp
  rw [ev] at hw
  rcases slashed hd hw with ⟨y', h', o', n, e, a1, a2, a3, a4, a5, rfl, a6, a7⟩ | ⟨y', h', n, f', e, a1, a2, a3, a4, a5, rfl, a6, a7⟩ | ⟨_, _, _, _, _, _, _, _, h, _⟩
  · obtain ⟨e1, e2⟩ := year_same (r' := h' :: (o'.toList ++ n ++ e)) a1 (by rw [a7]; simp)
    refine ⟨year_ge (by rw [e1]; exact a1.1), by rintro rfl; exact absurd a6 (by decide), fun hn => ?_⟩
    exfalso
    cases f with
    | none => exact hn rfl
    | some f =>
      have hm : '-' ∈ (h :: (o.toList ++ count k ++ ['-', f])) := by simp
      have e2' : h :: (o.toList ++ count k ++ ['-', f]) = (h' :: (o'.toList ++ n)) ++ e := by rw [List.cons_append]; exact e2
      rw [e2'] at hm
      refine no_dash ?_ a5 hm
      intro c hc
      rw [List.mem_cons, List.mem_append] at hc
      rcases hc with rfl | hc | hc
      · exact .inl a2
      · exact .inl (a3 c (by simpa using hc))
      · exact .inr (a4 c hc)
  · obtain ⟨e1, e2⟩ := year_same (r' := h' :: (n ++ ['-', f'] ++ e)) a1 (by rw [a7]; simp)
    refine ⟨year_ge (by rw [e1]; exact a1.1), by rintro rfl; exact absurd a6 (by decide), fun hn => ⟨by rintro rfl; exact absurd a6 (by decide), ?_⟩⟩
    rintro rfl
    cases f with
    | none => exact hn rfl
    | some f =>
      rw [hf hn] at e2
      simp only [count, if_true, Option.toList, List.nil_append, Option.map_some, Option.getD_some, List.cons.injEq] at e2
      cases n with
      | nil => simp only [ProvName.cols, if_true] at hc; exact absurd hc (by simp)
      | cons a n =>
        simp only [List.cons_append, List.cons.injEq] at e2
        exact dec_ne (a3 a (by simp)) (by decide) e2.2.1.symm
  · exact absurd h hS

theorem sat_packed {w : ProvName} {p : Planet} {y k : Nat} (hw : w.Is (c! "S/" ++ dec y ++ [' ', p.letter, ' '] ++ count k)) : 1000 ≤ y ∧ k ≠ 0 := by
  have e : c! "S/" ++ dec y ++ [' ', p.letter, ' '] ++ count k = 'S' :: '/' :: (dec y ++ ' ' :: (p.letter :: ' ' :: count k)) := by simp
  rw [e] at hw
  rcases slashed (by decide) hw with ⟨_, _, _, _, _, _, _, _, _, _, _, h, _⟩ | ⟨_, _, _, _, _, _, _, _, _, _, _, h, _⟩ | ⟨y', p', n, e, a1, a2, a3, rfl, -, a7⟩
  · exact absurd h (by decide)
  · exact absurd h (by decide)
  · obtain ⟨e1, e2⟩ := year_same (r' := p'.letter :: ' ' :: (n ++ e)) a1 (by rw [a7]; simp)
    refine ⟨year_ge (by rw [e1]; exact a1.1), ?_⟩
    rintro rfl
    simp only [count, if_true, List.cons.injEq] at e2
    have := e2.2.2
    cases n with
    | nil => exact a2.1 rfl
    | cons => simp at this

/-! ### what is packed -/

theorem looks_minor {t : Str} (h : LooksPacked t) : ∃ q, Minor7 t q := by
  have dig : ∀ d ∈ (List.range 10).map b62, isDec d = true := by decide
  have oneHalf : ∀ h ∈ halfMonths, HalfMonth h := by unfold HalfMonth; decide
  have oneOrd : ∀ h ∈ orders, Second h := by unfold Second; decide
  rcases h with ⟨c, d1, d2, h, l, d, o, rfl, hc, h1, h2, hh, hl, hd, ho⟩ | ⟨s, n, hn, rfl⟩
  · have hc' : ∃ k, 18 ≤ k ∧ k ≤ 20 ∧ c = b62 k := by
      simp only [List.mem_cons, List.not_mem_nil, or_false] at hc
      rcases hc with rfl | rfl | rfl
      · exact ⟨18, by omega, by omega, by decide⟩
      · exact ⟨19, by omega, by omega, by decide⟩
      · exact ⟨20, by omega, by omega, by decide⟩
    obtain ⟨k, k1, k2, rfl⟩ := hc'
    obtain ⟨j, hj, rfl⟩ := List.mem_map.1 hl
    have hy : Unpacking.Digits 2 [d1, d2] := ⟨rfl, by simp [dig _ h1, dig _ h2]⟩
    rcases ho with ho | rfl
    · exact ⟨_, .normal k1 k2 hy (oneHalf h hh) (List.mem_range.1 hj) (dig _ hd) (oneOrd _ ho)⟩
    · exact ⟨_, .old k1 k2 hy (oneHalf h hh) (List.mem_range.1 hj) (dig _ hd)⟩
  · refine ⟨_, .survey s (n := fixed 4 n) ⟨?_, ?_⟩⟩
    · rw [fixed4 (by omega)]; rfl
    · exact fixed_isDec 4 n

theorem perm_packed {d : Perm} {q t : Option Str} (h : d.Valid) (hq : q = none) : packTupleID ⟨some d.text, q, t⟩ = .ok (Designation.perm d).columns := by
  subst hq
  rw [ToMpc80.pack_beside _ _ _ (.inl (by simp))]
  exact pack_valid (d := .perm d) h

theorem prov_packed {w : ProvName} {v c : Str} {d : Prov} {p t : Option Str} (hw : w.Is v) (hc : w.cols = .ok c) (hd : c = d.cols) (hp : p = none) : packTupleID ⟨p, some v, t⟩ = .ok (Designation.prov d).columns := by
  subst hp
  rw [C53_prov hw, hc, hd]; rfl

theorem both_packed {a : Perm} {d : Prov} {t : Option Str} (h : (Designation.both a d).Valid) : packTupleID ⟨some a.text, some d.text, t⟩ = .ok (Designation.both a d).columns := by
  rw [ToMpc80.pack_beside _ _ _ (.inl (by simp))]
  exact pack_valid (d := .both a d) h

/-- the designation of a text and the columns it is packed into -/
theorem Designation.packed {d : Designation} {p q t : Option Str} (h : d.Valid) (hp : p = d.permText) (hq : q = d.provText) (ht : p = none → q = none → t = d.trkText) : packTupleID ⟨p, q, t⟩ = .ok d.columns := by
  have := pack_valid h
  subst hp hq
  by_cases h0 : d.permText = none ∧ d.provText = none
  · rw [ht h0.1 h0.2]; exact this
  · rw [ToMpc80.pack_beside _ _ _ (by tauto)]
    rw [ades, ToMpc80.pack_beside _ _ _ (by tauto)] at this
    exact this

theorem number5_valid {a : Str} {n : Nat} (h : Number5 a (some n)) (hz : some n ≠ some 0) : (Perm.minor n).Valid := by
  have h1 : n ≠ 0 := fun e => hz (by rw [e])
  generalize e : some n = m at h
  cases h with
  | blank => simp at e
  | low hk hd =>
    injection e with e
    have := digits_lt (by omega) hd
    refine ⟨by omega, by omega⟩
  | high hn => injection e with e; exact ⟨by omega, by omega⟩

theorem value_fixed {k n : Nat} (hk : 1 ≤ k) (h : n < 10 ^ k) : value (fixed k n) = n := by
  have h1 := pyNat_value (s := fixed k n) ⟨by rw [Ne, ← List.length_eq_zero_iff, fixed_length hk h]; omega, fixed_isDec k n⟩
  rw [show pyNat (fixed k n) = .ok n by simp [pyNat, intDigits_fixed]] at h1
  injection h1 with h1
  exact h1.symm

/-- digits of other scripts are packed like Arabic ones -/
theorem survey_packed {n : Str} (h : Year n) (s : Survey) (p t : Option Str) :
    packTupleID ⟨p, some (n ++ [' ', s.letter, '-', s.digit]), t⟩ = packTupleID ⟨p, some (Prov.survey (value n) s).text, t⟩ := by
  have hv : value n < 10 ^ 4 := digits_lt (by omega) h
  have h1 : (ProvName.survey n s).Is (n ++ [' ', s.letter, '-', s.digit]) := ⟨h, [], .inl rfl, by simp [ProvName.text]⟩
  have h2 : (ProvName.survey (fixed 4 (value n)) s).Is (Prov.survey (value n) s).text := ⟨⟨fixed_length (by omega) hv, fixed_isDec 4 _⟩, [], .inl rfl, by simp [ProvName.text, Prov.text]⟩
  have e : halfOf (ProvName.survey n s) = halfOf (ProvName.survey (fixed 4 (value n)) s) := by
    simp only [halfOf, ProvName.cols, value_fixed (show 1 ≤ 4 by omega) hv]
    rfl
  simp only [packTupleID, packProv_is h1, packProv_is h2, e]

theorem orderIndex_lt {o : Char} (h : o ∈ orders) : orderIndex o < 25 := by
  have : ∀ o ∈ orders, orderIndex o < 25 := by decide
  exact this o h

/-- what columns 6-12 of a minor planet stand for -/
theorem minor7_prov {r q : Str} (h : Minor7 r q) : ∃ d : Prov, d.Valid ∧ (∀ n, Compatible (.minor n) d) ∧ ∀ p t, packTupleID ⟨p, some q, t⟩ = packTupleID ⟨p, some d.text, t⟩ := by
  cases h with
  | @normal c yy h k d o h1 h2 h3 h4 h5 h6 h7 =>
    have hy := digits_lt (by omega) h3
    have hd := digit_lt h6
    exact ⟨.minor (100 * c + value yy) h o (10 * k + value [d]), ⟨by omega, by omega, half_mem h4, second_order h7, .inl (by omega)⟩, fun _ => trivial, fun _ _ => rfl⟩
  | @old c yy h k d h1 h2 h3 h4 h5 h6 =>
    have hy := digits_lt (by omega) h3
    have hd := digit_lt h6
    refine ⟨.comet 'A' (100 * c + value yy) h none (10 * k + value [d]), ⟨by decide, by omega, by omega, half_mem h4, by simp, by omega⟩, fun _ => ⟨rfl, by omega, by omega, rfl⟩, fun _ _ => ?_⟩
    simp [Prov.text]
  | @survey s n h =>
    have hv := digits_lt (by omega) h
    exact ⟨.survey (value n) s, Nat.le_of_lt_succ hv, fun _ => trivial, fun p t => survey_packed h s p t⟩
  | @extended y h o n h1 h2 h3 h4 h5 h6 =>
    have ho := second_order h4
    have hn : count n = dec n := by
      have := orderIndex_lt ho
      rw [count, if_neg (by omega)]
    refine ⟨.minor (2000 + y) h o n, ⟨by omega, by omega, half_mem h3, ho, .inr ⟨by omega, by omega, h6⟩⟩, fun _ => trivial, fun _ _ => ?_⟩
    simp only [Prov.text, hn]

/-- what columns 5-12 of a comet stand for, if it is packed -/
theorem comet7_prov {ty : Char} {r f q : Str} (hty : ty ∈ c! "APCDXI") (h : Comet7 ty r (some q) f) {w : ProvName} {c : Str} (hw : w.Is q) (hc : w.cols = .ok c) :
    ∃ d : Prov, d.Valid ∧ q = d.text ∧ ∀ n, ty = 'P' ∨ ty = 'D' → ∃ a : Perm, (1 ≤ n → n ≤ 9999 → a.Valid) ∧ Compatible a d ∧ a.text = dec n ++ [ty] ++ f := by
  have types : ty ≠ 'I' → ty ∈ ['A','C','D','P','X'] := by
    have : ∀ t ∈ c! "APCDXI", t ≠ 'I' → t ∈ ['A','C','D','P','X'] := by decide
    exact this ty hty
  have types' : ty ≠ 'I' → ty ≠ 'A' → ty ∈ ['C','D','P','X'] := by
    have : ∀ t ∈ c! "APCDXI", t ≠ 'I' → t ≠ 'A' → t ∈ ['C','D','P','X'] := by decide
    exact this ty hty
  generalize hq : some q = x at h
  cases h with
  | @plain c yy h k d h1 h3 h4 h5 h6 =>
    injection hq with hq; subst hq
    have hy := digits_lt (by omega) h3
    have hd := digit_lt h6
    obtain ⟨b1, b2, -⟩ := comet_packed (o := none) (f := none) hty (by simpa using hw) (by simp) hc
    refine ⟨.comet ty (100 * c + value yy) h none (10 * k + value [d]), ⟨types b2, by omega, by omega, half_mem h4, by simp, by omega⟩, by simp [Prov.text], fun n hp => ⟨.comet n ty, fun n1 n2 => ⟨n1, n2, hp⟩, rfl, by simp [Perm.text]⟩⟩
  | @letters c yy h k d o h1 h3 h4 h5 h6 h7 =>
    injection hq with hq; subst hq
    have hy := digits_lt (by omega) h3
    have hd := digit_lt h6
    obtain ⟨b1, b2, -⟩ := comet_packed (o := some o) (f := none) hty (by simpa using hw) (by simp) hc
    refine ⟨.comet ty (100 * c + value yy) h (some o) (10 * k + value [d]), ⟨types b2, by omega, by omega, half_mem h4, by simpa using capital_mem h7, by omega⟩, by simp [Prov.text], fun n hp => ⟨.comet n ty, fun n1 n2 => ⟨n1, n2, hp⟩, rfl, by simp [Perm.text]⟩⟩
  | @fragment c yy h k d f h1 h3 h4 h5 h6 h7 =>
    injection hq with hq; subst hq
    have hy := digits_lt (by omega) h3
    have hd := digit_lt h6
    obtain ⟨b1, b2, b3⟩ := comet_packed (o := none) (f := some f) hty (by simpa using hw) (by simp) hc
    obtain ⟨b3, b4⟩ := b3 (by simp)
    refine ⟨.fragment ty (100 * c + value yy) h (10 * k + value [d]) f, ⟨types' b2 b3, by omega, by omega, half_mem h4, by omega, by omega, capital_mem h7⟩, by simp [Prov.text], fun n hp => ⟨.fragment n ty [f], fun n1 n2 => ⟨n1, n2, hp, .inl rfl, by simpa using capital_mem h7⟩, ⟨rfl, rfl⟩, by simp [Perm.text]⟩⟩
  | one => simp at hq
  | two => simp at hq
  | blank => simp at hq

/-- what columns 5-12 of a numbered comet without a provisional designation stand for -/
theorem comet7_perm {ty : Char} {r f : Str} (h : Comet7 ty r none f) (hp : ty = 'P' ∨ ty = 'D') {n : Nat} (h1 : 1 ≤ n) (h2 : n ≤ 9999) : ∃ a : Perm, a.Valid ∧ a.text = dec n ++ [ty] ++ f := by
  generalize hq : none = x at h
  cases h with
  | plain => simp at hq
  | letters => simp at hq
  | fragment => simp at hq
  | @one f hf => exact ⟨.fragment n ty [f], ⟨h1, h2, hp, .inl rfl, by simpa using capital_mem hf⟩, by simp [Perm.text]⟩
  | @two f g hf hg => exact ⟨.fragment n ty [f, g], ⟨h1, h2, hp, .inr rfl, by simpa using ⟨capital_mem hf, capital_mem hg⟩⟩, by simp [Perm.text]⟩
  | blank => exact ⟨.comet n ty, ⟨h1, h2, hp⟩, by simp [Perm.text]⟩

theorem sat7_prov {r q : Str} (h : Sat7 r (some q)) {w : ProvName} (hw : w.Is q) : ∃ d : Prov, d.Valid ∧ q = d.text ∧ ∀ p n, Compatible (.satellite p n) d := by
  generalize hq : some q = x at h
  cases h with
  | @prov c yy p k d h1 h2 h3 h4 =>
    injection hq with hq; subst hq
    have hy := digits_lt (by omega) h2
    have hd := digit_lt h4
    obtain ⟨b1, b2⟩ := sat_packed hw
    exact ⟨.satellite (100 * c + value yy) p (10 * k + value [d]), ⟨by omega, by omega, by omega, by omega⟩, by rw [Prov.text, count, if_neg b2], fun _ _ => trivial⟩
  | blank => simp at hq

/-- a text that is packed into columns is a designation's -/
theorem packs_prov {p t : Option Str} {q s : Str} (h : packTupleID ⟨p, some q, t⟩ = .ok s) : ∃ w : ProvName, ∃ c, w.Is q ∧ w.cols = .ok c := by
  rcases C53_packs.1 h with ⟨_, _, _, h, _⟩ | ⟨v, w, c, _, h, h1, h2, _⟩ | ⟨v, x, w, u, c, _, h, _, _, h1, h2, _⟩ | ⟨_, _, _, h, _⟩
  · simp at h
  · injection h with h; subst h; exact ⟨w, c, h1, h2⟩
  · injection h with h; subst h; exact ⟨u, c, h1, h2⟩
  · simp at h

/-- columns that stand for what is packed into them are those of a designation -/
theorem fixed_valid {s : Str} {p q t : Option Str} (h : Unpacks s p q t) (hp : packTupleID ⟨p, q, t⟩ = .ok s) : ∃ d : Designation, d.Valid ∧ s = d.columns := by
  have use : ∀ d : Designation, d.Valid → p = d.permText → q = d.provText → (p = none → q = none → t = d.trkText) → ∃ d : Designation, d.Valid ∧ s = d.columns := by
    intro d hv h1 h2 h3
    rw [Designation.packed hv h1 h2 h3] at hp
    injection hp with hp
    exact ⟨d, hv, hp.symm⟩
  cases h with
  | @minor a r q e n hn hz hq he =>
    obtain ⟨d, hd, hc, hs⟩ := minor7_prov hq
    rw [hs] at hp
    cases n with
    | none =>
      have := pack_valid (d := .prov d) hd
      rw [show packTupleID ⟨Option.map dec none, some d.text, none⟩ = _ from this] at hp
      injection hp with hp
      exact ⟨.prov d, hd, hp.symm⟩
    | some n =>
      have hv := number5_valid hn hz
      have := pack_valid (d := .both (.minor n) d) ⟨hv, hd, hc n⟩
      rw [show packTupleID ⟨Option.map dec (some n), some d.text, none⟩ = _ from this] at hp
      injection hp with hp
      exact ⟨.both (.minor n) d, ⟨hv, hd, hc n⟩, hp.symm⟩
  | @name a t e n k hn hz hl ht hno hne he =>
    cases n with
    | some n => exact use (.perm (.minor n)) (number5_valid hn hz) rfl rfl (by simp)
    | none =>
      have h0 : 1 ≤ t.length := List.length_pos_iff.2 (hne rfl)
      have ha : a.length = 5 := by
        generalize hx : none = x at hn
        cases hn with
        | blank => rfl
        | low => simp at hx
        | high => simp at hx
      have hlen := C09_twelve_columns _ _ hp
      simp only [List.length_append, ha, spaces, List.length_replicate] at hlen
      refine use (.tracklet t) ⟨h0, by omega, ht, fun hlp => ?_⟩ rfl rfl (fun _ _ => rfl)
      obtain ⟨q, hq⟩ := looks_minor hlp
      have h7 : t.length = 7 := by
        rcases hlp with ⟨c, d1, d2, h, l, d, o, rfl, -⟩ | ⟨s, n, hn, rfl⟩
        · rfl
        · simp [fixed_length (show 1 ≤ 4 by omega) (show n < 10 ^ 4 by omega)]
      have hk : k = 0 := by omega
      subst hk
      exact hno q (by simpa [spaces] using hq)
  | @comet a r f e n ty q hn hz hty hpd hq hne he =>
    have hrange : ∀ m, n = some m → 1 ≤ m ∧ m ≤ 9999 := by
      rintro m rfl
      generalize hx : some m = x at hn hz
      cases hn with
      | blank => simp at hx
      | number hd =>
        injection hx with hx
        have := digits_lt (by omega) hd
        have h0 : value a ≠ 0 := fun e => hz (by rw [e])
        omega
    cases q with
    | none =>
      cases n with
      | none => simp at hne
      | some n =>
        obtain ⟨a, ha, e⟩ := comet7_perm hq (hpd (by simp)) (hrange n rfl).1 (hrange n rfl).2
        exact use (.perm a) ha (by rw [Designation.permText, e]; rfl) rfl (by simp)
    | some q =>
      obtain ⟨w, c, hw, hc⟩ := packs_prov hp
      obtain ⟨d, hd, rfl, hb⟩ := comet7_prov hty hq hw hc
      cases n with
      | none => exact use (.prov d) hd rfl rfl (by simp)
      | some n =>
        obtain ⟨a, ha, hcomp, e⟩ := hb n (hpd (by simp))
        exact use (.both a d) ⟨ha (hrange n rfl).1 (hrange n rfl).2, hd, hcomp⟩ (by rw [Designation.permText, e]; rfl) rfl (by simp)
  | @satellite a r e n q hn hz hq hne he =>
    have hrange : ∀ x, n = some x → (Perm.satellite x.1 x.2).Valid := by
      rintro x rfl
      have h0 := hz x rfl
      generalize hx : some x = y at hn
      cases hn with
      | blank => simp at hx
      | number hd =>
        injection hx with hx; subst hx
        have := digits_lt (by omega) hd
        exact ⟨Nat.pos_of_ne_zero h0, Nat.le_of_lt_succ this⟩
    cases q with
    | none =>
      cases n with
      | none => simp at hne
      | some x => exact use (.perm (.satellite x.1 x.2)) (hrange x rfl) rfl rfl (by simp)
    | some q =>
      obtain ⟨w, c, hw, hc⟩ := packs_prov hp
      obtain ⟨d, hd, rfl, hb⟩ := sat7_prov hq hw
      cases n with
      | none => exact use (.prov d) hd rfl rfl (by simp)
      | some x => exact use (.both (.satellite x.1 x.2) d) ⟨hrange x rfl, hd, hb x.1 x.2⟩ rfl rfl (by simp)

end Verif.Unpacking
