import Verif.Lemmas.UnpackingRun
/-! Columns stand for one thing only. -/
set_option linter.unusedSimpArgs false
namespace Verif.Unpacking
open Verif Verif.PackUtil Verif.Spec Verif.Spec.Packing Verif.Spec.Unpacking Verif.Packing

theorem two_digits {yy : Str} : Digits 2 yy → ∃ y1 y2, yy = [y1, y2] ∧ isDec y1 = true ∧ isDec y2 = true := by
  rintro ⟨hl, hy⟩
  obtain ⟨y1, y2, rfl⟩ := len2 (Nat.le_of_eq hl.symm) (Nat.le_of_eq hl)
  simp only [List.forall_mem_cons] at hy
  exact ⟨_, _, rfl, hy.1, hy.2.1⟩

theorem second_mem {o : Char} (h : Second o) : o ∈ orders := by
  have h := orderCls_iff.2 h
  have hc : o.toNat < 123 := by
    simp only [orderCls, rng, Bool.or_eq_true, Bool.and_eq_true, decide_eq_true_eq] at h
    have e1 : 'H'.toNat = 72 := rfl
    have e2 : 'Z'.toNat = 90 := rfl
    omega
  have hall : ∀ n : Fin 123, orderCls (Char.ofNat n) = true → Char.ofNat n ∈ orders := by decide +kernel
  have := hall ⟨o.toNat, hc⟩ (by simpa [Char.ofNat_toNat] using h)
  simpa [Char.ofNat_toNat] using this

theorem extended_run {y : Nat} {h o : Char} {n m : Nat} (y1 : 25 ≤ y) (y2 : y ≤ 35) (hh : halfCls h = true) (hlt : m < 62 ^ 4)
    (o1 : charAt (c! "ABCDEFGHJKLMNOPQRSTUVWXYZ") (orderIndex o) = .ok o) (e2 : (15500 + m) % 25 = orderIndex o) (e3 : (15500 + m - orderIndex o) / 25 = n) :
    ∃ k, T124 (['_', b62 y, h] ++ b62x4 m) k ∧ provPart k = .ok (some (dec (2000 + y) ++ [' ', h, o] ++ dec n)) := by
  obtain ⟨a, b, c, d, e, h1, h2, h3, h4⟩ := b62x4_alnum (n := m)
  have hr := unRadix_b62x4 (c := '~') hlt
  rw [e] at hr ⊢
  refine ⟨_, .inr (.inr (.mk (PZ.2 ⟨_, y1, y2, rfl⟩) hh h1 h2 h3 h4)), ?_⟩
  have hi : y < 62 := by omega
  simp only [provPart, grp!, group, truthy, bind, Except.bind, unpackLetters, pure, Except.pure, dec_eq, List.find?_cons, List.find?_nil]
  simp [unpackLetter_b62 hi, hr, e2, e3, o1]

theorem Minor7.run {r q : Str} (h : Minor7 r q) : ∃ k, T124 r k ∧ provPart k = .ok (some q) := by
  cases h with
  | @normal c yy h k d o c1 c2 hy hh hk hd ho =>
    obtain ⟨y1, y2, rfl, h1, h2⟩ := two_digits hy
    refine ⟨_, .inl (.mk (IK.2 ⟨_, c1, c2, rfl⟩) h1 h2 (halfCls_iff.2 hh) (alnum_b62.2 ⟨_, hk, rfl⟩) hd (.inl (orderCls_iff.2 ho))), ?_⟩
    rw [if_neg (order_zero (orderCls_iff.2 ho))]
    have hi : c < 62 := by omega
    simp [provPart, grp!, group, truthy, bind, Except.bind, num1 hd, num2 h1 h2, unpackLetters, unpackLetter_b62 hi, unpackLetter_b62 hk, pure, Except.pure, dec_eq, count_eq, Nat.mul_comm]
  | @old c yy h k d c1 c2 hy hh hk hd =>
    obtain ⟨y1, y2, rfl, h1, h2⟩ := two_digits hy
    refine ⟨_, .inl (.mk (IK.2 ⟨_, c1, c2, rfl⟩) h1 h2 (halfCls_iff.2 hh) (alnum_b62.2 ⟨_, hk, rfl⟩) hd (.inr rfl)), ?_⟩
    have hi : c < 62 := by omega
    simp [provPart, grp!, group, truthy, bind, Except.bind, num1 hd, num2 h1 h2, unpackLetters, unpackLetter_b62 hi, unpackLetter_b62 hk, pure, Except.pure, dec_eq, count_eq, Nat.mul_comm]
  | @survey s n hn =>
    obtain ⟨hl, hn⟩ := hn
    obtain ⟨d1, d2, d3, d4, rfl⟩ := len4 (Nat.le_of_eq hl.symm) (Nat.le_of_eq hl)
    simp only [List.forall_mem_cons] at hn
    refine ⟨_, .inr (.inl (.mk hn.1 hn.2.1 hn.2.2.1 hn.2.2.2.1)), ?_⟩
    simp [provPart, grp!, group, truthy, bind, Except.bind, pure, Except.pure, charAt]
  | @extended y h o n y1 y2 hh ho n1 n2 =>
    obtain ⟨o1, o2⟩ := order_of_index (second_mem ho)
    obtain ⟨m, hm, hm'⟩ : ∃ m, 25 * n + orderIndex o - 15500 = m ∧ 25 * n + orderIndex o = 15500 + m := ⟨_, rfl, by omega⟩
    rw [hm]
    have hlt : m < 62 ^ 4 := by omega
    have e2 : (15500 + m) % 25 = orderIndex o := by omega
    have e3 : (15500 + m - orderIndex o) / 25 = n := by omega
    clear hm hm' n1 n2
    exact extended_run y1 y2 (halfCls_iff.2 hh) hlt o1 e2 e3

theorem Minor7.unique {r q q' : Str} (h : Minor7 r q) (h' : Minor7 r q') : q = q' := by
  obtain ⟨k, hk, e⟩ := Minor7.run h
  obtain ⟨k', hk', e'⟩ := Minor7.run h'
  rw [hk.unique hk', e'] at e
  injection e with e
  injection e with e
  exact e.symm

theorem Comet7.run {ty : Char} {r f : Str} {q : Option Str} (h : Comet7 ty r q f) : ∃ k, C7 r k ∧ cometProv k [ty] = .ok q ∧ fragPart k = .ok f := by
  have az : ∀ {f : Char}, Capital f → rng 'a' 'z' (lower f) = true := fun hf => lower_az.2 ⟨_, hf, rfl, lower_up hf⟩
  cases h with
  | plain hc hy hh hk hd =>
    obtain ⟨y1, y2, rfl, h1, h2⟩ := two_digits hy
    refine ⟨_, .body (alnum_b62.2 ⟨_, hc, rfl⟩) h1 h2 (halfCls_iff.2 hh) (alnum_b62.2 ⟨_, hk, rfl⟩) hd (.inl rfl), ?_, ?_⟩
    · simp [cometProv, lastCaps, grp!, group, truthy, bind, Except.bind, num1 hd, num2 h1 h2, unpackLetters, unpackLetter_b62 hc, unpackLetter_b62 hk, pure, Except.pure, dec_eq, count_eq, Nat.mul_comm]
    · simp [fragPart, lastCaps, grp!, group, truthy, bind, Except.bind, pure, Except.pure]
  | letters hc hy hh hk hd ho =>
    obtain ⟨y1, y2, rfl, h1, h2⟩ := two_digits hy
    have hz := capital_rng.1 ho
    refine ⟨_, .body (alnum_b62.2 ⟨_, hc, rfl⟩) h1 h2 (halfCls_iff.2 hh) (alnum_b62.2 ⟨_, hk, rfl⟩) hd (.inr (.inl hz)), ?_, ?_⟩
    · simp [cometProv, lastCaps, AZ_zero hz, hz, grp!, group, truthy, bind, Except.bind, num1 hd, num2 h1 h2, unpackLetters, unpackLetter_b62 hc, unpackLetter_b62 hk, pure, Except.pure, dec_eq, count_eq, Nat.mul_comm]
    · simp [fragPart, lastCaps, AZ_zero hz, hz, grp!, group, truthy, bind, Except.bind, pure, Except.pure]
  | fragment hc hy hh hk hd hf =>
    obtain ⟨y1, y2, rfl, h1, h2⟩ := two_digits hy
    have hz := az hf
    have eu := lower_up hf
    have z1 := (az_not hz).1
    have z2 := (az_not hz).2.1
    refine ⟨_, .body (alnum_b62.2 ⟨_, hc, rfl⟩) h1 h2 (halfCls_iff.2 hh) (alnum_b62.2 ⟨_, hk, rfl⟩) hd (.inr (.inr (az hf))), ?_, ?_⟩
    · simp [cometProv, lastCaps, z1, z2, eu, grp!, group, truthy, bind, Except.bind, num1 hd, num2 h1 h2, unpackLetters, unpackLetter_b62 hc, unpackLetter_b62 hk, pure, Except.pure, dec_eq, count_eq, Nat.mul_comm]
    · simp [fragPart, lastCaps, z1, z2, eu, grp!, group, truthy, bind, Except.bind, pure, Except.pure]
  | one hf =>
    refine ⟨_, .frag (.inr rfl) (az hf), rfl, ?_⟩
    simp [fragPart, grp!, group, truthy, bind, Except.bind, pure, Except.pure, strip1 (az hf), lower_up hf]
  | two hf hg =>
    refine ⟨_, .frag (.inl (az hf)) (az hg), rfl, ?_⟩
    simp [fragPart, grp!, group, truthy, bind, Except.bind, pure, Except.pure, strip2 (az hf) (az hg), lower_up hf, lower_up hg]
  | blank n => exact ⟨_, .blank n, rfl, rfl⟩

theorem Comet7.unique {ty : Char} {r f f' : Str} {q q' : Option Str} (h : Comet7 ty r q f) (h' : Comet7 ty r q' f') : q = q' ∧ f = f' := by
  obtain ⟨k, hk, e, g⟩ := Comet7.run h
  obtain ⟨k', hk', e', g'⟩ := Comet7.run h'
  rw [hk.unique hk', e'] at e
  rw [hk.unique hk', g'] at g
  injection e with e
  injection g with g
  exact ⟨e.symm, g.symm⟩

theorem planet_inj {p p' : Planet} (h : p.letter = p'.letter) : p = p' := by cases p <;> cases p' <;> simp [Planet.letter] at h ⊢

theorem Sat4.unique {a : Str} {n n' : Option (Planet × Nat)} (h : Sat4 a n) (h' : Sat4 a n') : n = n' := by
  generalize e : a = b at h'
  cases h with
  | blank =>
    cases h' with
    | blank => rfl
    | @number p => injection e with e1; exact absurd e1.symm (planet_ne p).1
  | @number p =>
    cases h' with
    | blank => injection e with e1; exact absurd e1 (planet_ne p).1
    | number => injection e with e1 e2; rw [planet_inj e1, e2]

theorem Sat7.unique {r : Str} {q q' : Option Str} (h : Sat7 r q) (h' : Sat7 r q') : q = q' := by
  generalize e : r = b at h'
  have hs : ∀ {c n : Nat} {u : Str}, c < 62 → b62 c :: u ≠ spaces n := by
    intro c n u hc e
    have : b62 c ∈ spaces n := e ▸ List.mem_cons_self
    exact blank_not (alnum_b62.2 ⟨_, hc, rfl⟩) (List.mem_replicate.1 this).2
  cases h with
  | prov hc hy hk hd =>
    obtain ⟨y1, y2, rfl, -, -⟩ := two_digits hy
    cases h' with
    | prov hc' hy' hk' hd' =>
      obtain ⟨z1, z2, rfl, -, -⟩ := two_digits hy'
      simp only [List.cons_append, List.nil_append, List.cons.injEq, and_true] at e
      obtain ⟨e1, rfl, rfl, e2, e3, rfl⟩ := e
      rw [b62_inj hc hc' e1, b62_inj hk hk' e3, e2]
    | blank n => exact absurd e (hs hc)
  | blank n =>
    cases h' with
    | prov hc' => exact absurd e.symm (hs hc')
    | blank n => rfl

end Verif.Unpacking
