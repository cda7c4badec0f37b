import Verif.Lemmas.Total
/-! `unpackPackedID` on arbitrary input raises nothing but RuntimeError. -/
namespace Verif
open Verif.PackUtil

theorem unpackLetter_alnum {c : Char} (h : alnum c = true) : ∃ i, unpackLetter c = .ok i := by
  have hb : c.toNat < 123 := by
    simp only [alnum, rng, Bool.or_eq_true, Bool.and_eq_true, decide_eq_true_eq] at h
    rcases h with (h | h) | h <;> have := h.2 <;> simp at this <;> omega
  have hall : ∀ n : Fin 123, alnum (Char.ofNat n) = true → (unpackLetter (Char.ofNat n)).isOk = true := by decide +kernel
  have := hall ⟨c.toNat, hb⟩ (by simpa [Char.ofNat_toNat] using h)
  simp only [Char.ofNat_toNat] at this
  cases hu : unpackLetter c with
  | ok i => exact ⟨i, rfl⟩
  | error e => simp [hu, Except.isOk, Except.toBool] at this

theorem rng_alnum {a b c : Char} (h : rng a b c = true) (ha : 'A'.toNat ≤ a.toNat) (hb : b.toNat ≤ 'Z'.toNat) : alnum c = true := by
  simp only [rng, Bool.and_eq_true, decide_eq_true_eq] at h
  have : rng 'A' 'Z' c = true := by
    simp only [rng, Bool.and_eq_true, decide_eq_true_eq]; omega
  simp [alnum, this]

theorem oneOf_planet {c : Char} (h : oneOf (c! "JSUN") c = true) : ∃ s, planetName [c] = .ok s := by
  simp only [oneOf, List.any_cons, List.any_nil, Bool.or_false, Bool.or_eq_true, beq_iff_eq, Char.toNat_inj] at h
  rcases h with rfl | rfl | rfl | rfl <;> exact ⟨_, rfl⟩

theorem four {l : Str} (h : l.length = 4) : ∃ a b c d, l = [a, b, c, d] := by
  match l, h with
  | [a, b, c, d], _ => exact ⟨a, b, c, d, rfl⟩

theorem unRadix_alnum {x : Char} {l : Str} (h : l.length = 4) (hl : ∀ c ∈ l, alnum c = true) : ∃ n, unRadix62_4 (x :: l) = .ok n := by
  obtain ⟨a, b, c, d, rfl⟩ := four h
  simp at hl
  obtain ⟨i, hi⟩ := unpackLetter_alnum hl.1
  obtain ⟨j, hj⟩ := unpackLetter_alnum hl.2.1
  obtain ⟨k, hk⟩ := unpackLetter_alnum hl.2.2.1
  obtain ⟨m, hm⟩ := unpackLetter_alnum hl.2.2.2
  exact ⟨_, by simp [unRadix62_4, charAt, hi, hj, hk, hm, bind, Except.bind]; rfl⟩

/-- what the first five columns capture -/
theorem first5_shape {k : Caps} (h : (alts [times 5 (ch ' '), cat [.grp 1 (.cls alnum), .grp 2 (times 4 isDec)],
      .grp 3 (cat [.cls (ch '~'), times 4 alnum])]).shape k) :
    k = [] ∨ (∃ c d, k = [(1, [c]), (2, d)] ∧ alnum c = true ∧ d.length = 4 ∧ ∀ x ∈ d, isDec x = true) ∨
    (∃ l, k = [(3, '~' :: l)] ∧ l.length = 4 ∧ ∀ x ∈ l, alnum x = true) := by
  simp only [alts, cat, times, Re.shape, Re.lang] at h
  rcases h with rfl | ⟨_, _, ⟨_, _, ⟨c, hc, rfl⟩, rfl, rfl⟩, ⟨d, _, ⟨h1, h2, h3⟩, rfl, rfl⟩, rfl⟩ |
    ⟨_, _, ⟨_, l, ⟨t, ht, rfl⟩, ⟨h1, h2, h3⟩, rfl⟩, ⟨_, _, rfl, rfl, rfl⟩, rfl⟩
  · exact Or.inl rfl
  · exact Or.inr (Or.inl ⟨c, d, rfl, hc, by have := h2 4 rfl; omega, h3⟩)
  · rw [(ch_iff _ _).mp ht]
    exact Or.inr (Or.inr ⟨l, rfl, by have := h2 4 rfl; omega, h3⟩)

/-- what columns 6 to 12 capture -/
theorem last7_shape {k : Caps} (h : (alts [cat [.grp 4 (.cls (rng 'I' 'K')), .grp 5 (times 2 isDec), .grp 6 (.cls halfCls),
                  .grp 7 (.cls alnum), .grp 8 (.cls isDec), .alt (.grp 9 (.cls orderCls)) (.cls (ch '0'))],
             cat [.grp 10 (alts [lit (c! "PL"), lit (c! "T1"), lit (c! "T2"), lit (c! "T3")]), .cls (ch 'S'), .grp 11 (times 4 isDec)],
             cat [.grp 12 (.rep 0 (some 8) trkCls), star (ch ' ')],
             cat [.grp 13 (.cls (ch '_')), .grp 14 (.cls (rng 'P' 'Z')), .grp 15 (.cls halfCls), .grp 16 (times 4 alnum)],
             times 7 (ch ' ')]).shape k) :
    k = [] ∨
    (∃ c y h n d k', k = [(4, [c]), (5, y), (6, [h]), (7, [n]), (8, [d])] ++ k' ∧ rng 'I' 'K' c = true ∧
      y.length = 2 ∧ (∀ x ∈ y, isDec x = true) ∧ alnum n = true ∧ isDec d = true ∧ (k' = [] ∨ ∃ o, k' = [(9, [o])])) ∨
    (∃ a b d, k = [(10, [a, b]), (11, d)]) ∨
    (∃ t, k = [(12, t)]) ∨
    (∃ y h l, k = [(13, ['_']), (14, [y]), (15, [h]), (16, l)] ∧ rng 'P' 'Z' y = true ∧ l.length = 4 ∧ ∀ x ∈ l, alnum x = true) := by
  have h' := h
  clear h
  rcases h' with h | h'
  · simp only [cat, times, Re.shape, Re.lang] at h
    obtain ⟨_, _, ⟨_, _, ⟨c, hc, rfl⟩, rfl, rfl⟩, ⟨_, _, ⟨y, _, ⟨h1, h2, h3⟩, rfl, rfl⟩, ⟨_, _, ⟨_, _, ⟨h, hh, rfl⟩, rfl, rfl⟩, ⟨_, _, ⟨_, _, ⟨n, hn, rfl⟩, rfl, rfl⟩, ⟨_, k', ⟨_, _, ⟨d, hd, rfl⟩, rfl, rfl⟩, hk, rfl⟩, rfl⟩, rfl⟩, rfl⟩, rfl⟩ := h
    refine Or.inr (Or.inl ⟨c, y, h, n, d, k', rfl, hc, by have := h2 2 rfl; omega, h3, hn, hd, ?_⟩)
    rcases hk with ⟨_, _, ⟨o, ho, rfl⟩, rfl, rfl⟩ | rfl
    · exact Or.inr ⟨o, rfl⟩
    · exact Or.inl rfl
  rcases h' with h | h'
  · simp only [cat, times, Re.shape] at h
    obtain ⟨_, _, ⟨u, _, hu, hk, rfl⟩, ⟨_, _, rfl, ⟨d, _, -, rfl, rfl⟩, rfl⟩, rfl⟩ := h
    have := alts4_lit_shape hk
    subst this
    have : ∃ a b, u = [a, b] := by
      rcases alts4_lit_lang hu with rfl | rfl | rfl | rfl <;> exact ⟨_, _, rfl⟩
    obtain ⟨a, b, rfl⟩ := this
    exact Or.inr (Or.inr (Or.inl ⟨a, b, d, rfl⟩))
  rcases h' with h | h'
  · simp only [cat, star, Re.shape, Re.lang] at h
    obtain ⟨_, _, ⟨t, _, -, rfl, rfl⟩, rfl, rfl⟩ := h
    exact Or.inr (Or.inr (Or.inr (Or.inl ⟨t, rfl⟩)))
  rcases h' with h | h'
  · simp only [cat, times, Re.shape, Re.lang] at h
    obtain ⟨_, _, ⟨_, _, ⟨u, hu, rfl⟩, rfl, rfl⟩, ⟨_, _, ⟨_, _, ⟨y, hy, rfl⟩, rfl, rfl⟩, ⟨_, _, ⟨_, _, ⟨h, hh, rfl⟩, rfl, rfl⟩, ⟨l, _, ⟨h1, h2, h3⟩, rfl, rfl⟩, rfl⟩, rfl⟩, rfl⟩ := h
    rw [(ch_iff _ _).mp hu]
    exact Or.inr (Or.inr (Or.inr (Or.inr ⟨y, h, l, rfl, hy, by have := h2 4 rfl; omega, h3⟩)))
  · exact Or.inl h'

theorem charAt_lt {s : Str} {i : Nat} (h : i < s.length) : ∃ c, charAt s i = .ok c :=
  ⟨s[i], by simp [charAt, List.getElem?_eq_getElem h]⟩

theorem unpackMinor_wp (s : Str) : Wp (unpackMinor s) (fun _ => True) IsRT := by
  unfold unpackMinor
  split
  · trivial
  · rename_i m hm
    have hs := reMatch_shape hm
    simp only [minorplanetPackedIDRegex] at hs
    obtain ⟨k1, k2, h1, ⟨k3, k4, h2, h3, rfl⟩, rfl⟩ := hs
    simp only [cat, Re.shape] at h3
    subst h3
    have h1 := first5_shape h1
    have h2 := last7_shape h2
    clear hm
    refine Wp.bind (Q := fun _ => True) ?_ fun permID _ _ => Wp.bind (Q := fun _ => True) ?_ fun provID _ _ => Wp.bind (Q := fun _ => True) ?_ fun _ _ _ => trivial
    · have g1 : ∀ n, n ≤ 3 → group (k1 ++ (k3 ++ [])) n = group k1 n := by
        intro n hn
        have : ∀ a : Nat, 4 ≤ a → (a == n) = false := by intro a ha; simp; omega
        rcases h2 with rfl | ⟨_, _, _, _, _, _, rfl, _, _, _, _, _, rfl | ⟨_, rfl⟩⟩ | ⟨_, _, _, rfl⟩ | ⟨_, rfl⟩ | ⟨_, _, _, rfl, _⟩ <;>
          simp [group, List.find?_append, List.find?_cons, this]
      simp only [grp!, g1 1 (by omega), g1 2 (by omega), g1 3 (by omega)]
      rcases h1 with rfl | ⟨c, d, rfl, hc, hd, hd'⟩ | ⟨l, rfl, hl, hl'⟩
      · simp [group, truthy, Wp, pure, Except.pure]
      · obtain ⟨i, hi⟩ := unpackLetter_alnum hc
        obtain ⟨n, hn, -⟩ := pyNat_total (s := d) (by rintro rfl; simp at hd) hd'
        simp only [group, List.find?_cons, beq_self_eq_true, Option.map_some, truthy, List.isEmpty_cons, Bool.not_false, Bool.true_or, if_true,
          show ((1:Nat) == 2) = false from rfl, bind, Except.bind, hn, unpackLetters, hi, pure, Except.pure]
        exact Wp.ite (fun _ => rfl) (fun _ => trivial)
      · obtain ⟨n, hn⟩ := unRadix_alnum (x := '~') hl hl'
        simp only [group, List.find?_cons, beq_self_eq_true, Option.map_some, truthy, List.isEmpty_cons, Bool.not_false, Bool.or_true, if_true,
          show ((3:Nat) == 1) = false from rfl, List.find?_nil, Option.map_none, Bool.false_eq_true, if_false, bind, Except.bind, hn, pure, Except.pure]
        exact Wp.ite (fun _ => rfl) (fun _ => trivial)
    all_goals
      have g1 : ∀ n, 4 ≤ n → group (k1 ++ (k3 ++ [])) n = group k3 n := by
        intro n hn
        have : ∀ a : Nat, a ≤ 3 → (a == n) = false := by intro a ha; simp; omega
        rcases h1 with rfl | ⟨c, d, rfl, hc, hd, hd'⟩ | ⟨l, rfl, hl, hl'⟩ <;>
          simp [group, List.find?_append, List.find?_cons, this]
      simp only [grp!, g1 4 (by omega), g1 5 (by omega), g1 6 (by omega), g1 7 (by omega), g1 8 (by omega), g1 9 (by omega), g1 10 (by omega),
        g1 11 (by omega), g1 13 (by omega), g1 14 (by omega), g1 15 (by omega), g1 16 (by omega)]
      rcases h2 with rfl | ⟨c, y, h, n, d, k', rfl, hc, hy, hy', hn, hd, hk⟩ | ⟨a, b, d, rfl⟩ | ⟨_, rfl⟩ | ⟨y, h, l, rfl, hy, hl, hl'⟩
    · simp [group, truthy, Wp, pure, Except.pure]
    · obtain ⟨i, hi⟩ := unpackLetter_alnum (rng_alnum hc (by decide) (by decide))
      obtain ⟨j, hj⟩ := unpackLetter_alnum hn
      obtain ⟨yy, hyy, -⟩ := pyNat_total (s := y) (by rintro rfl; simp at hy) hy'
      obtain ⟨dd, hdd, -⟩ := pyNat_total (s := [d]) (by simp) (by simpa using hd)
      rcases hk with rfl | ⟨o, rfl⟩ <;>
      simp [group, truthy, bind, Except.bind, unpackLetters, hi, hj, hyy, hdd, pure, Except.pure, Wp]
    · simp [group, truthy, Wp, pure, Except.pure]
    · simp [group, truthy, Wp, pure, Except.pure]
    · obtain ⟨i, hi⟩ := unpackLetter_alnum (rng_alnum hy (by decide) (by decide))
      obtain ⟨n, hn⟩ := unRadix_alnum (x := '~') hl hl'
      obtain ⟨o, ho⟩ := charAt_lt (s := c! "ABCDEFGHJKLMNOPQRSTUVWXYZ") (i := (15500 + n) % 25) (Nat.mod_lt _ (by omega))
      simp [group, truthy, bind, Except.bind, unpackLetters, hi, hn, ho, pure, Except.pure, Wp]
    · simp [group, truthy, Wp, pure, Except.pure]
    · rcases hk with rfl | ⟨o, rfl⟩ <;> simp [group, truthy, Wp, pure, Except.pure]
    · simp [group, truthy, Wp, pure, Except.pure, bind, Except.bind, charAt]
    · simp [group, truthy, Wp, pure, Except.pure]
    · simp [group, truthy, Wp, pure, Except.pure]


theorem unpackComet_wp (s : Str) (ids : IDs) : Wp (unpackComet s ids) (fun _ => True) IsRT := by
  unfold unpackComet
  split
  · trivial
  · rename_i m hm
    have hs := reMatch_shape hm
    simp only [cometPackedIDRegex] at hs
    obtain ⟨k1, _, h1, ⟨k2, _, h2, ⟨k3, _, h3, h4, rfl⟩, rfl⟩, rfl⟩ := hs
    simp only [cat, Re.shape] at h4
    subst h4
    simp only [times, Re.shape, Re.lang] at h1 h2
    obtain ⟨_, _, ⟨ty, hty, rfl⟩, rfl, rfl⟩ := h2
    have h1' : k1 = [] ∨ ∃ d, k1 = [(1, d)] ∧ d.length = 4 ∧ ∀ x ∈ d, isDec x = true := by
      rcases h1 with rfl | ⟨d, _, ⟨a, b, c⟩, rfl, rfl⟩
      · exact Or.inl rfl
      · exact Or.inr ⟨d, rfl, by have := b 4 rfl; omega, c⟩
    have h3' : k3 = [] ∨ (∃ x y, k3 = [(10, [x]), (11, [y])]) ∨
        (∃ c y h n d k', k3 = [(3, [c]), (4, y), (5, [h]), (6, [n]), (7, [d])] ++ k' ∧ alnum c = true ∧
          y.length = 2 ∧ (∀ x ∈ y, isDec x = true) ∧ alnum n = true ∧ isDec d = true ∧
          (k' = [] ∨ (∃ o, k' = [(8, [o])]) ∨ ∃ o, k' = [(9, [o])])) := by
      rcases h3 with h | h | h
      · simp only [cat, times, alts, Re.shape, Re.lang] at h
        obtain ⟨_, _, ⟨_, _, ⟨c, hc, rfl⟩, rfl, rfl⟩, ⟨_, _, ⟨y, _, ⟨h1, h2, h3⟩, rfl, rfl⟩, ⟨_, _, ⟨_, _, ⟨h, hh, rfl⟩, rfl, rfl⟩, ⟨_, _, ⟨_, _, ⟨n, hn, rfl⟩, rfl, rfl⟩, ⟨_, k', ⟨_, _, ⟨d, hd, rfl⟩, rfl, rfl⟩, hk, rfl⟩, rfl⟩, rfl⟩, rfl⟩, rfl⟩ := h
        refine Or.inr (Or.inr ⟨c, y, h, n, d, k', rfl, hc, by have := h2 2 rfl; omega, h3, hn, hd, ?_⟩)
        rcases hk with rfl | ⟨_, _, ⟨o, ho, rfl⟩, rfl, rfl⟩ | ⟨_, _, ⟨o, ho, rfl⟩, rfl, rfl⟩
        · exact Or.inl rfl
        · exact Or.inr (Or.inl ⟨o, rfl⟩)
        · exact Or.inr (Or.inr ⟨o, rfl⟩)
      · simp only [cat, times, Re.shape, Re.lang] at h
        obtain ⟨_, _, rfl, ⟨_, _, ⟨_, _, ⟨x, hx, rfl⟩, rfl, rfl⟩, ⟨_, _, ⟨y, hy, rfl⟩, rfl, rfl⟩, rfl⟩, rfl⟩ := h
        exact Or.inr (Or.inl ⟨x, y, rfl⟩)
      · simp only [cat, star, Re.shape] at h
        obtain ⟨_, _, rfl, rfl, rfl⟩ := h
        exact Or.inl rfl
    clear hm h1 h3
    have g2 : grp! (k1 ++ ([(2, [ty])] ++ (k3 ++ []))) 2 = .ok [ty] := by
      rcases h1' with rfl | ⟨d, rfl, -⟩ <;> simp [grp!, group]
    have gk : ∀ n, 3 ≤ n → group (k1 ++ ([(2, [ty])] ++ (k3 ++ []))) n = group k3 n := by
      intro n hn
      have : ∀ a : Nat, a ≤ 2 → (a == n) = false := by intro a ha; simp; omega
      rcases h1' with rfl | ⟨d, rfl, -⟩ <;> simp [group, this]
    have g1 : group (k1 ++ ([(2, [ty])] ++ (k3 ++ []))) 1 = group k1 1 := by
      have h : List.find? (fun x => x.1 == 1) k3 = none := by
        rcases h3' with rfl | ⟨x, y, rfl⟩ | ⟨c, y, h, n, d, k', rfl, -, -, -, -, -, rfl | ⟨o, rfl⟩ | ⟨o, rfl⟩⟩ <;> simp
      rcases h1' with rfl | ⟨d, rfl, -⟩ <;> simp [group, h]
    simp only [g2, bind, Except.bind, g1, gk 3 (by omega), gk 8 (by omega), gk 9 (by omega), gk 11 (by omega)]
    refine Wp.bind (Q := fun _ => True) ?_ fun permID _ _ => Wp.bind (Q := fun _ => True) ?_ fun provID _ _ => trivial
    · rcases h1' with rfl | ⟨d, rfl, hd, hd'⟩
      · simp [group, truthy, Wp, pure, Except.pure]
      · obtain ⟨n, hn, -⟩ := pyNat_total (s := d) (by rintro rfl; simp at hd) hd'
        have hne : d.isEmpty = false := by cases d <;> simp_all
        have gd : grp! ([(1, d)] ++ ([(2, [ty])] ++ (k3 ++ []))) 1 = .ok d := by simp [grp!, group]
        have t1 : truthy (group [(1, d)] 1) = true := by simp [group, truthy, hne]
        simp only [t1, if_true, gd, hn]
        refine Wp.ite (fun _ => rfl) (fun _ => Wp.ite (fun _ => rfl) (fun _ => ?_))
        simp only [grp!, gk 9 (by omega), gk 10 (by omega), gk 11 (by omega)]
        rcases h3' with rfl | ⟨x, y, rfl⟩ | ⟨c, y, h, n, d, k', rfl, -, -, -, -, -, rfl | ⟨o, rfl⟩ | ⟨o, rfl⟩⟩ <;>
          simp [group, truthy, pure, Except.pure, Wp]
    · simp only [grp!, gk 3 (by omega), gk 4 (by omega), gk 5 (by omega), gk 6 (by omega), gk 7 (by omega), gk 8 (by omega)]
      rcases h3' with rfl | ⟨x, y, rfl⟩ | ⟨c, y, h, n, d, k', rfl, hc, hy, hy', hn, hd, hk⟩
      · simp [group, truthy, Wp, pure, Except.pure]
      · simp [group, truthy, Wp, pure, Except.pure]
      · obtain ⟨i, hi⟩ := unpackLetter_alnum hc
        obtain ⟨j, hj⟩ := unpackLetter_alnum hn
        obtain ⟨yy, hyy, -⟩ := pyNat_total (s := y) (by rintro rfl; simp at hy) hy'
        obtain ⟨dd, hdd, -⟩ := pyNat_total (s := [d]) (by simp) (by simpa using hd)
        rcases hk with rfl | ⟨o, rfl⟩ | ⟨o, rfl⟩ <;>
          simp [group, truthy, unpackLetters, hi, hj, hyy, hdd, pure, Except.pure, Wp]

theorem unpackSat_wp (s : Str) (ids : IDs) : Wp (unpackSat s ids) (fun _ => True) IsRT := by
  unfold unpackSat
  split
  · trivial
  · rename_i m hm
    have hs := reMatch_shape hm
    simp only [satellitePackedIDRegex] at hs
    obtain ⟨k1, _, h1, ⟨k2, _, h2, ⟨k3, _, h3, h4, rfl⟩, rfl⟩, rfl⟩ := hs
    simp only [cat, Re.shape] at h4
    subst h4
    simp only [times, cat, star, Re.shape, Re.lang] at h1 h2 h3
    subst h2
    have h1' : k1 = [] ∨ ∃ p d, k1 = [(1, [p]), (2, d)] ∧ oneOf (c! "JSUN") p = true ∧ d.length = 3 ∧ ∀ x ∈ d, isDec x = true := by
      rcases h1 with rfl | ⟨_, _, ⟨_, _, ⟨p, hp, rfl⟩, rfl, rfl⟩, ⟨d, _, ⟨a, b, c⟩, rfl, rfl⟩, rfl⟩
      · exact Or.inl rfl
      · exact Or.inr ⟨p, d, rfl, hp, by have := b 3 rfl; omega, c⟩
    have h3' : k3 = [] ∨
        (∃ c y h n d, k3 = [(3, [c]), (4, y), (5, [h]), (6, [n]), (7, [d])] ∧ alnum c = true ∧
          y.length = 2 ∧ (∀ x ∈ y, isDec x = true) ∧ alnum n = true ∧ isDec d = true) := by
      rcases h3 with h | h
      · obtain ⟨_, _, ⟨_, _, ⟨c, hc, rfl⟩, rfl, rfl⟩, ⟨_, _, ⟨y, _, ⟨h1, h2, h3⟩, rfl, rfl⟩, ⟨_, _, ⟨_, _, ⟨h, hh, rfl⟩, rfl, rfl⟩, ⟨_, _, ⟨_, _, ⟨n, hn, rfl⟩, rfl, rfl⟩, ⟨_, _, ⟨_, _, ⟨d, hd, rfl⟩, rfl, rfl⟩, ⟨_, _, rfl, rfl, rfl⟩, rfl⟩, rfl⟩, rfl⟩, rfl⟩, rfl⟩ := h
        exact Or.inr ⟨c, y, h, n, d, rfl, hc, by have := h2 2 rfl; omega, h3, hn, hd⟩
      · obtain ⟨_, _, rfl, rfl, rfl⟩ := h
        exact Or.inl rfl
    clear hm h1 h3
    have gk : ∀ n, 3 ≤ n → group (k1 ++ ([] ++ (k3 ++ []))) n = group k3 n := by
      intro n hn
      have : ∀ a : Nat, a ≤ 2 → (a == n) = false := by intro a ha; simp; omega
      rcases h1' with rfl | ⟨p, d, rfl, -⟩ <;> simp [group, this]
    have g1 : ∀ n, n ≤ 2 → group (k1 ++ ([] ++ (k3 ++ []))) n = group k1 n := by
      intro n hn
      have : ∀ a : Nat, 3 ≤ a → (a == n) = false := by intro a ha; simp; omega
      have h : List.find? (fun x => x.1 == n) k3 = none := by
        rcases h3' with rfl | ⟨c, y, h, n, d, rfl, -⟩ <;> simp [this]
      simp [group, List.find?_append, h]
    refine Wp.bind (Q := fun _ => True) ?_ fun permID _ _ => Wp.bind (Q := fun _ => True) ?_ fun provID _ _ => trivial
    · simp only [grp!, g1 1 (by omega), g1 2 (by omega)]
      rcases h1' with rfl | ⟨p, d, rfl, hp, hd, hd'⟩
      · simp [group, truthy, Wp, pure, Except.pure]
      · obtain ⟨n, hn, -⟩ := pyNat_total (s := d) (by rintro rfl; simp at hd) hd'
        obtain ⟨pl, hpl⟩ := oneOf_planet hp
        simp only [group, List.find?_cons, beq_self_eq_true, Option.map_some, truthy, List.isEmpty_cons, Bool.not_false, if_true,
          show ((1:Nat) == 2) = false from rfl, bind, Except.bind, hn, hpl, pure, Except.pure]
        exact Wp.ite (fun _ => rfl) (fun _ => trivial)
    · simp only [grp!, gk 3 (by omega), gk 4 (by omega), gk 5 (by omega), gk 6 (by omega), gk 7 (by omega)]
      rcases h3' with rfl | ⟨c, y, h, n, d, rfl, hc, hy, hy', hn, hd⟩
      · simp [group, truthy, Wp, pure, Except.pure]
      · obtain ⟨i, hi⟩ := unpackLetter_alnum hc
        obtain ⟨j, hj⟩ := unpackLetter_alnum hn
        obtain ⟨yy, hyy, -⟩ := pyNat_total (s := y) (by rintro rfl; simp at hy) hy'
        obtain ⟨dd, hdd, -⟩ := pyNat_total (s := [d]) (by simp) (by simpa using hd)
        simp [group, truthy, unpackLetters, hi, hj, hyy, hdd, pure, Except.pure, Wp, bind, Except.bind]

theorem unpackPackedID_wp (s : Str) : Wp (unpackPackedID s) (fun _ => True) IsRT := by
  simp only [unpackPackedID]
  refine Wp.bind (unpackMinor_wp s) fun a _ _ => Wp.bind (unpackComet_wp s a) fun b _ _ => Wp.bind (unpackSat_wp s b) fun c _ _ => ?_
  exact Wp.ite (fun _ => rfl) (fun _ => trivial)

end Verif
