import Verif.Lemmas.Packing
/-! `packPerm` on any text. -/
set_option linter.unusedSimpArgs false
namespace Verif.Packing
open Verif Verif.PackUtil Verif.Spec Verif.Spec.Packing

theorem planet_head (p : Planet) : ∃ c r, p.name = c :: r ∧ isDec c = false ∧ c ≠ '(' := by cases p <;> exact ⟨_, _, rfl, by decide, by decide⟩

theorem type_notDec {ty : Char} (h : ty ∈ ['P', 'D', 'I']) : isDec ty = false ∧ ty ≠ '\n' := by
  simp only [List.mem_cons, List.not_mem_nil, or_false] at h
  rcases h with rfl | rfl | rfl <;> exact ⟨by decide, by decide⟩

/-- the digits first and what follows them -/
theorem numbered_unique {n n' r r' : Str} (h : Number n) (h' : Number n') (hr : ∀ c ∈ r.head?, isDec c = false) (hr' : ∀ c ∈ r'.head?, isDec c = false) (e : n ++ r = n' ++ r') : n = n' ∧ r = r' :=
  split_unique h.2 h'.2 hr hr' e

theorem not_planet {n r : Str} {p : Planet} {s : Str} (h : Number n) : n ++ r ≠ p.name ++ s := by
  intro e
  obtain ⟨c, t, hc, hd, -⟩ := planet_head p
  match n, h with
  | a :: n, h =>
    rw [hc] at e
    simp only [List.cons_append, List.cons.injEq] at e
    exact dec_ne (h.2 a List.mem_cons_self) hd e.1

theorem PermName.unique {w w' : PermName} {v : Str} (h : w.Is v) (h' : w'.Is v) : w = w' := by
  obtain ⟨hf, e, he, rfl⟩ := h
  obtain ⟨hf', e', he', hv⟩ := h'
  have hE : ∀ c ∈ e.head?, isDec c = false := end_head he (by decide)
  have hE' : ∀ c ∈ e'.head?, isDec c = false := end_head he' (by decide)
  have hone : ∀ {ty : Char} {s : Str}, ty ∈ ['P', 'D', 'I'] → ∀ c ∈ (ty :: s).head?, isDec c = false := by
    intro ty s h c hc; simp at hc; rw [← hc]; exact (type_notDec h).1
  have hend : ∀ {ty : Char} {s f : Str}, End f → ty ∈ ['P', 'D', 'I'] → f ≠ ty :: s := by
    intro ty s f hf h hc
    rcases hf with rfl | rfl
    · simp at hc
    · simp only [List.cons.injEq] at hc; exact (type_notDec h).2 hc.1.symm
  cases w with
  | minor n =>
    cases w' with
    | minor n' => rw [(numbered_unique hf hf' hE hE' hv).1]
    | comet n' ty' =>
      simp only [PermName.text, List.append_assoc, List.cons_append, List.nil_append] at hv
      exact absurd (numbered_unique hf hf'.1 hE (hone hf'.2) hv).2 (hend he hf'.2)
    | fragment n' ty' f' =>
      simp only [PermName.text, List.append_assoc, List.cons_append, List.nil_append] at hv
      exact absurd (numbered_unique hf hf'.1 hE (hone hf'.2.1) hv).2 (hend he hf'.2.1)
    | satellite p' n' =>
      simp only [PermName.text, List.append_assoc] at hv
      exact absurd hv (not_planet hf)
  | comet n ty =>
    simp only [PermName.text, List.append_assoc, List.cons_append, List.nil_append] at hv
    cases w' with
    | minor n' => exact absurd (numbered_unique hf.1 hf' (hone hf.2) hE' hv).2.symm (hend he' hf.2)
    | comet n' ty' =>
      simp only [PermName.text, List.append_assoc, List.cons_append, List.nil_append] at hv
      obtain ⟨rfl, h2⟩ := numbered_unique hf.1 hf'.1 (hone hf.2) (hone hf'.2) hv
      simp only [List.cons.injEq] at h2
      rw [h2.1]
    | fragment n' ty' f' =>
      simp only [PermName.text, List.append_assoc, List.cons_append, List.nil_append] at hv
      have h2 := (numbered_unique hf.1 hf'.1 (hone hf.2) (hone hf'.2.1) hv).2
      simp only [List.cons.injEq] at h2
      rcases he with rfl | rfl <;> simp at h2
    | satellite p' n' =>
      simp only [PermName.text, List.append_assoc] at hv
      exact absurd hv (not_planet hf.1)
  | fragment n ty f =>
    simp only [PermName.text, List.append_assoc, List.cons_append, List.nil_append] at hv
    cases w' with
    | minor n' => exact absurd (numbered_unique hf.1 hf' (hone hf.2.1) hE' hv).2.symm (hend he' hf.2.1)
    | comet n' ty' =>
      simp only [PermName.text, List.append_assoc, List.cons_append, List.nil_append] at hv
      have h2 := (numbered_unique hf.1 hf'.1 (hone hf.2.1) (hone hf'.2) hv).2
      simp only [List.cons.injEq] at h2
      rcases he' with rfl | rfl <;> simp at h2
    | fragment n' ty' f' =>
      simp only [PermName.text, List.append_assoc, List.cons_append, List.nil_append] at hv
      obtain ⟨rfl, h2⟩ := numbered_unique hf.1 hf'.1 (hone hf.2.1) (hone hf'.2.1) hv
      simp only [List.cons.injEq, true_and] at h2
      obtain ⟨rfl, h3⟩ := h2
      have := split_unique (p := rng 'A' 'Z') (fun c hc => capital_rng.1 (hf.2.2.2 c hc)) (fun c hc => capital_rng.1 (hf'.2.2.2 c hc)) (end_head he (by decide)) (end_head he' (by decide)) h3
      rw [this.1]
    | satellite p' n' =>
      simp only [PermName.text, List.append_assoc] at hv
      exact absurd hv (not_planet hf.1)
  | satellite p n =>
    simp only [PermName.text, List.append_assoc] at hv
    cases w' with
    | minor n' => exact absurd hv.symm (not_planet hf')
    | comet n' ty' => simp only [PermName.text, List.append_assoc] at hv; exact absurd hv.symm (not_planet hf'.1)
    | fragment n' ty' f' => simp only [PermName.text, List.append_assoc] at hv; exact absurd hv.symm (not_planet hf'.1)
    | satellite p' n' =>
      simp only [PermName.text, List.append_assoc] at hv
      have hp : p = p' := by
        cases p <;> cases p' <;> first | rfl | (simp [Planet.name] at hv)
      subst hp
      have := List.append_cancel_left hv
      simp only [List.cons_append, List.nil_append, List.cons.injEq, true_and] at this
      rw [(numbered_unique hf hf' hE hE' this).1]

/-! ### the patterns -/

theorem number_of {u : Str} (h1 : 1 ≤ u.length) (h : ∀ c ∈ u, isDec c = true) : Number u := ⟨by rintro rfl; simp at h1, h⟩
theorem number_len {u : Str} (h : Number u) : 1 ≤ u.length := List.length_pos_iff.2 h.1
theorem oneOf_mem {l : Str} {c : Char} : oneOf l c = true ↔ c ∈ l := by
  simp only [oneOf, List.any_eq_true, beq_iff_eq]
  constructor
  · rintro ⟨a, ha, h⟩
    have : c = a := by rw [← Char.ofNat_toNat c, ← Char.ofNat_toNat a, h]
    rwa [this]
  · intro h; exact ⟨c, h, rfl⟩
theorem pdi_iff {ty : Char} : oneOf (c! "PDI") ty = true ↔ ty ∈ ['P', 'D', 'I'] := oneOf_mem

theorem mpPerm_some {v : Str} {m : Caps} (h : reMatch minorplanetPermIDRegex v = some m) : ∃ n, (PermName.minor n).Is v ∧ m = [(1, n)] := by
  obtain ⟨c, t, rfl, hp⟩ := reMatch_parse h
  simp only [minorplanetPermIDRegex, cat, plus, Re.parse] at hp
  obtain ⟨n, _, _, _, ⟨_, ⟨⟨a1, -, a3⟩, rfl⟩, rfl⟩, ⟨rfl, rfl, he⟩, rfl, rfl⟩ := hp
  exact ⟨n, ⟨number_of a1 a3, t, he, by simp [PermName.text]⟩, rfl⟩

theorem mpPerm_match {n v : Str} (h : (PermName.minor n).Is v) : ∃ m, reMatch minorplanetPermIDRegex v = some m := by
  obtain ⟨hf, e, he, rfl⟩ := h
  refine parse_some (k := [(1, n)]) ?_
  simp only [minorplanetPermIDRegex, cat, plus, Re.parse]
  exact ⟨n, [], [(1, n)], [], ⟨[], ⟨⟨number_len hf, by simp, hf.2⟩, rfl⟩, rfl⟩, ⟨rfl, rfl, he⟩, by simp [PermName.text], rfl⟩

theorem cometPerm_some {v : Str} {m : Caps} (h : reMatch cometPermIDRegex v = some m) : ∃ n ty, (PermName.comet n ty).Is v ∧ m = [(1, n), (2, [ty])] := by
  obtain ⟨c, t, rfl, hp⟩ := reMatch_parse h
  simp only [cometPermIDRegex, cat, plus, Re.parse] at hp
  obtain ⟨n, _, _, _, ⟨_, ⟨⟨a1, -, a3⟩, rfl⟩, rfl⟩, ⟨_, _, _, _, ⟨_, ⟨⟨ty, hty, rfl⟩, rfl⟩, rfl⟩, ⟨rfl, rfl, he⟩, rfl, rfl⟩, rfl, rfl⟩ := hp
  exact ⟨n, ty, ⟨⟨number_of a1 a3, pdi_iff.1 hty⟩, t, he, by simp [PermName.text]⟩, rfl⟩

theorem cometPerm_match {n v : Str} {ty : Char} (h : (PermName.comet n ty).Is v) : ∃ m, reMatch cometPermIDRegex v = some m := by
  obtain ⟨hf, e, he, rfl⟩ := h
  refine parse_some (k := [(1, n), (2, [ty])]) ?_
  simp only [cometPermIDRegex, cat, plus, Re.parse]
  exact ⟨n, [ty], [(1, n)], [(2, [ty])], ⟨[], ⟨⟨number_len hf.1, by simp, hf.1.2⟩, rfl⟩, rfl⟩,
    ⟨[ty], [], [(2, [ty])], [], ⟨[], ⟨⟨ty, pdi_iff.2 hf.2, rfl⟩, rfl⟩, rfl⟩, ⟨rfl, rfl, he⟩, rfl, rfl⟩, by simp [PermName.text], rfl⟩

theorem fragPerm_some {v : Str} {m : Caps} (h : reMatch cometfragmentPermIDRegex v = some m) :
    ∃ n ty f, (PermName.fragment n ty f).Is v ∧ m = [(1, n), (2, [ty]), (3, f)] := by
  obtain ⟨c, t, rfl, hp⟩ := reMatch_parse h
  simp only [cometfragmentPermIDRegex, cat, plus, Re.parse] at hp
  obtain ⟨n, _, _, _, ⟨_, ⟨⟨a1, -, a3⟩, rfl⟩, rfl⟩, ⟨_, _, _, _, ⟨_, ⟨⟨ty, hty, rfl⟩, rfl⟩, rfl⟩,
    ⟨_, _, _, _, ⟨⟨_, hd, rfl⟩, rfl⟩, ⟨f, _, _, _, ⟨_, ⟨⟨f1, f2, f3⟩, rfl⟩, rfl⟩, ⟨rfl, rfl, he⟩, rfl, rfl⟩, rfl, rfl⟩, rfl, rfl⟩, rfl, rfl⟩ := hp
  have hd := (ch_iff _ _).1 hd
  subst hd
  have := f2 2 rfl
  exact ⟨n, ty, f, ⟨⟨number_of a1 a3, pdi_iff.1 hty, by omega, fun c hc => capital_rng.2 (f3 c hc)⟩, t, he, by simp [PermName.text]⟩, rfl⟩

theorem fragPerm_match {n v f : Str} {ty : Char} (h : (PermName.fragment n ty f).Is v) : ∃ m, reMatch cometfragmentPermIDRegex v = some m := by
  obtain ⟨hf, e, he, rfl⟩ := h
  refine parse_some (k := [(1, n), (2, [ty]), (3, f)]) ?_
  simp only [cometfragmentPermIDRegex, cat, plus, Re.parse]
  refine ⟨n, ty :: '-' :: f, [(1, n)], [(2, [ty]), (3, f)], ⟨[], ⟨⟨number_len hf.1, by simp, hf.1.2⟩, rfl⟩, rfl⟩,
    ⟨[ty], '-' :: f, [(2, [ty])], [(3, f)], ⟨[], ⟨⟨ty, pdi_iff.2 hf.2.1, rfl⟩, rfl⟩, rfl⟩,
     ⟨['-'], f, [], [(3, f)], ⟨⟨'-', by decide, rfl⟩, rfl⟩, ⟨f, [], [(3, f)], [], ⟨[], ⟨⟨?_, ?_, fun c hc => capital_rng.1 (hf.2.2.2 c hc)⟩, rfl⟩, rfl⟩, ⟨rfl, rfl, he⟩, by simp, rfl⟩, rfl, rfl⟩, rfl, rfl⟩, by simp [PermName.text], rfl⟩
  · have := hf.2.2.1; omega
  · intro h hh; injection hh with hh; have := hf.2.2.1; omega

theorem lit_parse {l c t : Str} {k : Caps} : (lit l).parse c t k ↔ c = l ∧ k = [] := by
  induction l generalizing c k with
  | nil => simp only [lit, cat, List.map_nil, Re.parse]
  | cons a l ih =>
    cases l with
    | nil =>
      simp only [lit, cat, List.map_cons, List.map_nil, Re.parse]
      constructor
      · rintro ⟨⟨b, hb, rfl⟩, rfl⟩; exact ⟨by rw [(ch_iff _ _).1 hb], rfl⟩
      · rintro ⟨rfl, rfl⟩; exact ⟨⟨a, (ch_iff _ _).2 rfl, rfl⟩, rfl⟩
    | cons b l =>
      have e : (lit (a :: b :: l)).parse c t k ↔ ∃ c1 c2 k1 k2, ((∃ x, ch a x = true ∧ c1 = [x]) ∧ k1 = []) ∧ (lit (b :: l)).parse c2 t k2 ∧ c = c1 ++ c2 ∧ k = k1 ++ k2 := Iff.rfl
      rw [e]
      constructor
      · rintro ⟨_, c2, _, k2, ⟨⟨x, hx, rfl⟩, rfl⟩, h, rfl, rfl⟩
        obtain ⟨rfl, rfl⟩ := ih.1 h
        exact ⟨by rw [(ch_iff _ _).1 hx]; rfl, rfl⟩
      · rintro ⟨rfl, rfl⟩
        exact ⟨[a], b :: l, [], [], ⟨⟨a, (ch_iff _ _).2 rfl, rfl⟩, rfl⟩, ih.2 ⟨rfl, rfl⟩, rfl, rfl⟩

theorem planets_parse {c t : Str} {k : Caps} : (alts [lit (c! "Jupiter"), lit (c! "Saturn"), lit (c! "Uranus"), lit (c! "Neptune")]).parse c t k ↔ (∃ p : Planet, c = p.name) ∧ k = [] := by
  simp only [alts, Re.parse, lit_parse]
  constructor
  · rintro (⟨rfl, rfl⟩ | ⟨rfl, rfl⟩ | ⟨rfl, rfl⟩ | ⟨rfl, rfl⟩)
    · exact ⟨⟨.jupiter, rfl⟩, rfl⟩
    · exact ⟨⟨.saturn, rfl⟩, rfl⟩
    · exact ⟨⟨.uranus, rfl⟩, rfl⟩
    · exact ⟨⟨.neptune, rfl⟩, rfl⟩
  · rintro ⟨⟨p, rfl⟩, rfl⟩
    cases p
    · exact .inl ⟨rfl, rfl⟩
    · exact .inr (.inl ⟨rfl, rfl⟩)
    · exact .inr (.inr (.inl ⟨rfl, rfl⟩))
    · exact .inr (.inr (.inr ⟨rfl, rfl⟩))

theorem satPerm_some {v : Str} {m : Caps} (h : reMatch satellitePermIDRegex v = some m) : ∃ p n, (PermName.satellite p n).Is v ∧ m = [(1, p.name), (2, n)] := by
  obtain ⟨c, t, rfl, hp⟩ := reMatch_parse h
  simp only [satellitePermIDRegex, cat, plus, Re.parse, planets_parse] at hp
  obtain ⟨_, _, _, _, ⟨_, ⟨⟨p, rfl⟩, rfl⟩, rfl⟩, ⟨_, _, _, _, ⟨⟨_, hd, rfl⟩, rfl⟩, ⟨n, _, _, _, ⟨_, ⟨⟨a1, -, a3⟩, rfl⟩, rfl⟩, ⟨rfl, rfl, he⟩, rfl, rfl⟩, rfl, rfl⟩, rfl, rfl⟩ := hp
  have hd := (ch_iff _ _).1 hd
  subst hd
  exact ⟨p, n, ⟨number_of a1 a3, t, he, by simp [PermName.text]⟩, rfl⟩

theorem satPerm_matches {n v : Str} {p : Planet} (h : (PermName.satellite p n).Is v) : ∃ m, reMatch satellitePermIDRegex v = some m := by
  obtain ⟨hf, e, he, rfl⟩ := h
  refine parse_some (k := [(1, p.name), (2, n)]) ?_
  simp only [satellitePermIDRegex, cat, plus, Re.parse, planets_parse]
  exact ⟨p.name, ' ' :: n, [(1, p.name)], [(2, n)], ⟨[], ⟨⟨p, rfl⟩, rfl⟩, rfl⟩, ⟨[' '], n, [], [(2, n)], ⟨⟨' ', by decide, rfl⟩, rfl⟩,
    ⟨n, [], [(2, n)], [], ⟨[], ⟨⟨number_len hf, by simp, hf.2⟩, rfl⟩, rfl⟩, ⟨rfl, rfl, he⟩, by simp, rfl⟩, rfl, rfl⟩, by simp [PermName.text], rfl⟩

theorem is_first {w : PermName} {v : Str} (h : w.Is v) : ∃ c r, v = c :: r ∧ c ≠ '(' := by
  obtain ⟨hf, e, he, rfl⟩ := h
  have num : ∀ {n s : Str}, Number n → ∃ c r, n ++ s = c :: r ∧ c ≠ '(' := by
    intro n s hn
    match n, hn with
    | a :: n, hn => exact ⟨a, n ++ s, rfl, dec_ne (hn.2 a List.mem_cons_self) (by decide)⟩
  cases w with
  | minor n => exact num hf
  | comet n ty => simp only [PermName.text, List.append_assoc]; exact num hf.1
  | fragment n ty f => simp only [PermName.text, List.append_assoc]; exact num hf.1
  | satellite p n =>
    obtain ⟨c, r, hc, -, h⟩ := planet_head p
    simp only [PermName.text, List.append_assoc, hc]
    exact ⟨c, _, rfl, h⟩

/-- the kind, as `packTupleID` names it -/
def tyOf : Kind → IdType
  | .minorPlanet => .A
  | .comet => .C
  | .cometFragment => .F
  | .satellite => .S

instance (w : PermName) : Decidable w.InRange := by cases w <;> (simp only [PermName.InRange]; infer_instance)

/-- a text that is a designation: its number decides -/
theorem packPerm_is {w : PermName} {v : Str} (h : w.Is v) :
    packPerm (some v) = if w.InRange then .ok (some ⟨w.perm.cols, tyOf w.perm.kind, w.perm.fragment?⟩) else raiseRT := by
  have e5 : reMatch asteroidsatellitePermIDRegex v = none := by
    obtain ⟨c, r, rfl, hc⟩ := is_first h
    refine reMatch_rej ?_
    have : ch '(' c = false := by
      cases hq : ch '(' c with
      | false => rfl
      | true => exact absurd ((ch_iff _ _).1 hq) hc
    simp [asteroidsatellitePermIDRegex, cat, Re.rej, this]
  have e1 : ∀ {m}, reMatch minorplanetPermIDRegex v = some m → ∃ n, w = .minor n ∧ m = [(1, n)] := by
    intro m hm
    obtain ⟨n, h1, h2⟩ := mpPerm_some hm
    exact ⟨n, PermName.unique h h1, h2⟩
  have e2 : ∀ {m}, reMatch cometPermIDRegex v = some m → ∃ n ty, w = .comet n ty ∧ m = [(1, n), (2, [ty])] := by
    intro m hm
    obtain ⟨n, ty, h1, h2⟩ := cometPerm_some hm
    exact ⟨n, ty, PermName.unique h h1, h2⟩
  have e3 : ∀ {m}, reMatch cometfragmentPermIDRegex v = some m → ∃ n ty f, w = .fragment n ty f ∧ m = [(1, n), (2, [ty]), (3, f)] := by
    intro m hm
    obtain ⟨n, ty, f, h1, h2⟩ := fragPerm_some hm
    exact ⟨n, ty, f, PermName.unique h h1, h2⟩
  have e4 : ∀ {m}, reMatch satellitePermIDRegex v = some m → ∃ p n, w = .satellite p n ∧ m = [(1, p.name), (2, n)] := by
    intro m hm
    obtain ⟨p, n, h1, h2⟩ := satPerm_some hm
    exact ⟨p, n, PermName.unique h h1, h2⟩
  have none_of : ∀ {r : Re}, (∀ m, reMatch r v = some m → False) → reMatch r v = none := by
    intro r hr
    cases hq : reMatch r v with
    | none => rfl
    | some m => exact (hr m hq).elim
  cases w with
  | minor n =>
    obtain ⟨m, hm⟩ := mpPerm_match h
    obtain ⟨n', hn, rfl⟩ := e1 hm
    injection hn with hn; subst hn
    have n2 := none_of fun m hm => by obtain ⟨_, _, h, -⟩ := e2 hm; cases h
    have n3 := none_of fun m hm => by obtain ⟨_, _, _, h, -⟩ := e3 hm; cases h
    have n4 := none_of fun m hm => by obtain ⟨_, _, h, -⟩ := e4 hm; cases h
    simp only [packPerm, packPermMinor, packPermComet, packPermFragment, packPermSat, hm, n2, n3, n4, e5, grp!, group, List.find?_cons, beq_self_eq_true, Option.map_some, bind, Except.bind, pure, Except.pure,
      pyNat_value h.1]
    by_cases hr : 1 ≤ value n ∧ value n ≤ 15396335
    · rw [if_pos (by omega), if_pos (show (PermName.minor n).InRange from hr)]
      by_cases h6 : value n < 620000
      · have el : value n - value n / 10000 * 10000 = value n % 10000 := by omega
        rw [if_pos h6, packLetter_ok (by omega), el, padded10000 (by omega)]
        simp [PermName.perm, Perm.cols, h6, Perm.kind, tyOf, Perm.fragment?]
      · rw [if_neg h6]
        have : (value n : Int) - 620000 = ((value n - 620000 : Nat) : Int) := by omega
        rw [this, radix62_4_nat]
        simp [PermName.perm, Perm.cols, h6, Perm.kind, tyOf, Perm.fragment?]
    · rw [if_neg (by omega), if_neg (show ¬ (PermName.minor n).InRange from hr)]; rfl
  | comet n ty =>
    obtain ⟨m, hm⟩ := cometPerm_match h
    obtain ⟨n', ty', hn, rfl⟩ := e2 hm
    injection hn with hn hn'; subst hn hn'
    have n1 := none_of fun m hm => by obtain ⟨_, h, -⟩ := e1 hm; cases h
    have n3 := none_of fun m hm => by obtain ⟨_, _, _, h, -⟩ := e3 hm; cases h
    have n4 := none_of fun m hm => by obtain ⟨_, _, h, -⟩ := e4 hm; cases h
    simp (decide := true) only [packPerm, packPermMinor, packPermComet, packPermFragment, packPermSat, hm, n1, n3, n4, e5, show grp! [(1, n), (2, [ty])] 1 = .ok n from rfl, show grp! [(1, n), (2, [ty])] 2 = .ok [ty] from rfl, bind, Except.bind, pure, Except.pure,
      pyNat_value h.1.1]
    by_cases hr : 1 ≤ value n ∧ value n ≤ 9999
    · rw [if_neg (by omega), if_neg (by omega), if_pos (show (PermName.comet n ty).InRange from hr), padded10000 (by omega)]
      simp [PermName.perm, Perm.cols, Perm.kind, tyOf, Perm.fragment?]
    · rw [if_neg (show ¬ (PermName.comet n ty).InRange from hr)]
      by_cases h' : value n > 9999
      · rw [if_pos h']; rfl
      · rw [if_neg h', if_pos (by omega)]; rfl
  | fragment n ty f =>
    obtain ⟨m, hm⟩ := fragPerm_match h
    obtain ⟨n', ty', f', hn, rfl⟩ := e3 hm
    injection hn with hn hn' hn''; subst hn hn' hn''
    have n1 := none_of fun m hm => by obtain ⟨_, h, -⟩ := e1 hm; cases h
    have n2 := none_of fun m hm => by obtain ⟨_, _, h, -⟩ := e2 hm; cases h
    have n4 := none_of fun m hm => by obtain ⟨_, _, h, -⟩ := e4 hm; cases h
    simp (decide := true) only [packPerm, packPermMinor, packPermComet, packPermFragment, packPermSat, hm, n1, n2, n4, e5, show grp! [(1, n), (2, [ty]), (3, f)] 1 = .ok n from rfl, show grp! [(1, n), (2, [ty]), (3, f)] 2 = .ok [ty] from rfl, show grp! [(1, n), (2, [ty]), (3, f)] 3 = .ok f from rfl, bind, Except.bind, pure, Except.pure,
      pyNat_value h.1.1]
    by_cases hr : 1 ≤ value n ∧ value n ≤ 9999
    · rw [if_neg (by omega), if_neg (by omega), if_pos (show (PermName.fragment n ty f).InRange from hr), padded10000 (by omega)]
      simp [PermName.perm, Perm.cols, Perm.kind, tyOf, Perm.fragment?]
    · rw [if_neg (show ¬ (PermName.fragment n ty f).InRange from hr)]
      by_cases h' : value n > 9999
      · rw [if_pos h']; rfl
      · rw [if_neg h', if_pos (by omega)]; rfl
  | satellite p n =>
    obtain ⟨m, hm⟩ := satPerm_matches h
    obtain ⟨p', n', hn, rfl⟩ := e4 hm
    injection hn with hn hn'; subst hn hn'
    have g1 : grp! [(1, p.name), (2, n)] 1 = .ok p.name := rfl
    have g2 : grp! [(1, p.name), (2, n)] 2 = .ok n := rfl
    have n1 := none_of fun m hm => by obtain ⟨_, h, -⟩ := e1 hm; cases h
    have n2 := none_of fun m hm => by obtain ⟨_, _, h, -⟩ := e2 hm; cases h
    have n3 := none_of fun m hm => by obtain ⟨_, _, _, h, -⟩ := e3 hm; cases h
    simp (decide := true) only [packPerm, packPermMinor, packPermComet, packPermFragment, packPermSat, hm, n1, n2, n3, e5, g1, g2, bind, Except.bind, pure, Except.pure,
      pyNat_value h.1]
    have hc : charAt p.name 0 = .ok p.letter := by cases p <;> rfl
    by_cases hr : 1 ≤ value n ∧ value n ≤ 999
    · rw [if_neg (by omega), if_neg (by omega), if_pos (show (PermName.satellite p n).InRange from hr), padded1000 (by omega), hc]
      simp [PermName.perm, Perm.cols, Perm.kind, tyOf, Perm.fragment?]
    · rw [if_neg (show ¬ (PermName.satellite p n).InRange from hr)]
      by_cases h' : value n > 999
      · rw [if_pos h']; rfl
      · rw [if_neg h', if_pos (by omega)]; rfl

/-- any other text -/
theorem packPerm_isnt {v : Str} (h : ∀ w : PermName, ¬ w.Is v) : packPerm (some v) = raiseRT := by
  have none_of : ∀ {r : Re}, (∀ m, reMatch r v = some m → False) → reMatch r v = none := by
    intro r hr
    cases hq : reMatch r v with
    | none => rfl
    | some m => exact (hr m hq).elim
  have n1 := none_of fun m hm => by obtain ⟨_, h', -⟩ := mpPerm_some hm; exact h _ h'
  have n2 := none_of fun m hm => by obtain ⟨_, _, h', -⟩ := cometPerm_some hm; exact h _ h'
  have n3 := none_of fun m hm => by obtain ⟨_, _, _, h', -⟩ := fragPerm_some hm; exact h _ h'
  have n4 := none_of fun m hm => by obtain ⟨_, _, h', -⟩ := satPerm_some hm; exact h _ h'
  simp only [packPerm, packPermMinor, packPermComet, packPermFragment, packPermSat, n1, n2, n3, n4, bind, Except.bind]
  cases reMatch asteroidsatellitePermIDRegex v <;> rfl

end Verif.Packing
