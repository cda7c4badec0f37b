import Verif.Lemmas.PackingPerm
/-! `packProv` on any text. -/
set_option linter.unusedSimpArgs false
namespace Verif.Packing
open Verif Verif.PackUtil Verif.Spec Verif.Spec.Packing

theorem survey_inj {s t : Survey} (h1 : s.letter = t.letter) (h2 : s.digit = t.digit) : s = t := by
  cases s <;> cases t <;> first | rfl | (exact absurd h1 (by decide)) | (exact absurd h2 (by decide))
theorem planet_inj {p q : Planet} (h : p.letter = q.letter) : p = q := by
  cases p <;> cases q <;> first | rfl | (exact absurd h (by decide))

theorem ty_ne_S {ty : Char} (h : ty ∈ ['A', 'C', 'D', 'P', 'X']) : ty ≠ 'S' := by
  rintro rfl; exact absurd h (by decide)
theorem ty_ne_S' {ty : Char} (h : ty ∈ ['C', 'D', 'P', 'X']) : ty ≠ 'S' := by
  rintro rfl; exact absurd h (by decide)

theorem slash_notDec : isDec '/' = false := by decide
theorem second_notDec {b : Char} (h : isDec b = true) : b ≠ '/' := dec_ne h (by decide)

theorem ProvName.unique {w w' : ProvName} {v : Str} (h : w.Is v) (h' : w'.Is v) : w = w' := by
  obtain ⟨hf, e, he, rfl⟩ := h
  obtain ⟨hf', e', he', hv⟩ := h'
  have hE : ∀ c ∈ e.head?, isDec c = false := end_head he (by decide)
  have hE' : ∀ c ∈ e'.head?, isDec c = false := end_head he' (by decide)
  have hdash : ∀ {s : Str}, ∀ c ∈ ('-' :: s).head?, isDec c = false := by
    intro s c hc; simp at hc; rw [← hc]; decide
  have dash_end : ∀ {s f : Str}, End f → f ≠ '-' :: s := by
    intro s f hf hc
    rcases hf with rfl | rfl <;> simp at hc
  -- a letter or dash instead of the digits of a number
  have cap_num : ∀ {o : Char} {r n s : Str}, Capital o → Digits0 n → (s = [] ∨ ∃ c t, s = c :: t ∧ ¬ Capital c) → o :: r ≠ n ++ s := by
    intro o r n s ho hn hs hc
    cases n with
    | nil =>
      rcases hs with rfl | ⟨c, t, rfl, h⟩
      · simp at hc
      · simp only [List.nil_append, List.cons.injEq] at hc; exact h (hc.1 ▸ ho)
    | cons d n =>
      simp only [List.cons_append, List.cons.injEq] at hc
      have := hn d List.mem_cons_self
      rw [← hc.1, capital_notDec ho] at this
      simp at this
  have end_cap : ∀ {f : Str}, End f → (f = [] ∨ ∃ c t, f = c :: t ∧ ¬ Capital c) := by
    rintro f (rfl | rfl)
    · exact .inl rfl
    · exact .inr ⟨'\n', [], rfl, by unfold Capital; decide⟩
  have dash_cap : ∀ {s : Str}, ('-' :: s = [] ∨ ∃ c t, '-' :: s = c :: t ∧ ¬ Capital c) := fun {s} => .inr ⟨'-', s, rfl, by unfold Capital; decide⟩
  cases w with
  | minor y half order n =>
    obtain ⟨hy, hh, ho, hn⟩ := hf
    obtain ⟨a, b, c, d, rfl, ha, hb, hc, hd⟩ := year_chars hy
    cases w' with
    | minor y' half' order' n' =>
      obtain ⟨hy', hh', ho', hn'⟩ := hf'
      obtain ⟨a', b', c', d', rfl, -⟩ := year_chars hy'
      simp only [ProvName.text, List.append_assoc, List.cons_append, List.nil_append, List.cons.injEq, true_and] at hv
      obtain ⟨rfl, rfl, rfl, rfl, rfl, rfl, hv⟩ := hv
      rw [(split_unique hn hn' hE hE' hv).1]
    | survey n' s' =>
      obtain ⟨a', b', c', d', rfl, -⟩ := year_chars hf'
      simp only [ProvName.text, List.append_assoc, List.cons_append, List.nil_append, List.cons.injEq, true_and] at hv
      have := hv.2.2.2.2.2.1
      exact absurd this (capital_ne (second_capital ho) (by decide))
    | comet ty' y' half' order' n' =>
      simp only [ProvName.text, List.append_assoc, List.cons_append, List.nil_append, List.cons.injEq, true_and] at hv
      exact absurd hv.2.1 (second_notDec hb)
    | fragment ty' y' half' n' f' =>
      simp only [ProvName.text, List.append_assoc, List.cons_append, List.nil_append, List.cons.injEq, true_and] at hv
      exact absurd hv.2.1 (second_notDec hb)
    | satellite y' p' n' =>
      simp only [ProvName.text, List.append_assoc, List.cons_append, List.nil_append, List.cons.injEq, true_and] at hv
      exact absurd hv.2.1 (second_notDec hb)
  | survey n s =>
    obtain ⟨a, b, c, d, rfl, ha, hb, hc, hd⟩ := year_chars hf
    cases w' with
    | minor y' half' order' n' =>
      obtain ⟨hy', hh', ho', hn'⟩ := hf'
      obtain ⟨a', b', c', d', rfl, -⟩ := year_chars hy'
      simp only [ProvName.text, List.append_assoc, List.cons_append, List.nil_append, List.cons.injEq, true_and] at hv
      have := hv.2.2.2.2.2.1
      exact absurd this.symm (capital_ne (second_capital ho') (by decide))
    | survey n' s' =>
      obtain ⟨a', b', c', d', rfl, -⟩ := year_chars hf'
      simp only [ProvName.text, List.append_assoc, List.cons_append, List.nil_append, List.cons.injEq, true_and] at hv
      obtain ⟨rfl, rfl, rfl, rfl, h1, h2, -⟩ := hv
      rw [survey_inj h1 h2]
    | comet ty' y' half' order' n' =>
      simp only [ProvName.text, List.append_assoc, List.cons_append, List.nil_append, List.cons.injEq, true_and] at hv
      exact absurd hv.2.1 (second_notDec hb)
    | fragment ty' y' half' n' f' =>
      simp only [ProvName.text, List.append_assoc, List.cons_append, List.nil_append, List.cons.injEq, true_and] at hv
      exact absurd hv.2.1 (second_notDec hb)
    | satellite y' p' n' =>
      simp only [ProvName.text, List.append_assoc, List.cons_append, List.nil_append, List.cons.injEq, true_and] at hv
      exact absurd hv.2.1 (second_notDec hb)
  | comet ty y half order n =>
    obtain ⟨ht, hy, hh, ho, hn⟩ := hf
    obtain ⟨a, b, c, d, rfl, -⟩ := year_chars hy
    cases w' with
    | minor y' half' order' n' =>
      obtain ⟨hy', -⟩ := hf'
      obtain ⟨a', b', c', d', rfl, -, hb, -⟩ := year_chars hy'
      simp only [ProvName.text, List.append_assoc, List.cons_append, List.nil_append, List.cons.injEq, true_and] at hv
      exact absurd hv.2.1.symm (second_notDec hb)
    | survey n' s' =>
      obtain ⟨a', b', c', d', rfl, -, hb, -⟩ := year_chars hf'
      simp only [ProvName.text, List.append_assoc, List.cons_append, List.nil_append, List.cons.injEq, true_and] at hv
      exact absurd hv.2.1.symm (second_notDec hb)
    | comet ty' y' half' order' n' =>
      obtain ⟨ht', hy', hh', ho', hn'⟩ := hf'
      obtain ⟨a', b', c', d', rfl, -⟩ := year_chars hy'
      simp only [ProvName.text, List.append_assoc, List.cons_append, List.nil_append, List.cons.injEq, true_and] at hv
      obtain ⟨rfl, rfl, rfl, rfl, rfl, rfl, hv⟩ := hv
      cases order with
      | none =>
        cases order' with
        | none => rw [(split_unique hn hn' hE hE' hv).1]
        | some o' =>
          simp only [Option.toList, List.cons_append, List.nil_append] at hv
          exact absurd hv.symm (cap_num (ho' o' rfl) hn (end_cap he))
      | some o =>
        cases order' with
        | none =>
          simp only [Option.toList, List.cons_append, List.nil_append] at hv
          exact absurd hv (cap_num (ho o rfl) hn' (end_cap he'))
        | some o' =>
          simp only [Option.toList, List.cons_append, List.nil_append, List.cons.injEq] at hv
          obtain ⟨rfl, hv⟩ := hv
          rw [(split_unique hn hn' hE hE' hv).1]
    | fragment ty' y' half' n' f' =>
      obtain ⟨ht', hy', hh', hn', hf'⟩ := hf'
      obtain ⟨a', b', c', d', rfl, -⟩ := year_chars hy'
      simp only [ProvName.text, List.append_assoc, List.cons_append, List.nil_append, List.cons.injEq, true_and] at hv
      obtain ⟨rfl, rfl, rfl, rfl, rfl, rfl, hv⟩ := hv
      cases order with
      | none => exact absurd (split_unique hn hn' hE hdash hv).2 (dash_end he)
      | some o => exact absurd hv (cap_num (ho o rfl) hn' dash_cap)
    | satellite y' p' n' =>
      simp only [ProvName.text, List.append_assoc, List.cons_append, List.nil_append, List.cons.injEq, true_and] at hv
      exact absurd hv.1 (ty_ne_S ht)
  | fragment ty y half n f =>
    obtain ⟨ht, hy, hh, hn, hf⟩ := hf
    obtain ⟨a, b, c, d, rfl, -⟩ := year_chars hy
    cases w' with
    | minor y' half' order' n' =>
      obtain ⟨hy', -⟩ := hf'
      obtain ⟨a', b', c', d', rfl, -, hb, -⟩ := year_chars hy'
      simp only [ProvName.text, List.append_assoc, List.cons_append, List.nil_append, List.cons.injEq, true_and] at hv
      exact absurd hv.2.1.symm (second_notDec hb)
    | survey n' s' =>
      obtain ⟨a', b', c', d', rfl, -, hb, -⟩ := year_chars hf'
      simp only [ProvName.text, List.append_assoc, List.cons_append, List.nil_append, List.cons.injEq, true_and] at hv
      exact absurd hv.2.1.symm (second_notDec hb)
    | comet ty' y' half' order' n' =>
      obtain ⟨ht', hy', hh', ho', hn'⟩ := hf'
      obtain ⟨a', b', c', d', rfl, -⟩ := year_chars hy'
      simp only [ProvName.text, List.append_assoc, List.cons_append, List.nil_append, List.cons.injEq, true_and] at hv
      obtain ⟨rfl, rfl, rfl, rfl, rfl, rfl, hv⟩ := hv
      cases order' with
      | none => exact absurd (split_unique hn hn' hdash hE' hv).2.symm (dash_end he')
      | some o => exact absurd hv.symm (cap_num (ho' o rfl) hn dash_cap)
    | fragment ty' y' half' n' f' =>
      obtain ⟨ht', hy', hh', hn', hf'⟩ := hf'
      obtain ⟨a', b', c', d', rfl, -⟩ := year_chars hy'
      simp only [ProvName.text, List.append_assoc, List.cons_append, List.nil_append, List.cons.injEq, true_and] at hv
      obtain ⟨rfl, rfl, rfl, rfl, rfl, rfl, hv⟩ := hv
      obtain ⟨rfl, h2⟩ := split_unique hn hn' hdash hdash hv
      simp only [List.cons.injEq, true_and] at h2
      rw [h2.1]
    | satellite y' p' n' =>
      simp only [ProvName.text, List.append_assoc, List.cons_append, List.nil_append, List.cons.injEq, true_and] at hv
      exact absurd hv.1 (ty_ne_S' ht)
  | satellite y p n =>
    obtain ⟨hy, hn⟩ := hf
    obtain ⟨a, b, c, d, rfl, -⟩ := year_chars hy
    cases w' with
    | minor y' half' order' n' =>
      obtain ⟨hy', -⟩ := hf'
      obtain ⟨a', b', c', d', rfl, -, hb, -⟩ := year_chars hy'
      simp only [ProvName.text, List.append_assoc, List.cons_append, List.nil_append, List.cons.injEq, true_and] at hv
      exact absurd hv.2.1.symm (second_notDec hb)
    | survey n' s' =>
      obtain ⟨a', b', c', d', rfl, -, hb, -⟩ := year_chars hf'
      simp only [ProvName.text, List.append_assoc, List.cons_append, List.nil_append, List.cons.injEq, true_and] at hv
      exact absurd hv.2.1.symm (second_notDec hb)
    | comet ty' y' half' order' n' =>
      simp only [ProvName.text, List.append_assoc, List.cons_append, List.nil_append, List.cons.injEq, true_and] at hv
      exact absurd hv.1.symm (ty_ne_S hf'.1)
    | fragment ty' y' half' n' f' =>
      simp only [ProvName.text, List.append_assoc, List.cons_append, List.nil_append, List.cons.injEq, true_and] at hv
      exact absurd hv.1.symm (ty_ne_S' hf'.1)
    | satellite y' p' n' =>
      obtain ⟨hy', hn'⟩ := hf'
      obtain ⟨a', b', c', d', rfl, -⟩ := year_chars hy'
      simp only [ProvName.text, List.append_assoc, List.cons_append, List.nil_append, List.cons.injEq, true_and] at hv
      obtain ⟨rfl, rfl, rfl, rfl, hp, hv⟩ := hv
      rw [planet_inj hp, (split_unique hn.2 hn'.2 hE hE' hv).1]

/-! ### the patterns -/

theorem two_two {y1 y2 : Str} (a1 : 2 ≤ y1.length) (a2 : y1.length ≤ 2) (b1 : 2 ≤ y2.length) (b2 : y2.length ≤ 2) (a3 : ∀ c ∈ y1, isDec c = true) (b3 : ∀ c ∈ y2, isDec c = true) :
    Year (y1 ++ y2) ∧ (y1 ++ y2).take 2 = y1 ∧ (y1 ++ y2).drop 2 = y2 := by
  refine ⟨⟨by simp; omega, ?_⟩, List.take_left' (by omega), List.drop_left' (by omega)⟩
  intro c hc
  rcases List.mem_append.1 hc with h | h
  · exact a3 c h
  · exact b3 c h

theorem year_take {y : Str} (h : Year y) : Number (y.take 2) ∧ (y.take 2).length = 2 ∧ Number (y.drop 2) ∧ (y.drop 2).length = 2 ∧ y = y.take 2 ++ y.drop 2 ∧ Number y := by
  obtain ⟨a, b, c, d, rfl, ha, hb, hc, hd⟩ := year_chars h
  simp only [List.take_succ_cons, List.take_zero, List.drop_succ_cons, List.drop_zero]
  refine ⟨⟨by simp, ?_⟩, rfl, ⟨by simp, ?_⟩, rfl, rfl, ⟨by simp, ?_⟩⟩ <;> simp only [List.mem_cons, List.not_mem_nil, or_false] <;> rintro x h <;>
    (repeat' (rcases h with rfl | h)) <;> (try (subst h)) <;> assumption

/-- what the number of a minor planet's designation captures -/
def numCap (n : Str) : Caps := if n = [] then [] else [(5, n)]

theorem mpProv_some {v : Str} {m : Caps} (h : reMatch minorplanetProvIDRegex v = some m) :
    ∃ y half order n, (ProvName.minor y half order n).Is v ∧ m = [(1, y.take 2), (2, y.drop 2), (3, [half]), (4, [order])] ++ numCap n := by
  obtain ⟨c, t, rfl, hp⟩ := reMatch_parse h
  simp only [minorplanetProvIDRegex, cat, times, plus, opt, Re.parse] at hp
  obtain ⟨y1, _, _, _, ⟨_, ⟨⟨a1, a2, a3⟩, rfl⟩, rfl⟩, ⟨y2, _, _, _, ⟨_, ⟨⟨b1, b2, b3⟩, rfl⟩, rfl⟩, ⟨_, _, _, _, ⟨⟨_, hsp, rfl⟩, rfl⟩, ⟨_, _, _, _, ⟨_, ⟨⟨hc, hh, rfl⟩, rfl⟩, rfl⟩, ⟨_, _, _, _, ⟨_, ⟨⟨o, ho, rfl⟩, rfl⟩, rfl⟩, ⟨ds, _, k, _, hds, ⟨rfl, rfl, ht⟩, rfl, rfl⟩, rfl, rfl⟩, rfl, rfl⟩, rfl, rfl⟩, rfl, rfl⟩, rfl, rfl⟩ := hp
  have hsp := (ch_iff _ _).mp hsp
  subst hsp
  obtain ⟨hy, e1, e2⟩ := two_two a1 (a2 2 rfl) b1 (b2 2 rfl) a3 b3
  have hn : Digits0 ds ∧ k = numCap ds := by
    rcases hds with ⟨_, ⟨⟨d1, -, d3⟩, rfl⟩, rfl⟩ | ⟨rfl, rfl⟩
    · exact ⟨d3, by rw [numCap, if_neg]; rintro rfl; simp at d1⟩
    · exact ⟨by intro c hc; simp at hc, rfl⟩
  refine ⟨y1 ++ y2, hc, o, ds, ⟨⟨hy, halfCls_iff.1 hh, orderCls_iff.1 ho, hn.1⟩, t, ht, by simp [ProvName.text]⟩, ?_⟩
  rw [e1, e2, hn.2]; simp

theorem mpProv_match {y n v : Str} {half order : Char} (h : (ProvName.minor y half order n).Is v) : ∃ m, reMatch minorplanetProvIDRegex v = some m := by
  obtain ⟨⟨hy, hh, ho, hn⟩, e, he, rfl⟩ := h
  obtain ⟨h1, l1, h2, l2, hy', -⟩ := year_take hy
  refine parse_some (k := [(1, y.take 2), (2, y.drop 2), (3, [half]), (4, [order])] ++ numCap n) ?_
  simp only [minorplanetProvIDRegex, cat, times, plus, opt, Re.parse]
  refine ⟨y.take 2, y.drop 2 ++ (' ' :: half :: order :: n), [(1, y.take 2)], [(2, y.drop 2), (3, [half]), (4, [order])] ++ numCap n, ⟨[], ⟨⟨by omega, fun _ e => by injection e; omega, h1.2⟩, rfl⟩, rfl⟩,
    ⟨y.drop 2, ' ' :: half :: order :: n, [(2, y.drop 2)], [(3, [half]), (4, [order])] ++ numCap n, ⟨[], ⟨⟨by omega, fun _ e => by injection e; omega, h2.2⟩, rfl⟩, rfl⟩,
     ⟨[' '], half :: order :: n, [], [(3, [half]), (4, [order])] ++ numCap n, ⟨⟨' ', by decide, rfl⟩, rfl⟩,
      ⟨[half], order :: n, [(3, [half])], [(4, [order])] ++ numCap n, ⟨[], ⟨⟨half, halfCls_iff.2 hh, rfl⟩, rfl⟩, rfl⟩,
       ⟨[order], n, [(4, [order])], numCap n, ⟨[], ⟨⟨order, orderCls_iff.2 ho, rfl⟩, rfl⟩, rfl⟩,
        ⟨n, [], numCap n, [], ?_, ⟨rfl, rfl, he⟩, by simp, by simp⟩, rfl, rfl⟩, rfl, rfl⟩, rfl, rfl⟩, rfl, rfl⟩, ?_, rfl⟩
  · by_cases hq : n = []
    · exact .inr ⟨hq, by rw [numCap, if_pos hq]⟩
    · exact .inl ⟨[], ⟨⟨List.length_pos_iff.2 hq, by simp, hn⟩, rfl⟩, by rw [numCap, if_neg hq]⟩
  · simp only [ProvName.text]
    rw [← List.append_assoc, ← hy']; simp

theorem surveys_parse {c t : Str} {k : Caps} : (alts [lit (c! "P-L"), lit (c! "T-1"), lit (c! "T-2"), lit (c! "T-3")]).parse c t k ↔ (∃ s : Survey, c = [s.letter, '-', s.digit]) ∧ k = [] := by
  simp only [alts, Re.parse, lit_parse]
  constructor
  · rintro (⟨rfl, rfl⟩ | ⟨rfl, rfl⟩ | ⟨rfl, rfl⟩ | ⟨rfl, rfl⟩)
    · exact ⟨⟨.PL, rfl⟩, rfl⟩
    · exact ⟨⟨.T1, rfl⟩, rfl⟩
    · exact ⟨⟨.T2, rfl⟩, rfl⟩
    · exact ⟨⟨.T3, rfl⟩, rfl⟩
  · rintro ⟨⟨s, rfl⟩, rfl⟩
    cases s
    · exact .inl ⟨rfl, rfl⟩
    · exact .inr (.inl ⟨rfl, rfl⟩)
    · exact .inr (.inr (.inl ⟨rfl, rfl⟩))
    · exact .inr (.inr (.inr ⟨rfl, rfl⟩))

theorem survey_some {v : Str} {m : Caps} (h : reMatch minorplanetSurveyProvIDRegex v = some m) :
    ∃ n s, (ProvName.survey n s).Is v ∧ m = [(1, n), (2, [s.letter, '-', s.digit])] := by
  obtain ⟨c, t, rfl, hp⟩ := reMatch_parse h
  simp only [minorplanetSurveyProvIDRegex, cat, times, Re.parse, surveys_parse] at hp
  obtain ⟨n, _, _, _, ⟨_, ⟨⟨a1, a2, a3⟩, rfl⟩, rfl⟩, ⟨_, _, _, _, ⟨⟨_, hd, rfl⟩, rfl⟩, ⟨_, _, _, _, ⟨_, ⟨⟨s, rfl⟩, rfl⟩, rfl⟩, ⟨rfl, rfl, he⟩, rfl, rfl⟩, rfl, rfl⟩, rfl, rfl⟩ := hp
  have hd := (ch_iff _ _).1 hd
  subst hd
  have := a2 4 rfl
  exact ⟨n, s, ⟨⟨by omega, a3⟩, t, he, by simp [ProvName.text]⟩, rfl⟩

theorem survey_match {n v : Str} {s : Survey} (h : (ProvName.survey n s).Is v) : ∃ m, reMatch minorplanetSurveyProvIDRegex v = some m := by
  obtain ⟨hf, e, he, rfl⟩ := h
  have hf : Year n := hf
  refine parse_some (k := [(1, n), (2, [s.letter, '-', s.digit])]) ?_
  simp only [minorplanetSurveyProvIDRegex, cat, times, Re.parse, surveys_parse]
  have := hf.1
  exact ⟨n, [' ', s.letter, '-', s.digit], [(1, n)], [(2, [s.letter, '-', s.digit])], ⟨[], ⟨⟨by omega, fun _ e => by injection e; omega, hf.2⟩, rfl⟩, rfl⟩,
    ⟨[' '], [s.letter, '-', s.digit], [], [(2, [s.letter, '-', s.digit])], ⟨⟨' ', by decide, rfl⟩, rfl⟩,
      ⟨[s.letter, '-', s.digit], [], [(2, [s.letter, '-', s.digit])], [], ⟨[], ⟨⟨s, rfl⟩, rfl⟩, rfl⟩, ⟨rfl, rfl, he⟩, rfl, rfl⟩, rfl, rfl⟩, rfl, rfl⟩

/-- what the second letter of a comet's designation captures -/
def orderCap (o : Option Char) : Caps := o.toList.map fun c => (4, [c])

theorem comet_some {v : Str} {m : Caps} (h : reMatch cometProvIDRegex v = some m) :
    ∃ ty y half order n, (ProvName.comet ty y half order n).Is v ∧ m = [(1, [ty]), (2, y), (3, [half])] ++ orderCap order ++ [(5, n)] := by
  obtain ⟨c, t, rfl, hp⟩ := reMatch_parse h
  simp only [cometProvIDRegex, cat, times, star, opt, Re.parse] at hp
  obtain ⟨_, _, _, _, ⟨_, ⟨⟨ty, hty, rfl⟩, rfl⟩, rfl⟩, ⟨_, _, _, _, ⟨⟨_, hsl, rfl⟩, rfl⟩, ⟨y, _, _, _, ⟨_, ⟨⟨b1, b2, b3⟩, rfl⟩, rfl⟩, ⟨_, _, _, _, ⟨⟨_, hsp, rfl⟩, rfl⟩, ⟨_, _, _, _, ⟨_, ⟨⟨hc, hh, rfl⟩, rfl⟩, rfl⟩, ⟨oo, _, k, _, ho, ⟨ds, _, _, _, ⟨_, ⟨⟨-, -, d3⟩, rfl⟩, rfl⟩, ⟨rfl, rfl, ht⟩, rfl, rfl⟩, rfl, rfl⟩, rfl, rfl⟩, rfl, rfl⟩, rfl, rfl⟩, rfl, rfl⟩, rfl, rfl⟩ := hp
  have b2 := b2 4 rfl
  have hsp := (ch_iff _ _).mp hsp
  have hsl := (ch_iff _ _).mp hsl
  subst hsp hsl
  have hord : ∃ order : Option Char, (∀ o ∈ order, Capital o) ∧ oo = order.toList ∧ k = orderCap order := by
    rcases ho with ⟨_, ⟨⟨o, ho, rfl⟩, rfl⟩, rfl⟩ | ⟨rfl, rfl⟩
    · exact ⟨some o, by intro x hx; injection hx with hx; exact hx ▸ capital_rng.2 ho, rfl, rfl⟩
    · exact ⟨none, by intro x hx; simp at hx, rfl, rfl⟩
  obtain ⟨order, h1, rfl, rfl⟩ := hord
  exact ⟨ty, y, hc, order, ds, ⟨⟨oneOf_mem.1 hty, ⟨by omega, b3⟩, capital_rng.2 hh, h1, d3⟩, t, ht, by simp [ProvName.text]⟩, by simp⟩

theorem comet_match {y n v : Str} {ty half : Char} {order : Option Char} (h : (ProvName.comet ty y half order n).Is v) : ∃ m, reMatch cometProvIDRegex v = some m := by
  obtain ⟨⟨ht, hy, hh, ho, hn⟩, e, he, rfl⟩ := h
  refine parse_some (k := [(1, [ty]), (2, y), (3, [half])] ++ (orderCap order ++ [(5, n)])) ?_
  simp only [cometProvIDRegex, cat, times, star, opt, Re.parse]
  have := hy.1
  refine ⟨[ty], '/' :: (y ++ (' ' :: half :: (order.toList ++ n))), [(1, [ty])], [(2, y), (3, [half])] ++ (orderCap order ++ [(5, n)]), ⟨[], ⟨⟨ty, oneOf_mem.2 ht, rfl⟩, rfl⟩, rfl⟩,
    ⟨['/'], y ++ (' ' :: half :: (order.toList ++ n)), [], [(2, y), (3, [half])] ++ (orderCap order ++ [(5, n)]), ⟨⟨'/', by decide, rfl⟩, rfl⟩,
     ⟨y, ' ' :: half :: (order.toList ++ n), [(2, y)], [(3, [half])] ++ (orderCap order ++ [(5, n)]), ⟨[], ⟨⟨by omega, fun _ e => by injection e; omega, hy.2⟩, rfl⟩, rfl⟩,
      ⟨[' '], half :: (order.toList ++ n), [], [(3, [half])] ++ (orderCap order ++ [(5, n)]), ⟨⟨' ', by decide, rfl⟩, rfl⟩,
       ⟨[half], order.toList ++ n, [(3, [half])], orderCap order ++ [(5, n)], ⟨[], ⟨⟨half, capital_rng.1 hh, rfl⟩, rfl⟩, rfl⟩,
        ⟨order.toList, n, orderCap order, [(5, n)], ?_, ⟨n, [], [(5, n)], [], ⟨[], ⟨⟨by omega, by simp, hn⟩, rfl⟩, rfl⟩, ⟨rfl, rfl, he⟩, by simp, rfl⟩, rfl, rfl⟩, rfl, rfl⟩, rfl, rfl⟩, rfl, rfl⟩, rfl, rfl⟩, ?_, rfl⟩
  · cases order with
    | none => exact .inr ⟨rfl, rfl⟩
    | some o => exact .inl ⟨[], ⟨⟨o, capital_rng.1 (ho o rfl), rfl⟩, rfl⟩, rfl⟩
  · simp [ProvName.text]

theorem frag_some {v : Str} {m : Caps} (h : reMatch cometfragmentProvIDRegex v = some m) :
    ∃ ty y half n f, (ProvName.fragment ty y half n f).Is v ∧ m = [(1, [ty]), (2, y), (3, [half]), (4, n), (5, [f])] := by
  obtain ⟨c, t, rfl, hp⟩ := reMatch_parse h
  simp only [cometfragmentProvIDRegex, cat, times, star, opt, Re.parse] at hp
  obtain ⟨_, _, _, _, ⟨_, ⟨⟨ty, hty, rfl⟩, rfl⟩, rfl⟩, ⟨_, _, _, _, ⟨⟨_, hsl, rfl⟩, rfl⟩, ⟨y, _, _, _, ⟨_, ⟨⟨b1, b2, b3⟩, rfl⟩, rfl⟩, ⟨_, _, _, _, ⟨⟨_, hsp, rfl⟩, rfl⟩, ⟨_, _, _, _, ⟨_, ⟨⟨hc, hh, rfl⟩, rfl⟩, rfl⟩,
    ⟨ds, _, _, _, ⟨_, ⟨⟨-, -, d3⟩, rfl⟩, rfl⟩, ⟨_, _, _, _, ⟨⟨_, hda, rfl⟩, rfl⟩, ⟨_, _, _, _, ⟨_, ⟨⟨f, hf, rfl⟩, rfl⟩, rfl⟩, ⟨rfl, rfl, ht⟩, rfl, rfl⟩, rfl, rfl⟩, rfl, rfl⟩, rfl, rfl⟩, rfl, rfl⟩, rfl, rfl⟩, rfl, rfl⟩, rfl, rfl⟩ := hp
  have b2 := b2 4 rfl
  have hsp := (ch_iff _ _).mp hsp
  have hsl := (ch_iff _ _).mp hsl
  have hda := (ch_iff _ _).mp hda
  subst hsp hsl hda
  exact ⟨ty, y, hc, ds, f, ⟨⟨oneOf_mem.1 hty, ⟨by omega, b3⟩, capital_rng.2 hh, d3, capital_rng.2 hf⟩, t, ht, by simp [ProvName.text]⟩, rfl⟩

theorem frag_match {y n v : Str} {ty half f : Char} (h : (ProvName.fragment ty y half n f).Is v) : ∃ m, reMatch cometfragmentProvIDRegex v = some m := by
  obtain ⟨⟨ht, hy, hh, hn, hf⟩, e, he, rfl⟩ := h
  refine parse_some (k := [(1, [ty]), (2, y), (3, [half]), (4, n), (5, [f])]) ?_
  simp only [cometfragmentProvIDRegex, cat, times, star, Re.parse]
  have := hy.1
  refine ⟨[ty], '/' :: (y ++ (' ' :: half :: (n ++ ['-', f]))), [(1, [ty])], [(2, y), (3, [half]), (4, n), (5, [f])], ⟨[], ⟨⟨ty, oneOf_mem.2 ht, rfl⟩, rfl⟩, rfl⟩,
    ⟨['/'], y ++ (' ' :: half :: (n ++ ['-', f])), [], [(2, y), (3, [half]), (4, n), (5, [f])], ⟨⟨'/', by decide, rfl⟩, rfl⟩,
     ⟨y, ' ' :: half :: (n ++ ['-', f]), [(2, y)], [(3, [half]), (4, n), (5, [f])], ⟨[], ⟨⟨by omega, fun _ e => by injection e; omega, hy.2⟩, rfl⟩, rfl⟩,
      ⟨[' '], half :: (n ++ ['-', f]), [], [(3, [half]), (4, n), (5, [f])], ⟨⟨' ', by decide, rfl⟩, rfl⟩,
       ⟨[half], n ++ ['-', f], [(3, [half])], [(4, n), (5, [f])], ⟨[], ⟨⟨half, capital_rng.1 hh, rfl⟩, rfl⟩, rfl⟩,
        ⟨n, ['-', f], [(4, n)], [(5, [f])], ⟨[], ⟨⟨by omega, by simp, hn⟩, rfl⟩, rfl⟩,
         ⟨['-'], [f], [], [(5, [f])], ⟨⟨'-', by decide, rfl⟩, rfl⟩, ⟨[f], [], [(5, [f])], [], ⟨[], ⟨⟨f, capital_rng.1 hf, rfl⟩, rfl⟩, rfl⟩, ⟨rfl, rfl, he⟩, rfl, rfl⟩, rfl, rfl⟩, rfl, rfl⟩, rfl, rfl⟩, rfl, rfl⟩, rfl, rfl⟩, rfl, rfl⟩, ?_, rfl⟩
  simp [ProvName.text]

theorem jsun_iff {c : Char} : oneOf (c! "JSUN") c = true ↔ ∃ p : Planet, c = p.letter := by
  rw [oneOf_mem]
  constructor
  · intro h
    simp only [List.mem_cons, List.not_mem_nil, or_false] at h
    rcases h with rfl | rfl | rfl | rfl
    · exact ⟨.jupiter, rfl⟩
    · exact ⟨.saturn, rfl⟩
    · exact ⟨.uranus, rfl⟩
    · exact ⟨.neptune, rfl⟩
  · rintro ⟨p, rfl⟩; cases p <;> decide

theorem sat_some {v : Str} {m : Caps} (h : reMatch satelliteProvIDRegex v = some m) :
    ∃ y p n, (ProvName.satellite y p n).Is v ∧ m = [(1, y), (2, [p.letter]), (3, n)] := by
  obtain ⟨c, t, rfl, hp⟩ := reMatch_parse h
  simp only [satelliteProvIDRegex, cat, times, plus, Re.parse] at hp
  obtain ⟨_, _, _, _, ⟨⟨_, hS, rfl⟩, rfl⟩, ⟨_, _, _, _, ⟨⟨_, hsl, rfl⟩, rfl⟩, ⟨y, _, _, _, ⟨_, ⟨⟨b1, b2, b3⟩, rfl⟩, rfl⟩, ⟨_, _, _, _, ⟨⟨_, hsp, rfl⟩, rfl⟩, ⟨_, _, _, _, ⟨_, ⟨⟨p, hp, rfl⟩, rfl⟩, rfl⟩,
    ⟨_, _, _, _, ⟨⟨_, hsp2, rfl⟩, rfl⟩, ⟨n, _, _, _, ⟨_, ⟨⟨d1, -, d3⟩, rfl⟩, rfl⟩, ⟨rfl, rfl, ht⟩, rfl, rfl⟩, rfl, rfl⟩, rfl, rfl⟩, rfl, rfl⟩, rfl, rfl⟩, rfl, rfl⟩, rfl, rfl⟩ := hp
  have b2 := b2 4 rfl
  have hS := (ch_iff _ _).mp hS
  have hsp := (ch_iff _ _).mp hsp
  have hsl := (ch_iff _ _).mp hsl
  have hsp2 := (ch_iff _ _).mp hsp2
  subst hsp hsl hsp2 hS
  obtain ⟨q, rfl⟩ := jsun_iff.1 hp
  exact ⟨y, q, n, ⟨⟨⟨by omega, b3⟩, number_of d1 d3⟩, t, ht, by simp [ProvName.text]⟩, rfl⟩

theorem sat_match {y n v : Str} {p : Planet} (h : (ProvName.satellite y p n).Is v) : ∃ m, reMatch satelliteProvIDRegex v = some m := by
  obtain ⟨⟨hy, hn⟩, e, he, rfl⟩ := h
  refine parse_some (k := [(1, y), (2, [p.letter]), (3, n)]) ?_
  simp only [satelliteProvIDRegex, cat, times, plus, Re.parse]
  have := hy.1
  refine ⟨['S'], '/' :: (y ++ (' ' :: p.letter :: ' ' :: n)), [], [(1, y), (2, [p.letter]), (3, n)], ⟨⟨'S', by decide, rfl⟩, rfl⟩,
    ⟨['/'], y ++ (' ' :: p.letter :: ' ' :: n), [], [(1, y), (2, [p.letter]), (3, n)], ⟨⟨'/', by decide, rfl⟩, rfl⟩,
     ⟨y, ' ' :: p.letter :: ' ' :: n, [(1, y)], [(2, [p.letter]), (3, n)], ⟨[], ⟨⟨by omega, fun _ e => by injection e; omega, hy.2⟩, rfl⟩, rfl⟩,
      ⟨[' '], p.letter :: ' ' :: n, [], [(2, [p.letter]), (3, n)], ⟨⟨' ', by decide, rfl⟩, rfl⟩,
       ⟨[p.letter], ' ' :: n, [(2, [p.letter])], [(3, n)], ⟨[], ⟨⟨p.letter, jsun_iff.2 ⟨p, rfl⟩, rfl⟩, rfl⟩, rfl⟩,
        ⟨[' '], n, [], [(3, n)], ⟨⟨' ', by decide, rfl⟩, rfl⟩, ⟨n, [], [(3, n)], [], ⟨[], ⟨⟨number_len hn, by simp, hn.2⟩, rfl⟩, rfl⟩, ⟨rfl, rfl, he⟩, by simp, rfl⟩, rfl, rfl⟩, rfl, rfl⟩, rfl, rfl⟩, rfl, rfl⟩, rfl, rfl⟩, ?_, rfl⟩
  simp [ProvName.text]

end Verif.Packing
