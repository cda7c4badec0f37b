import Verif.Lemmas.Unpacking
import Verif.Props.Packing
/-! The packed pattern of minor planets. -/
set_option linter.unusedSimpArgs false
namespace Verif.Unpacking
open Verif Verif.PackUtil Verif.Spec Verif.Spec.Packing Verif.Spec.Unpacking Verif.Packing

def hd : Re := alts [times 5 (ch ' '), cat [.grp 1 (.cls alnum), .grp 2 (times 4 isDec)], .grp 3 (cat [.cls (ch '~'), times 4 alnum])]

/-! ### what is captured -/

/-- columns 1-5 -/
inductive H5 : Str → Caps → Prop
  | blank : H5 (spaces 5) []
  | low {c d1 d2 d3 d4 : Char} : alnum c = true → isDec d1 = true → isDec d2 = true → isDec d3 = true → isDec d4 = true → H5 [c, d1, d2, d3, d4] [(1, [c]), (2, [d1, d2, d3, d4])]
  | high {a b c d : Char} : alnum a = true → alnum b = true → alnum c = true → alnum d = true → H5 ['~', a, b, c, d] [(3, ['~', a, b, c, d])]

theorem H5.len {a : Str} {k : Caps} (h : H5 a k) : a.length = 5 := by cases h <;> rfl

theorem blank_not {c : Char} (h : alnum c = true) : c ≠ ' ' := by rintro rfl; exact absurd h (by decide)
theorem tilde_not {c : Char} (h : alnum c = true) : c ≠ '~' := by rintro rfl; exact absurd h (by decide)

theorem H5.unique {a : Str} {k k' : Caps} (h : H5 a k) (h' : H5 a k') : k = k' := by
  generalize e : a = b at h'
  cases h with
  | blank =>
    cases h' with
    | blank => rfl
    | low h => injection e with e1; exact absurd e1.symm (blank_not h)
    | high => injection e with e1; exact absurd e1 (by decide)
  | low h =>
    cases h' with
    | blank => injection e with e1; exact absurd e1 (blank_not h)
    | low h => simp only [List.cons.injEq, and_true] at e; obtain ⟨rfl, rfl, rfl, rfl, rfl⟩ := e; rfl
    | high => injection e with e1; exact absurd e1 (tilde_not h)
  | high =>
    cases h' with
    | blank => injection e with e1; exact absurd e1 (by decide)
    | low h => injection e with e1; exact absurd e1.symm (tilde_not h)
    | high => simp only [List.cons.injEq, and_true, true_and] at e; obtain ⟨rfl, rfl, rfl, rfl⟩ := e; rfl

theorem hd_parse {c t : Str} {k : Caps} : hd.parse c t k ↔ H5 c k := by
  constructor
  · rintro (h | h | h)
    · obtain ⟨⟨h1, h2⟩, rfl⟩ := times_parse.1 h
      rw [all_ch h1 h2]; exact .blank
    · obtain ⟨c1, c2, k1, k2, ⟨k', ⟨⟨a, ha, rfl⟩, rfl⟩, rfl⟩, ⟨k'', h5, rfl⟩, rfl, rfl⟩ := h
      obtain ⟨⟨h1, h2⟩, rfl⟩ := times_parse.1 h5
      obtain ⟨d1, d2, d3, d4, rfl⟩ := len4 (Nat.le_of_eq h1.symm) (Nat.le_of_eq h1)
      simp only [List.forall_mem_cons] at h2
      exact .low ha h2.1 h2.2.1 h2.2.2.1 h2.2.2.2.1
    · obtain ⟨k', ⟨c1, c2, k1, k2, ⟨⟨a, ha, rfl⟩, rfl⟩, h5, rfl, rfl⟩, rfl⟩ := h
      obtain ⟨⟨h1, h2⟩, rfl⟩ := times_parse.1 h5
      obtain ⟨d1, d2, d3, d4, rfl⟩ := len4 (Nat.le_of_eq h1.symm) (Nat.le_of_eq h1)
      simp only [List.forall_mem_cons] at h2
      cases ch_iff.1 ha
      exact .high h2.1 h2.2.1 h2.2.2.1 h2.2.2.2.1
  · intro h
    cases h with
    | blank => exact .inl (times_parse.2 ⟨⟨rfl, by simp [spaces, ch]⟩, rfl⟩)
    | low h0 h1 h2 h3 h4 => exact .inr (.inl ⟨[_], _, _, _, ⟨[], ⟨⟨_, h0, rfl⟩, rfl⟩, rfl⟩, ⟨[], times_parse.2 ⟨⟨rfl, by simp [h1, h2, h3, h4]⟩, rfl⟩, rfl⟩, rfl, rfl⟩)
    | high h1 h2 h3 h4 => exact .inr (.inr ⟨[], ⟨['~'], _, [], [], ⟨⟨'~', by decide, rfl⟩, rfl⟩, times_parse.2 ⟨⟨rfl, by simp [h1, h2, h3, h4]⟩, rfl⟩, rfl, rfl⟩, rfl⟩)

theorem times_run_len {n : Nat} {p : Char → Bool} {s : Str} : (run (times n p) s).length ≤ 1 := by
  have hle : ∀ (n : Nat) (s : Str), spanLen p (some n) s ≤ n := by
    intro n
    induction n with
    | zero => intro s; cases s <;> simp [spanLen]
    | succ n ih => intro s; cases s with
      | nil => simp [spanLen]
      | cons c s => simp only [spanLen]; split
                    · have := ih s; omega
                    · omega
  simp only [times, run, List.length_map]
  have h := hle n s
  generalize spanLen p (some n) s = j at h
  cases j with
  | zero => simp only [downTo]; split <;> simp
  | succ j =>
    simp only [downTo]
    split
    · have : n = j + 1 := by omega
      subst this
      cases j with
      | zero => simp [downTo]
      | succ j => simp [downTo]
    · simp

theorem cls_run_len {p : Char → Bool} {s : Str} : (run (.cls p) s).length ≤ 1 := by
  cases s with
  | nil => simp [run]
  | cons c s => simp only [run]; split <;> simp

theorem seq_run_len {a b : Re} {s : Str} (ha : (run a s).length ≤ 1) (hb : ∀ s, (run b s).length ≤ 1) : (run (.seq a b) s).length ≤ 1 := by
  simp only [run]
  match run a s, ha with
  | [], _ => simp
  | [m], _ => simpa using hb _

theorem grp_run_len {n : Nat} {a : Re} {s : Str} (ha : (run a s).length ≤ 1) : (run (.grp n a) s).length ≤ 1 := by
  simpa [run] using ha

theorem run_nil {r : Re} {s : Str} (h : ∀ c t k, s = c ++ t → ¬ r.parse c t k) : run r s = [] := by
  rw [List.eq_nil_iff_forall_not_mem]
  rintro ⟨c, t, k⟩ hm
  exact h c t k (run_split hm) (run_parse hm)

theorem hd_len {s : Str} : (run hd s).length ≤ 1 := by
  have l1 : (run (times 5 (ch ' ')) s).length ≤ 1 := times_run_len
  have l2 : (run (cat [.grp 1 (.cls alnum), .grp 2 (times 4 isDec)]) s).length ≤ 1 := seq_run_len (grp_run_len cls_run_len) fun _ => grp_run_len times_run_len
  have l3 : (run (.grp 3 (cat [.cls (ch '~'), times 4 alnum])) s).length ≤ 1 := grp_run_len (seq_run_len cls_run_len fun _ => times_run_len)
  have key : ∀ {r : Re} {f : Char}, (∀ c t k, r.parse c t k → ∃ u, c = f :: u) → s.head? ≠ some f → run r s = [] := by
    intro r f hr hs
    refine run_nil fun c t k e hp => ?_
    obtain ⟨u, rfl⟩ := hr c t k hp
    exact hs (by rw [e]; rfl)
  have b1 : ∀ c t k, (times 5 (ch ' ')).parse c t k → ∃ u, c = ' ' :: u := by
    intro c t k h
    obtain ⟨⟨h1, h2⟩, -⟩ := times_parse.1 h
    exact ⟨_, all_ch h1 h2⟩
  have b3 : ∀ c t k, (Re.grp 3 (cat [.cls (ch '~'), times 4 alnum])).parse c t k → ∃ u, c = '~' :: u := by
    rintro c t k ⟨k', ⟨c1, c2, k1, k2, ⟨⟨a, ha, rfl⟩, rfl⟩, h2, rfl, rfl⟩, rfl⟩
    cases ch_iff.1 ha
    exact ⟨c2, rfl⟩
  have b2 : ∀ f, alnum f = false → s.head? = some f → run (cat [.grp 1 (.cls alnum), .grp 2 (times 4 isDec)]) s = [] := by
    intro f hf hs
    refine run_nil fun c t k e hp => ?_
    obtain ⟨c1, c2, k1, k2, ⟨k', ⟨⟨a, ha, rfl⟩, rfl⟩, rfl⟩, -, rfl, rfl⟩ := hp
    rw [e] at hs
    simp at hs
    rw [hs, hf] at ha; simp at ha
  show (run (times 5 (ch ' ')) s ++ (run (cat [.grp 1 (.cls alnum), .grp 2 (times 4 isDec)]) s ++ run (.grp 3 (cat [.cls (ch '~'), times 4 alnum])) s)).length ≤ 1
  by_cases h1 : s.head? = some ' '
  · rw [b2 ' ' (by decide) h1, key b3 (by rw [h1]; decide)]; simpa using l1
  · rw [key b1 h1]
    by_cases h3 : s.head? = some '~'
    · rw [b2 '~' (by decide) h3]; simpa using l3
    · rw [key b3 h3]; simpa using l2

/-- columns 6-12, each way -/
inductive T1 : Str → Caps → Prop
  | mk {c y1 y2 h l d o : Char} : rng 'I' 'K' c = true → isDec y1 = true → isDec y2 = true → halfCls h = true → alnum l = true → isDec d = true → (orderCls o = true ∨ o = '0') →
      T1 [c, y1, y2, h, l, d, o] ([(4, [c]), (5, [y1, y2]), (6, [h]), (7, [l]), (8, [d])] ++ if o = '0' then [] else [(9, [o])])
inductive T2 : Str → Caps → Prop
  | mk {s : Survey} {a b c d : Char} : isDec a = true → isDec b = true → isDec c = true → isDec d = true →
      T2 [s.letter, s.digit, 'S', a, b, c, d] [(10, [s.letter, s.digit]), (11, [a, b, c, d])]
inductive T3 : Str → Caps → Prop
  | mk {t : Str} (n : Nat) : t.length ≤ 8 → (∀ c ∈ t, c ∈ trkChars) → T3 (t ++ spaces n) [(12, t)]
inductive T4 : Str → Caps → Prop
  | mk {y h a b c d : Char} : rng 'P' 'Z' y = true → halfCls h = true → alnum a = true → alnum b = true → alnum c = true → alnum d = true →
      T4 ['_', y, h, a, b, c, d] [(13, ['_']), (14, [y]), (15, [h]), (16, [a, b, c, d])]
inductive T5 : Str → Caps → Prop
  | mk (n : Nat) : T5 (spaces n) []

theorem order_zero {o : Char} (h : orderCls o = true) : o ≠ '0' := by rintro rfl; exact absurd h (by decide)

theorem T1_parse {c t : Str} {k : Caps} : mpAlt1.parse c t k ↔ T1 c k := by
  constructor
  · intro h
    simp only [mpAlt1, cat, Re.parse] at h
    obtain ⟨_, _, _, _, ⟨_, ⟨⟨c, hc, rfl⟩, rfl⟩, rfl⟩, ⟨_, _, _, _, ⟨_, hy, rfl⟩, ⟨_, _, _, _, ⟨_, ⟨⟨h, hh, rfl⟩, rfl⟩, rfl⟩, ⟨_, _, _, _, ⟨_, ⟨⟨l, hl, rfl⟩, rfl⟩, rfl⟩, ⟨_, _, _, _, ⟨_, ⟨⟨d, hd, rfl⟩, rfl⟩, rfl⟩, ho, rfl, rfl⟩, rfl, rfl⟩, rfl, rfl⟩, rfl, rfl⟩, rfl, rfl⟩ := h
    obtain ⟨⟨h1, h2⟩, rfl⟩ := times_parse.1 hy
    obtain ⟨y1, y2, rfl⟩ := len2 (Nat.le_of_eq h1.symm) (Nat.le_of_eq h1)
    simp only [List.forall_mem_cons] at h2
    rcases ho with ⟨_, ⟨⟨o, ho, rfl⟩, rfl⟩, rfl⟩ | ⟨⟨o, ho, rfl⟩, rfl⟩
    · have := T1.mk hc h2.1 h2.2.1 hh hl hd (.inl ho)
      rw [if_neg (order_zero ho)] at this
      exact this
    · cases ch_iff.1 ho
      exact T1.mk hc h2.1 h2.2.1 hh hl hd (.inr rfl)
  · rintro ⟨hc, h1, h2, hh, hl, hd, ho⟩
    simp only [mpAlt1, cat]
    refine ⟨[_], _, [_], _, ⟨[], ⟨⟨_, hc, rfl⟩, rfl⟩, rfl⟩, ⟨[_, _], _, [_], _, ⟨[], times_parse.2 ⟨⟨rfl, by simp [h1, h2]⟩, rfl⟩, rfl⟩, ⟨[_], _, [_], _, ⟨[], ⟨⟨_, hh, rfl⟩, rfl⟩, rfl⟩, ⟨[_], _, [_], _, ⟨[], ⟨⟨_, hl, rfl⟩, rfl⟩, rfl⟩, ⟨[_], _, [_], _, ⟨[], ⟨⟨_, hd, rfl⟩, rfl⟩, rfl⟩, ?_, rfl, rfl⟩, rfl, rfl⟩, rfl, rfl⟩, rfl, rfl⟩, rfl, rfl⟩
    rcases ho with ho | rfl
    · rw [if_neg (order_zero ho)]
      exact .inl ⟨[], ⟨⟨_, ho, rfl⟩, rfl⟩, rfl⟩
    · exact .inr ⟨⟨'0', by decide, rfl⟩, rfl⟩

theorem lit2_parse {a b : Char} {c t : Str} {k : Caps} : (lit [a, b]).parse c t k ↔ c = [a, b] ∧ k = [] := by
  simp only [lit, List.map_cons, List.map_nil, cat, Re.parse]
  constructor
  · rintro ⟨_, _, _, _, ⟨⟨x, hx, rfl⟩, rfl⟩, ⟨⟨y, hy, rfl⟩, rfl⟩, rfl, rfl⟩
    rw [ch_iff.1 hx, ch_iff.1 hy]; exact ⟨rfl, rfl⟩
  · rintro ⟨rfl, rfl⟩
    exact ⟨[a], [b], [], [], ⟨⟨a, ch_iff.2 rfl, rfl⟩, rfl⟩, ⟨⟨b, ch_iff.2 rfl, rfl⟩, rfl⟩, rfl, rfl⟩

theorem survey_parse {c t : Str} {k : Caps} : (alts [lit (c! "PL"), lit (c! "T1"), lit (c! "T2"), lit (c! "T3")]).parse c t k ↔ (∃ s : Survey, c = [s.letter, s.digit]) ∧ k = [] := by
  constructor
  · rintro (h | h | h | h) <;> obtain ⟨rfl, rfl⟩ := lit2_parse.1 h
    · exact ⟨⟨.PL, rfl⟩, rfl⟩
    · exact ⟨⟨.T1, rfl⟩, rfl⟩
    · exact ⟨⟨.T2, rfl⟩, rfl⟩
    · exact ⟨⟨.T3, rfl⟩, rfl⟩
  · rintro ⟨⟨s, rfl⟩, rfl⟩
    cases s
    · exact .inl (lit2_parse.2 ⟨rfl, rfl⟩)
    · exact .inr (.inl (lit2_parse.2 ⟨rfl, rfl⟩))
    · exact .inr (.inr (.inl (lit2_parse.2 ⟨rfl, rfl⟩)))
    · exact .inr (.inr (.inr (lit2_parse.2 ⟨rfl, rfl⟩)))

theorem T2_parse {c t : Str} {k : Caps} : mpAlt2.parse c t k ↔ T2 c k := by
  constructor
  · rintro ⟨_, _, _, _, ⟨_, hs, rfl⟩, ⟨_, _, _, _, ⟨⟨x, hx, rfl⟩, rfl⟩, ⟨_, hn, rfl⟩, rfl, rfl⟩, rfl, rfl⟩
    obtain ⟨⟨s, rfl⟩, rfl⟩ := survey_parse.1 hs
    obtain ⟨⟨h1, h2⟩, rfl⟩ := times_parse.1 hn
    obtain ⟨d1, d2, d3, d4, rfl⟩ := len4 (Nat.le_of_eq h1.symm) (Nat.le_of_eq h1)
    simp only [List.forall_mem_cons] at h2
    cases ch_iff.1 hx
    exact T2.mk h2.1 h2.2.1 h2.2.2.1 h2.2.2.2.1
  · rintro ⟨h1, h2, h3, h4⟩
    exact ⟨[_, _], _, [_], [_], ⟨[], survey_parse.2 ⟨⟨_, rfl⟩, rfl⟩, rfl⟩, ⟨['S'], _, [], [_], ⟨⟨'S', by decide, rfl⟩, rfl⟩, ⟨[], times_parse.2 ⟨⟨rfl, by simp [h1, h2, h3, h4]⟩, rfl⟩, rfl⟩, rfl, rfl⟩, rfl, rfl⟩

theorem T3_parse {c t : Str} {k : Caps} : mpAlt3.parse c t k ↔ T3 c k := by
  constructor
  · rintro ⟨_, _, _, _, ⟨_, ⟨⟨-, h2, h3⟩, rfl⟩, rfl⟩, hs, rfl, rfl⟩
    obtain ⟨⟨n, rfl⟩, rfl⟩ := star_blank.1 hs
    exact T3.mk n (h2 8 rfl) fun c hc => trkCls_iff.1 (h3 c hc)
  · rintro ⟨n, h1, h2⟩
    exact ⟨_, _, [_], [], ⟨[], ⟨⟨Nat.zero_le _, fun _ e => by injection e; omega, fun c hc => trkCls_iff.2 (h2 c hc)⟩, rfl⟩, rfl⟩, star_blank.2 ⟨⟨n, rfl⟩, rfl⟩, rfl, rfl⟩

theorem T4_parse {c t : Str} {k : Caps} : mpAlt4.parse c t k ↔ T4 c k := by
  constructor
  · rintro ⟨_, _, _, _, ⟨_, ⟨⟨x, hx, rfl⟩, rfl⟩, rfl⟩, ⟨_, _, _, _, ⟨_, ⟨⟨y, hy, rfl⟩, rfl⟩, rfl⟩, ⟨_, _, _, _, ⟨_, ⟨⟨h, hh, rfl⟩, rfl⟩, rfl⟩, ⟨_, hn, rfl⟩, rfl, rfl⟩, rfl, rfl⟩, rfl, rfl⟩
    obtain ⟨⟨h1, h2⟩, rfl⟩ := times_parse.1 hn
    obtain ⟨d1, d2, d3, d4, rfl⟩ := len4 (Nat.le_of_eq h1.symm) (Nat.le_of_eq h1)
    simp only [List.forall_mem_cons] at h2
    cases ch_iff.1 hx
    exact T4.mk hy hh h2.1 h2.2.1 h2.2.2.1 h2.2.2.2.1
  · rintro ⟨hy, hh, h1, h2, h3, h4⟩
    exact ⟨['_'], _, [_], _, ⟨[], ⟨⟨'_', by decide, rfl⟩, rfl⟩, rfl⟩, ⟨[_], _, [_], _, ⟨[], ⟨⟨_, hy, rfl⟩, rfl⟩, rfl⟩, ⟨[_], _, [_], _, ⟨[], ⟨⟨_, hh, rfl⟩, rfl⟩, rfl⟩, ⟨[], times_parse.2 ⟨⟨rfl, by simp [h1, h2, h3, h4]⟩, rfl⟩, rfl⟩, rfl, rfl⟩, rfl, rfl⟩, rfl, rfl⟩

theorem T5_parse {c t : Str} {k : Caps} : (star (ch ' ')).parse c t k ↔ T5 c k := by
  rw [star_blank]
  constructor
  · rintro ⟨⟨n, rfl⟩, rfl⟩; exact .mk n
  · rintro ⟨n⟩; exact ⟨⟨n, rfl⟩, rfl⟩

/-! ### no line feeds, and at most one reading -/

theorem survey_nl (s : Survey) : s.letter ≠ '\n' ∧ s.digit ≠ '\n' := by cases s <;> decide
theorem half_nl {c : Char} (h : halfCls c = true) : c ≠ '\n' := by rintro rfl; exact absurd h (by decide)
theorem rng_nl {a b c : Char} (h : rng a b c = true) (hb : rng a b '\n' = false) : c ≠ '\n' := by rintro rfl; rw [hb] at h; simp at h

theorem T1.nl {r : Str} {k : Caps} (h : T1 r k) : '\n' ∉ r := by
  obtain ⟨h1, h2, h3, h4, h5, h6, h7⟩ := h
  rename_i o
  have h7 : o ≠ '\n' := by
    rintro rfl
    rcases h7 with h | h
    · exact absurd h (by decide)
    · exact absurd h (by decide)
  simp [Ne.symm (rng_nl h1 (by decide)), Ne.symm (dec_nl h2), Ne.symm (dec_nl h3), Ne.symm (half_nl h4), Ne.symm (alnum_nl h5), Ne.symm (dec_nl h6), Ne.symm h7]
theorem T2.nl {r : Str} {k : Caps} (h : T2 r k) : '\n' ∉ r := by
  obtain ⟨h1, h2, h3, h4⟩ := h
  rename_i s _ _ _ _
  simp [Ne.symm (survey_nl s).1, Ne.symm (survey_nl s).2, Ne.symm (dec_nl h1), Ne.symm (dec_nl h2), Ne.symm (dec_nl h3), Ne.symm (dec_nl h4)]
theorem blanks_nl {n : Nat} : '\n' ∉ spaces n := fun h => absurd (List.mem_replicate.1 h).2 (by decide)
theorem trk_nl {t : Str} (h : ∀ c ∈ t, c ∈ trkChars) : '\n' ∉ t := fun h' => absurd (trkCls_iff.2 (h _ h')) (by decide)
theorem T3.nl {r : Str} {k : Caps} (h : T3 r k) : '\n' ∉ r := by
  obtain ⟨n, -, h2⟩ := h
  simp only [List.mem_append, not_or]
  exact ⟨trk_nl h2, blanks_nl⟩
theorem T4.nl {r : Str} {k : Caps} (h : T4 r k) : '\n' ∉ r := by
  obtain ⟨h1, h2, h3, h4, h5, h6⟩ := h
  simp [Ne.symm (rng_nl h1 (by decide)), Ne.symm (half_nl h2), Ne.symm (alnum_nl h3), Ne.symm (alnum_nl h4), Ne.symm (alnum_nl h5), Ne.symm (alnum_nl h6)]
theorem T5.nl {r : Str} {k : Caps} (h : T5 r k) : '\n' ∉ r := by cases h; exact blanks_nl

theorem T1.unique {r : Str} {k k' : Caps} (h : T1 r k) (h' : T1 r k') : k = k' := by
  generalize e : r = b at h'
  obtain ⟨⟩ := h; obtain ⟨⟩ := h'
  simp only [List.cons.injEq, and_true] at e
  obtain ⟨rfl, rfl, rfl, rfl, rfl, rfl, rfl⟩ := e
  rfl
theorem T2.unique {r : Str} {k k' : Caps} (h : T2 r k) (h' : T2 r k') : k = k' := by
  generalize e : r = b at h'
  obtain ⟨⟩ := h; obtain ⟨⟩ := h'
  simp only [List.cons.injEq, and_true, true_and] at e
  obtain ⟨e1, e2, rfl, rfl, rfl, rfl⟩ := e
  rw [e1, e2]
theorem T3.unique {r : Str} {k k' : Caps} (h : T3 r k) (h' : T3 r k') : k = k' := by
  generalize e : r = b at h'
  obtain ⟨n, -, h1⟩ := h; obtain ⟨n', -, h2⟩ := h'
  have hb : ∀ n, ∀ c ∈ (spaces n).head?, trkCls c = false := by
    intro n c hc
    cases n with
    | zero => simp [spaces] at hc
    | succ n => simp [spaces, List.replicate_succ] at hc; subst hc; decide
  rw [(split_unique (p := trkCls) (fun c hc => trkCls_iff.2 (h1 c hc)) (fun c hc => trkCls_iff.2 (h2 c hc)) (hb _) (hb _) e).1]
theorem T4.unique {r : Str} {k k' : Caps} (h : T4 r k) (h' : T4 r k') : k = k' := by
  generalize e : r = b at h'
  obtain ⟨⟩ := h; obtain ⟨⟩ := h'
  simp only [List.cons.injEq, and_true, true_and] at e
  obtain ⟨rfl, rfl, rfl, rfl, rfl, rfl⟩ := e
  rfl
theorem T5.unique {r : Str} {k k' : Caps} (h : T5 r k) (h' : T5 r k') : k = k' := by
  generalize e : r = b at h'
  cases h; cases h'; rfl

/-! ### the whole pattern -/

/-- columns 1-5, then columns 6-12 read by `T` -/
def Read (T : Str → Caps → Prop) (s : Str) (m : Caps) : Prop := ∃ a k1 r k2 e, H5 a k1 ∧ T r k2 ∧ End e ∧ s = a ++ r ++ e ∧ m = k1 ++ k2

theorem read_unique {T T' : Str → Caps → Prop} (hn : ∀ {r k}, T r k → '\n' ∉ r) (hn' : ∀ {r k}, T' r k → '\n' ∉ r) {a a' r r' e e' : Str} {k1 k1' : Caps} {k2 k2' : Caps}
    (h1 : H5 a k1) (h1' : H5 a' k1') (h2 : T r k2) (h2' : T' r' k2') (he : End e) (he' : End e') (h : a ++ r ++ e = a' ++ r' ++ e') : a = a' ∧ r = r' ∧ e = e' := by
  rw [List.append_assoc, List.append_assoc] at h
  obtain ⟨e1, e2⟩ := List.append_inj h (by rw [h1.len, h1'.len])
  exact ⟨e1, end_cut (hn h2) (hn' h2') he he' e2⟩

theorem read_match {r : Re} {T : Str → Caps → Prop} (hp : ∀ {c t k}, r.parse c t k ↔ T c k) (hn : ∀ {r k}, T r k → '\n' ∉ r) (hu : ∀ {r k k'}, T r k → T r k' → k = k') {s : Str} {m : Caps} :
    reMatch (.seq hd (.seq r .eos)) s = some m ↔ Read T s m := by
  refine match_unique ?_ ?_ ?_
  · rintro c t k ⟨c1, c2, k1, k2, h1, ⟨c3, c4, k3, k4, h3, ⟨rfl, rfl, he⟩, rfl, rfl⟩, rfl, rfl⟩
    exact ⟨c1, k1, c3, k3, t, hd_parse.1 h1, hp.1 h3, he, by simp, by simp⟩
  · rintro s k ⟨a, k1, r, k2, e, h1, h2, he, rfl, rfl⟩
    exact ⟨a ++ r, e, rfl, a, r, k1, k2, hd_parse.2 h1, ⟨r, [], k2, [], hp.2 h2, ⟨rfl, rfl, he⟩, by simp, by simp⟩, rfl, rfl⟩
  · rintro s k k' ⟨a, k1, r, k2, e, h1, h2, he, rfl, rfl⟩ ⟨a', k1', r', k2', e', h1', h2', he', hs, rfl⟩
    obtain ⟨rfl, rfl, rfl⟩ := read_unique (T := T) (T' := T) hn hn h1 h1' h2 h2' he he' hs
    rw [h1.unique h1', hu h2 h2']

theorem minor_pick (s : Str) : reMatch minorplanetPackedIDRegex s =
    (reMatch (.seq hd (.seq mpAlt1 .eos)) s).or ((reMatch (.seq hd (.seq mpAlt2 .eos)) s).or ((reMatch (.seq hd (.seq mpAlt3 .eos)) s).or
      ((reMatch (.seq hd (.seq mpAlt4 .eos)) s).or (reMatch (.seq hd (.seq (star (ch ' ')) .eos)) s)))) := by
  rw [← match_pick hd_len, ← match_pick hd_len, ← match_pick hd_len, ← match_pick hd_len]
  rfl

theorem read_none {r : Re} {T : Str → Caps → Prop} (h : ∀ {s m}, reMatch r s = some m ↔ Read T s m) {s : Str} : reMatch r s = none ↔ ∀ m, ¬ Read T s m := by
  rw [Option.eq_none_iff_forall_ne_some]
  exact forall_congr' fun m => not_congr h

theorem m1 {s : Str} {m : Caps} : reMatch (.seq hd (.seq mpAlt1 .eos)) s = some m ↔ Read T1 s m := read_match T1_parse T1.nl T1.unique
theorem m2 {s : Str} {m : Caps} : reMatch (.seq hd (.seq mpAlt2 .eos)) s = some m ↔ Read T2 s m := read_match T2_parse T2.nl T2.unique
theorem m3 {s : Str} {m : Caps} : reMatch (.seq hd (.seq mpAlt3 .eos)) s = some m ↔ Read T3 s m := read_match T3_parse T3.nl T3.unique
theorem m4 {s : Str} {m : Caps} : reMatch (.seq hd (.seq mpAlt4 .eos)) s = some m ↔ Read T4 s m := read_match T4_parse T4.nl T4.unique
theorem m5 {s : Str} {m : Caps} : reMatch (.seq hd (.seq (star (ch ' ')) .eos)) s = some m ↔ Read T5 s m := read_match T5_parse T5.nl T5.unique

/-- a provisional designation in columns 6-12 -/
def T124 (r : Str) (k : Caps) : Prop := T1 r k ∨ T2 r k ∨ T4 r k

theorem T124.nl {r : Str} {k : Caps} (h : T124 r k) : '\n' ∉ r := by
  rcases h with h | h | h
  · exact h.nl
  · exact h.nl
  · exact h.nl

theorem t12 {r : Str} {k k' : Caps} (h : T1 r k) (h' : T2 r k') : False := by
  generalize e : r = b at h'
  obtain ⟨h1⟩ := h; obtain ⟨⟩ := h'
  rename_i s _ _ _ _ _ _ _ _
  injection e with e1
  subst e1
  cases s <;> exact absurd h1 (by decide)
theorem t14 {r : Str} {k k' : Caps} (h : T1 r k) (h' : T4 r k') : False := by
  generalize e : r = b at h'
  obtain ⟨h1⟩ := h; obtain ⟨⟩ := h'
  injection e with e1
  subst e1
  exact absurd h1 (by decide)
theorem t24 {r : Str} {k k' : Caps} (h : T2 r k) (h' : T4 r k') : False := by
  generalize e : r = b at h'
  cases h with
  | @mk s =>
    obtain ⟨⟩ := h'
    injection e with e1
    cases s <;> exact absurd e1 (by decide)
theorem t34 {r : Str} {k k' : Caps} (h : T3 r k) (h' : T4 r k') : False := by
  generalize e : r = b at h'
  cases h with
  | @mk t n _ h2 =>
  obtain ⟨⟩ := h'
  cases t with
  | nil =>
    cases n with
    | zero => simp [spaces] at e
    | succ n => simp only [spaces, List.replicate_succ, List.nil_append] at e; injection e with e1; exact absurd e1 (by decide)
  | cons c t => injection e with e1; exact absurd (trkCls_iff.2 (h2 c List.mem_cons_self)) (by rw [e1]; decide)

theorem T124.unique {r : Str} {k k' : Caps} (h : T124 r k) (h' : T124 r k') : k = k' := by
  rcases h with h | h | h <;> rcases h' with h' | h' | h'
  · exact h.unique h'
  · exact (t12 h h').elim
  · exact (t14 h h').elim
  · exact (t12 h' h).elim
  · exact h.unique h'
  · exact (t24 h h').elim
  · exact (t14 h' h).elim
  · exact (t24 h' h).elim
  · exact h.unique h'

/-- what the whole pattern captures -/
theorem minor_match {s : Str} {m : Caps} : reMatch minorplanetPackedIDRegex s = some m ↔
    Read T124 s m ∨ Read (fun r k => T3 r k ∧ ∀ k', ¬ T124 r k') s m := by
  have cut : ∀ {T T' : Str → Caps → Prop} {m m' : Caps}, (∀ {r k}, T r k → '\n' ∉ r) → (∀ {r k}, T' r k → '\n' ∉ r) → (∀ {r k k'}, T r k → T' r k' → False) → Read T s m → Read T' s m' → False := by
    rintro T T' m m' hn hn' hd ⟨a, k1, r, k2, e, h1, h2, he, rfl, rfl⟩ ⟨a', k1', r', k2', e', h1', h2', he', hs, rfl⟩
    obtain ⟨rfl, rfl, rfl⟩ := read_unique (T := T) (T' := T') hn hn' h1 h1' h2 h2' he he' hs
    exact hd h2 h2'
  have mono : ∀ {T T' : Str → Caps → Prop} {m : Caps}, (∀ {r k}, T r k → T' r k) → Read T s m → Read T' s m := by
    rintro T T' m h ⟨a, k1, r, k2, e, h1, h2, he, rfl, rfl⟩
    exact ⟨a, k1, r, k2, e, h1, h h2, he, rfl, rfl⟩
  rw [minor_pick]
  cases e1 : reMatch (.seq hd (.seq mpAlt1 .eos)) s with
  | some m' =>
    have r1 := m1.1 e1
    simp only [Option.some_or, Option.some.injEq]
    constructor
    · rintro rfl; exact .inl (mono .inl r1)
    · rintro (h | h)
      · have hm := mono (T' := T124) .inl r1
        obtain ⟨a, k1, r, k2, e, h1, h2, he, rfl, rfl⟩ := hm
        obtain ⟨a', k1', r', k2', e', h1', h2', he', hs, rfl⟩ := h
        obtain ⟨rfl, rfl, rfl⟩ := read_unique (T := T124) (T' := T124) T124.nl T124.nl h1 h1' h2 h2' he he' hs
        rw [h1.unique h1', h2.unique h2']
      · exact (cut T1.nl (fun h => h.1.nl) (fun h h' => h'.2 _ (.inl h)) r1 h).elim
  | none =>
    have n1 := (read_none m1).1 e1
    cases e2 : reMatch (.seq hd (.seq mpAlt2 .eos)) s with
    | some m' =>
      have r1 := m2.1 e2
      simp only [Option.some_or, Option.none_or, Option.some.injEq]
      constructor
      · rintro rfl; exact .inl (mono (.inr ∘ .inl) r1)
      · rintro (h | h)
        · have hm := mono (T' := T124) (.inr ∘ .inl) r1
          obtain ⟨a, k1, r, k2, e, h1, h2, he, rfl, rfl⟩ := hm
          obtain ⟨a', k1', r', k2', e', h1', h2', he', hs, rfl⟩ := h
          obtain ⟨rfl, rfl, rfl⟩ := read_unique (T := T124) (T' := T124) T124.nl T124.nl h1 h1' h2 h2' he he' hs
          rw [h1.unique h1', h2.unique h2']
        · exact (cut T2.nl (fun h => h.1.nl) (fun h h' => h'.2 _ (.inr (.inl h))) r1 h).elim
    | none =>
      have n2 := (read_none m2).1 e2
      cases e3 : reMatch (.seq hd (.seq mpAlt3 .eos)) s with
      | some m' =>
        have r1 := m3.1 e3
        simp only [Option.some_or, Option.none_or, Option.some.injEq]
        constructor
        · rintro rfl
          obtain ⟨a, k1, r, k2, e, h1, h2, he, rfl, rfl⟩ := r1
          refine .inr ⟨a, k1, r, k2, e, h1, ⟨h2, ?_⟩, he, rfl, rfl⟩
          rintro k' (h | h | h)
          · exact n1 _ ⟨a, k1, r, k', e, h1, h, he, rfl, rfl⟩
          · exact n2 _ ⟨a, k1, r, k', e, h1, h, he, rfl, rfl⟩
          · exact t34 h2 h
        · rintro (h | h)
          · obtain ⟨a, k1, r, k2, e, h1, h2, he, hs, rfl⟩ := h
            rcases h2 with h2 | h2 | h2
            · exact (n1 _ ⟨a, k1, r, k2, e, h1, h2, he, hs, rfl⟩).elim
            · exact (n2 _ ⟨a, k1, r, k2, e, h1, h2, he, hs, rfl⟩).elim
            · exact (cut T3.nl T4.nl t34 r1 ⟨a, k1, r, k2, e, h1, h2, he, hs, rfl⟩).elim
          · have := m3.2 (mono (fun h => h.1) h)
            rw [e3] at this
            injection this
      | none =>
        have n3 := (read_none m3).1 e3
        simp only [Option.none_or]
        have n5 : reMatch (.seq hd (.seq (star (ch ' ')) .eos)) s = none := by
          rw [read_none m5]
          rintro m ⟨a, k1, r, k2, e, h1, ⟨n⟩, he, rfl, rfl⟩
          exact n3 _ ⟨a, k1, _, _, e, h1, T3.mk (t := []) n (by simp) (by simp), he, rfl, rfl⟩
        rw [n5, Option.or_none, m4]
        constructor
        · exact fun h => .inl (mono (.inr ∘ .inr) h)
        · rintro (h | h)
          · obtain ⟨a, k1, r, k2, e, h1, h2, he, hs, rfl⟩ := h
            rcases h2 with h2 | h2 | h2
            · exact (n1 _ ⟨a, k1, r, k2, e, h1, h2, he, hs, rfl⟩).elim
            · exact (n2 _ ⟨a, k1, r, k2, e, h1, h2, he, hs, rfl⟩).elim
            · exact ⟨a, k1, r, k2, e, h1, h2, he, hs, rfl⟩
          · exact (n3 _ (mono (fun h => h.1) h)).elim

end Verif.Unpacking
