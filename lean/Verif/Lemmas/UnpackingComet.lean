import Verif.Lemmas.UnpackingMinor
/-! The packed patterns of comets and satellites. -/
set_option linter.unusedSimpArgs false
namespace Verif.Unpacking
open Verif Verif.PackUtil Verif.Spec Verif.Spec.Packing Verif.Spec.Unpacking Verif.Packing

theorem az_not {c : Char} (h : rng 'a' 'z' c = true) : c ≠ '0' ∧ rng 'A' 'Z' c = false ∧ c ≠ ' ' ∧ c ≠ '\n' := by
  have hc : c.toNat < 123 := by
    simp only [rng, Bool.and_eq_true, decide_eq_true_eq] at h
    have := h.2; have e : 'z'.toNat = 122 := rfl; omega
  have hall : ∀ n : Fin 123, rng 'a' 'z' (Char.ofNat n) = true → Char.ofNat n ≠ '0' ∧ rng 'A' 'Z' (Char.ofNat n) = false ∧ Char.ofNat n ≠ ' ' ∧ Char.ofNat n ≠ '\n' := by decide +kernel
  have := hall ⟨c.toNat, hc⟩ (by simpa [Char.ofNat_toNat] using h)
  simpa [Char.ofNat_toNat] using this

/-! ### comets -/

inductive C4 : Str → Caps → Prop
  | blank : C4 (spaces 4) []
  | number {a b c d : Char} : isDec a = true → isDec b = true → isDec c = true → isDec d = true → C4 [a, b, c, d] [(1, [a, b, c, d])]

theorem C4.len {a : Str} {k : Caps} (h : C4 a k) : a.length = 4 := by cases h <;> rfl
theorem C4.unique {a : Str} {k k' : Caps} (h : C4 a k) (h' : C4 a k') : k = k' := by
  generalize e : a = b at h'
  cases h with
  | blank =>
    cases h' with
    | blank => rfl
    | number h => injection e with e1; exact absurd (e1 ▸ h) (by decide)
  | number h =>
    cases h' with
    | blank => injection e with e1; exact absurd (e1 ▸ h) (by decide)
    | number => simp only [List.cons.injEq, and_true] at e; obtain ⟨rfl, rfl, rfl, rfl⟩ := e; rfl

theorem C4_parse {c t : Str} {k : Caps} : (Re.alt (times 4 (ch ' ')) (.grp 1 (times 4 isDec))).parse c t k ↔ C4 c k := by
  constructor
  · rintro (h | ⟨_, h, rfl⟩)
    · obtain ⟨⟨h1, h2⟩, rfl⟩ := times_parse.1 h
      rw [all_ch h1 h2]; exact .blank
    · obtain ⟨⟨h1, h2⟩, rfl⟩ := times_parse.1 h
      obtain ⟨d1, d2, d3, d4, rfl⟩ := len4 (Nat.le_of_eq h1.symm) (Nat.le_of_eq h1)
      simp only [List.forall_mem_cons] at h2
      exact .number h2.1 h2.2.1 h2.2.2.1 h2.2.2.2.1
  · rintro (_ | ⟨h1, h2, h3, h4⟩)
    · exact .inl (times_parse.2 ⟨⟨rfl, by simp [spaces, ch]⟩, rfl⟩)
    · exact .inr ⟨[], times_parse.2 ⟨⟨rfl, by simp [h1, h2, h3, h4]⟩, rfl⟩, rfl⟩

/-- the last column -/
def lastCaps (z : Char) : Caps := if z = '0' then [] else if rng 'A' 'Z' z then [(8, [z])] else [(9, [z])]

inductive C7 : Str → Caps → Prop
  | body {c y1 y2 h l d z : Char} : alnum c = true → isDec y1 = true → isDec y2 = true → halfCls h = true → alnum l = true → isDec d = true →
      (z = '0' ∨ rng 'A' 'Z' z = true ∨ rng 'a' 'z' z = true) →
      C7 [c, y1, y2, h, l, d, z] ([(3, [c]), (4, [y1, y2]), (5, [h]), (6, [l]), (7, [d])] ++ lastCaps z)
  | frag {a b : Char} : (rng 'a' 'z' a = true ∨ a = ' ') → rng 'a' 'z' b = true → C7 (spaces 5 ++ [a, b]) [(10, [a]), (11, [b])]
  | blank (n : Nat) : C7 (spaces n) []

theorem C7.nl {r : Str} {k : Caps} (h : C7 r k) : '\n' ∉ r := by
  cases h with
  | body h1 h2 h3 h4 h5 h6 h7 =>
    rename_i z
    have h7 : z ≠ '\n' := by
      rintro rfl
      rcases h7 with h | h | h <;> exact absurd h (by decide)
    simp [Ne.symm (alnum_nl h1), Ne.symm (dec_nl h2), Ne.symm (dec_nl h3), Ne.symm (half_nl h4), Ne.symm (alnum_nl h5), Ne.symm (dec_nl h6), Ne.symm h7]
  | frag h1 h2 =>
    rename_i a b
    have h1 : a ≠ '\n' := by
      rintro rfl
      rcases h1 with h | h <;> exact absurd h (by decide)
    simp only [List.mem_append, not_or]
    exact ⟨blanks_nl, by simp [Ne.symm h1, Ne.symm (az_not h2).2.2.2]⟩
  | blank n => exact blanks_nl

theorem C7.unique {r : Str} {k k' : Caps} (h : C7 r k) (h' : C7 r k') : k = k' := by
  generalize e : r = b at h'
  have hs : ∀ {c : Char} {n : Nat} {u : Str}, alnum c = true → c :: u ≠ spaces n := by
    intro c n u hc e
    have : c ∈ spaces n := e ▸ List.mem_cons_self
    exact blank_not hc (List.mem_replicate.1 this).2
  have hf : ∀ {a b : Char} {n : Nat}, rng 'a' 'z' b = true → spaces 5 ++ [a, b] ≠ spaces n := by
    intro a b n hb e
    have : b ∈ spaces n := e ▸ (by simp)
    exact (az_not hb).2.2.1 (List.mem_replicate.1 this).2
  cases h with
  | body h1 =>
    cases h' with
    | body => simp only [List.cons.injEq, and_true] at e; obtain ⟨rfl, rfl, rfl, rfl, rfl, rfl, rfl⟩ := e; rfl
    | frag => injection e with e1; exact absurd e1 (blank_not h1)
    | blank n => exact absurd e (hs h1)
  | frag _ h2 =>
    cases h' with
    | body h1 => injection e with e1; exact absurd e1.symm (blank_not h1)
    | frag => have := List.append_cancel_left e; simp only [List.cons.injEq, and_true] at this; obtain ⟨rfl, rfl⟩ := this; rfl
    | blank n => exact absurd e (hf h2)
  | blank n =>
    cases h' with
    | body h1 => exact absurd e.symm (hs h1)
    | frag _ h2 => exact absurd e.symm (hf h2)
    | blank n => rfl

def cTail : Re := alts [cat [.grp 3 (.cls alnum), .grp 4 (times 2 isDec), .grp 5 (.cls halfCls),
                  .grp 6 (.cls alnum), .grp 7 (.cls isDec),
                  alts [.cls (ch '0'), .grp 8 (.cls (rng 'A' 'Z')), .grp 9 (.cls (rng 'a' 'z'))]],
             cat [times 5 (ch ' '), .grp 10 (.cls fun c => rng 'a' 'z' c || ch ' ' c),
                  .grp 11 (.cls (rng 'a' 'z'))],
             cat [star (ch ' '), .eos]]

theorem AZ_zero {z : Char} (h : rng 'A' 'Z' z = true) : z ≠ '0' := by rintro rfl; exact absurd h (by decide)

theorem C7_parse {c t : Str} {k : Caps} (ht : End t) : cTail.parse c t k ↔ C7 c k := by
  constructor
  · rintro (h | h | h)
    · obtain ⟨_, _, _, _, ⟨_, ⟨⟨c, hc, rfl⟩, rfl⟩, rfl⟩, ⟨_, _, _, _, ⟨_, hy, rfl⟩, ⟨_, _, _, _, ⟨_, ⟨⟨h, hh, rfl⟩, rfl⟩, rfl⟩, ⟨_, _, _, _, ⟨_, ⟨⟨l, hl, rfl⟩, rfl⟩, rfl⟩, ⟨_, _, _, _, ⟨_, ⟨⟨d, hd, rfl⟩, rfl⟩, rfl⟩, ho, rfl, rfl⟩, rfl, rfl⟩, rfl, rfl⟩, rfl, rfl⟩, rfl, rfl⟩ := h
      obtain ⟨⟨h1, h2⟩, rfl⟩ := times_parse.1 hy
      obtain ⟨y1, y2, rfl⟩ := len2 (Nat.le_of_eq h1.symm) (Nat.le_of_eq h1)
      simp only [List.forall_mem_cons] at h2
      rcases ho with ⟨⟨o, ho, rfl⟩, rfl⟩ | ⟨_, ⟨⟨o, ho, rfl⟩, rfl⟩, rfl⟩ | ⟨_, ⟨⟨o, ho, rfl⟩, rfl⟩, rfl⟩
      · cases ch_iff.1 ho
        exact C7.body hc h2.1 h2.2.1 hh hl hd (.inl rfl)
      · have := C7.body hc h2.1 h2.2.1 hh hl hd (.inr (.inl ho))
        rw [lastCaps, if_neg (AZ_zero ho), if_pos ho] at this
        exact this
      · have := C7.body hc h2.1 h2.2.1 hh hl hd (.inr (.inr ho))
        rw [lastCaps, if_neg (az_not ho).1, if_neg (by simp [(az_not ho).2.1])] at this
        exact this
    · obtain ⟨_, _, _, _, h5, ⟨_, _, _, _, ⟨_, ⟨⟨a, ha, rfl⟩, rfl⟩, rfl⟩, ⟨_, ⟨⟨b, hb, rfl⟩, rfl⟩, rfl⟩, rfl, rfl⟩, rfl, rfl⟩ := h
      obtain ⟨⟨h1, h2⟩, rfl⟩ := times_parse.1 h5
      rw [all_ch h1 h2]
      simp only [Bool.or_eq_true, ch_iff] at ha
      exact C7.frag ha hb
    · obtain ⟨_, _, _, _, h1, ⟨rfl, rfl, -⟩, rfl, rfl⟩ := h
      obtain ⟨⟨n, rfl⟩, rfl⟩ := star_blank.1 h1
      simpa using C7.blank n
  · intro h
    cases h with
    | body hc h1 h2 hh hl hd hz =>
      refine .inl ⟨[_], _, [_], _, ⟨[], ⟨⟨_, hc, rfl⟩, rfl⟩, rfl⟩, ⟨[_, _], _, [_], _, ⟨[], times_parse.2 ⟨⟨rfl, by simp [h1, h2]⟩, rfl⟩, rfl⟩, ⟨[_], _, [_], _, ⟨[], ⟨⟨_, hh, rfl⟩, rfl⟩, rfl⟩, ⟨[_], _, [_], _, ⟨[], ⟨⟨_, hl, rfl⟩, rfl⟩, rfl⟩, ⟨[_], _, [_], _, ⟨[], ⟨⟨_, hd, rfl⟩, rfl⟩, rfl⟩, ?_, rfl, rfl⟩, rfl, rfl⟩, rfl, rfl⟩, rfl, rfl⟩, rfl, rfl⟩
      rcases hz with rfl | ho | ho
      · exact .inl ⟨⟨'0', by decide, rfl⟩, rfl⟩
      · rw [lastCaps, if_neg (AZ_zero ho), if_pos ho]
        exact .inr (.inl ⟨[], ⟨⟨_, ho, rfl⟩, rfl⟩, rfl⟩)
      · rw [lastCaps, if_neg (az_not ho).1, if_neg (by simp [(az_not ho).2.1])]
        exact .inr (.inr ⟨[], ⟨⟨_, ho, rfl⟩, rfl⟩, rfl⟩)
    | frag ha hb =>
      exact .inr (.inl ⟨spaces 5, _, [], _, times_parse.2 ⟨⟨rfl, by simp [spaces, ch]⟩, rfl⟩, ⟨[_], [_], [_], [_], ⟨[], ⟨⟨_, by simp only [Bool.or_eq_true, ch_iff]; exact ha, rfl⟩, rfl⟩, rfl⟩, ⟨[], ⟨⟨_, hb, rfl⟩, rfl⟩, rfl⟩, rfl, rfl⟩, rfl, rfl⟩)
    | blank n =>
      exact .inr (.inr ⟨spaces n, [], [], [], star_blank.2 ⟨⟨n, rfl⟩, rfl⟩, ⟨rfl, rfl, ht⟩, by simp, rfl⟩)

/-- a comet's columns -/
def ReadC (s : Str) (m : Caps) : Prop := ∃ a k1 ty r k2 e, C4 a k1 ∧ ty ∈ c! "APCDXI" ∧ C7 r k2 ∧ End e ∧ s = a ++ [ty] ++ r ++ e ∧ m = k1 ++ [(2, [ty])] ++ k2

theorem comet_match {s : Str} {m : Caps} : reMatch cometPackedIDRegex s = some m ↔ ReadC s m := by
  refine match_unique ?_ ?_ ?_
  · rintro c t k ⟨c1, c2, k1, k2, h1, ⟨c3, c4, k3, k4, ⟨_, ⟨⟨ty, hty, rfl⟩, rfl⟩, rfl⟩, ⟨c5, c6, k5, k6, h5, ⟨rfl, rfl, he⟩, rfl, rfl⟩, rfl, rfl⟩, rfl, rfl⟩
    exact ⟨c1, k1, ty, c5, k5, t, C4_parse.1 h1, types_iff.1 hty, (C7_parse he).1 h5, he, by simp, by simp⟩
  · rintro s k ⟨a, k1, ty, r, k2, e, h1, hty, h2, he, rfl, rfl⟩
    exact ⟨a ++ [ty] ++ r, e, rfl, a, [ty] ++ r, k1, [(2, [ty])] ++ k2, C4_parse.2 h1, ⟨[ty], r, [_], k2, ⟨[], ⟨⟨ty, types_iff.2 hty, rfl⟩, rfl⟩, rfl⟩, ⟨r, [], k2, [], (C7_parse he).2 h2, ⟨rfl, rfl, he⟩, by simp, by simp⟩, rfl, rfl⟩, by simp, by simp⟩
  · rintro s k k' ⟨a, k1, ty, r, k2, e, h1, hty, h2, he, rfl, rfl⟩ ⟨a', k1', ty', r', k2', e', h1', hty', h2', he', hs, rfl⟩
    simp only [List.append_assoc] at hs
    obtain ⟨e1, e2⟩ := List.append_inj hs (by rw [h1.len, h1'.len])
    subst e1
    clear hs
    simp only [List.cons_append, List.nil_append, List.cons.injEq] at e2
    obtain ⟨rfl, hs⟩ := e2
    obtain ⟨rfl, rfl⟩ := end_cut h2.nl h2'.nl he he' hs
    rw [h1.unique h1', h2.unique h2']

/-! ### satellites -/

inductive S4 : Str → Caps → Prop
  | blank : S4 (spaces 4) []
  | number {p : Planet} {b c d : Char} : isDec b = true → isDec c = true → isDec d = true → S4 [p.letter, b, c, d] [(1, [p.letter]), (2, [b, c, d])]

theorem S4.len {a : Str} {k : Caps} (h : S4 a k) : a.length = 4 := by cases h <;> rfl
theorem planet_ne (p : Planet) : p.letter ≠ ' ' ∧ p.letter ≠ '\n' := by cases p <;> decide
theorem S4.unique {a : Str} {k k' : Caps} (h : S4 a k) (h' : S4 a k') : k = k' := by
  generalize e : a = b at h'
  cases h with
  | blank =>
    cases h' with
    | blank => rfl
    | @number p => injection e with e1; exact absurd e1.symm (planet_ne p).1
  | @number p =>
    cases h' with
    | blank => injection e with e1; exact absurd e1 (planet_ne p).1
    | number => simp only [List.cons.injEq, and_true] at e; obtain ⟨e1, rfl, rfl, rfl⟩ := e; rw [e1]

theorem S4_parse {c t : Str} {k : Caps} : (Re.alt (times 4 (ch ' ')) (cat [.grp 1 (.cls (oneOf (c! "JSUN"))), .grp 2 (times 3 isDec)])).parse c t k ↔ S4 c k := by
  constructor
  · rintro (h | ⟨_, _, _, _, ⟨_, ⟨⟨p, hp, rfl⟩, rfl⟩, rfl⟩, ⟨_, h, rfl⟩, rfl, rfl⟩)
    · obtain ⟨⟨h1, h2⟩, rfl⟩ := times_parse.1 h
      rw [all_ch h1 h2]; exact .blank
    · obtain ⟨⟨h1, h2⟩, rfl⟩ := times_parse.1 h
      obtain ⟨d1, d2, d3, rfl⟩ := len3 (Nat.le_of_eq h1.symm) (Nat.le_of_eq h1)
      simp only [List.forall_mem_cons] at h2
      obtain ⟨p, rfl⟩ := planet_iff.1 hp
      exact .number h2.1 h2.2.1 h2.2.2.1
  · intro h
    cases h with
    | blank => exact .inl (times_parse.2 ⟨⟨rfl, by simp [spaces, ch]⟩, rfl⟩)
    | number h1 h2 h3 => exact .inr ⟨[_], _, [_], [_], ⟨[], ⟨⟨_, planet_iff.2 ⟨_, rfl⟩, rfl⟩, rfl⟩, rfl⟩, ⟨[], times_parse.2 ⟨⟨rfl, by simp [h1, h2, h3]⟩, rfl⟩, rfl⟩, rfl, rfl⟩

inductive S7 : Str → Caps → Prop
  | body {c y1 y2 l d : Char} {p : Planet} : alnum c = true → isDec y1 = true → isDec y2 = true → alnum l = true → isDec d = true →
      S7 [c, y1, y2, p.letter, l, d, '0'] [(3, [c]), (4, [y1, y2]), (5, [p.letter]), (6, [l]), (7, [d])]
  | blank (n : Nat) : S7 (spaces n) []

theorem S7.nl {r : Str} {k : Caps} (h : S7 r k) : '\n' ∉ r := by
  cases h with
  | @body c y1 y2 l d p h1 h2 h3 h5 h6 =>
    simp [Ne.symm (alnum_nl h1), Ne.symm (dec_nl h2), Ne.symm (dec_nl h3), Ne.symm (planet_ne p).2, Ne.symm (alnum_nl h5), Ne.symm (dec_nl h6)]
  | blank n => exact blanks_nl

theorem S7.unique {r : Str} {k k' : Caps} (h : S7 r k) (h' : S7 r k') : k = k' := by
  generalize e : r = b at h'
  have hs : ∀ {c : Char} {n : Nat} {u : Str}, alnum c = true → c :: u ≠ spaces n := by
    intro c n u hc e
    have : c ∈ spaces n := e ▸ List.mem_cons_self
    exact blank_not hc (List.mem_replicate.1 this).2
  cases h with
  | body h1 =>
    cases h' with
    | body => simp only [List.cons.injEq, and_true] at e; obtain ⟨rfl, rfl, rfl, e1, rfl, rfl⟩ := e; rw [e1]
    | blank n => exact absurd e (hs h1)
  | blank n =>
    cases h' with
    | body h1 => exact absurd e.symm (hs h1)
    | blank n => rfl

def sTail : Re := .alt (cat [.grp 3 (.cls alnum), .grp 4 (times 2 isDec), .grp 5 (.cls (oneOf (c! "JSUN"))),
                  .grp 6 (.cls alnum), .grp 7 (.cls isDec), .cls (ch '0'), .eos])
            (cat [star (ch ' '), .eos])

theorem S7_parse {c t : Str} {k : Caps} (ht : End t) : sTail.parse c t k ↔ S7 c k := by
  constructor
  · rintro (h | h)
    · obtain ⟨_, _, _, _, ⟨_, ⟨⟨c, hc, rfl⟩, rfl⟩, rfl⟩, ⟨_, _, _, _, ⟨_, hy, rfl⟩, ⟨_, _, _, _, ⟨_, ⟨⟨h, hh, rfl⟩, rfl⟩, rfl⟩, ⟨_, _, _, _, ⟨_, ⟨⟨l, hl, rfl⟩, rfl⟩, rfl⟩, ⟨_, _, _, _, ⟨_, ⟨⟨d, hd, rfl⟩, rfl⟩, rfl⟩, ⟨_, _, _, _, ⟨⟨z, hz, rfl⟩, rfl⟩, ⟨rfl, rfl, -⟩, rfl, rfl⟩, rfl, rfl⟩, rfl, rfl⟩, rfl, rfl⟩, rfl, rfl⟩, rfl, rfl⟩ := h
      obtain ⟨⟨h1, h2⟩, rfl⟩ := times_parse.1 hy
      obtain ⟨y1, y2, rfl⟩ := len2 (Nat.le_of_eq h1.symm) (Nat.le_of_eq h1)
      simp only [List.forall_mem_cons] at h2
      cases ch_iff.1 hz
      obtain ⟨p, rfl⟩ := planet_iff.1 hh
      exact S7.body hc h2.1 h2.2.1 hl hd
    · obtain ⟨_, _, _, _, h1, ⟨rfl, rfl, -⟩, rfl, rfl⟩ := h
      obtain ⟨⟨n, rfl⟩, rfl⟩ := star_blank.1 h1
      simpa using S7.blank n
  · intro h
    cases h with
    | body hc h1 h2 hl hd =>
      exact .inl ⟨[_], _, [_], _, ⟨[], ⟨⟨_, hc, rfl⟩, rfl⟩, rfl⟩, ⟨[_, _], _, [_], _, ⟨[], times_parse.2 ⟨⟨rfl, by simp [h1, h2]⟩, rfl⟩, rfl⟩, ⟨[_], _, [_], _, ⟨[], ⟨⟨_, planet_iff.2 ⟨_, rfl⟩, rfl⟩, rfl⟩, rfl⟩, ⟨[_], _, [_], _, ⟨[], ⟨⟨_, hl, rfl⟩, rfl⟩, rfl⟩, ⟨[_], _, [_], _, ⟨[], ⟨⟨_, hd, rfl⟩, rfl⟩, rfl⟩, ⟨['0'], [], [], [], ⟨⟨'0', by decide, rfl⟩, rfl⟩, ⟨rfl, rfl, ht⟩, rfl, rfl⟩, rfl, rfl⟩, rfl, rfl⟩, rfl, rfl⟩, rfl, rfl⟩, rfl, rfl⟩
    | blank n =>
      exact .inr ⟨spaces n, [], [], [], star_blank.2 ⟨⟨n, rfl⟩, rfl⟩, ⟨rfl, rfl, ht⟩, by simp, rfl⟩

/-- a satellite's columns -/
def ReadS (s : Str) (m : Caps) : Prop := ∃ a k1 r k2 e, S4 a k1 ∧ S7 r k2 ∧ End e ∧ s = a ++ ['S'] ++ r ++ e ∧ m = k1 ++ k2

theorem sat_match {s : Str} {m : Caps} : reMatch satellitePackedIDRegex s = some m ↔ ReadS s m := by
  refine match_unique ?_ ?_ ?_
  · rintro c t k ⟨c1, c2, k1, k2, h1, ⟨c3, c4, k3, k4, ⟨⟨ty, hty, rfl⟩, rfl⟩, ⟨c5, c6, k5, k6, h5, ⟨rfl, rfl, he⟩, rfl, rfl⟩, rfl, rfl⟩, rfl, rfl⟩
    cases ch_iff.1 hty
    exact ⟨c1, k1, c5, k5, t, S4_parse.1 h1, (S7_parse he).1 h5, he, by simp, by simp⟩
  · rintro s k ⟨a, k1, r, k2, e, h1, h2, he, rfl, rfl⟩
    exact ⟨a ++ ['S'] ++ r, e, rfl, a, ['S'] ++ r, k1, k2, S4_parse.2 h1, ⟨['S'], r, [], k2, ⟨⟨'S', by decide, rfl⟩, rfl⟩, ⟨r, [], k2, [], (S7_parse he).2 h2, ⟨rfl, rfl, he⟩, by simp, by simp⟩, rfl, rfl⟩, by simp, by simp⟩
  · rintro s k k' ⟨a, k1, r, k2, e, h1, h2, he, rfl, rfl⟩ ⟨a', k1', r', k2', e', h1', h2', he', hs, rfl⟩
    simp only [List.append_assoc] at hs
    obtain ⟨e1, e2⟩ := List.append_inj hs (by rw [h1.len, h1'.len])
    subst e1
    clear hs
    simp only [List.cons_append, List.nil_append, List.cons.injEq, true_and] at e2
    obtain ⟨rfl, rfl⟩ := end_cut h2.nl h2'.nl he he' e2
    rw [h1.unique h1', h2.unique h2']

/-! ### at most one pattern -/

theorem fifth {a b r r' : Str} {x : Char} (ha : a.length = 4) (h : a ++ [x] ++ r = b ++ r') (hb : b.length = 5) : b = a ++ [x] := by
  obtain ⟨b1, b2, b3, b4, b5, rfl⟩ := len5 (Nat.le_of_eq hb.symm) (Nat.le_of_eq hb)
  obtain ⟨a1, a2, a3, a4, rfl⟩ := len4 (Nat.le_of_eq ha.symm) (Nat.le_of_eq ha)
  simp only [List.cons_append, List.nil_append, List.cons.injEq] at h
  obtain ⟨rfl, rfl, rfl, rfl, rfl, -⟩ := h
  rfl

theorem H5.fifth {a : Str} {x : Char} {k : Caps} (h : H5 (a ++ [x]) k) (hx : isDec x = false) (hb : x ≠ ' ') : a.head? = some '~' := by
  generalize e : a ++ [x] = b at h
  have hl : (a ++ [x]).getLast? = some x := by simp
  cases h with
  | blank => rw [e] at hl; injection hl with h; exact absurd h.symm hb
  | @low _ _ _ _ d4 _ _ _ _ h => rw [e] at hl; injection hl with h'; have h'' : d4 = x := h'; rw [h'', hx] at h; simp at h
  | high =>
    cases a with
    | nil => simp at e
    | cons c a => injection e with e1; rw [e1]; rfl

theorem not_minor_comet {s : Str} {T : Str → Caps → Prop} {m m' : Caps} (h : Read T s m) (h' : ReadC s m') : False := by
  obtain ⟨a, k1, r, k2, e, h1, -, -, rfl, -⟩ := h
  obtain ⟨b, k1', ty, r', k2', e', h1', hty, -, -, hs, -⟩ := h'
  have hs' : b ++ [ty] ++ (r' ++ e') = a ++ (r ++ e) := by simp only [List.append_assoc] at hs ⊢; exact hs.symm
  have := fifth h1'.len hs' h1.len
  subst this
  have hd : isDec ty = false := by simpa using all_mem (F := c! "APCDXI") (P := fun c => !isDec c) (by decide +kernel) hty
  have := h1.fifth hd (by rintro rfl; exact absurd hty (by decide))
  cases h1' with
  | blank => exact absurd this (by decide)
  | number hd => injection this with this; subst this; exact absurd hd (by decide)

theorem not_minor_sat {s : Str} {T : Str → Caps → Prop} {m m' : Caps} (h : Read T s m) (h' : ReadS s m') : False := by
  obtain ⟨a, k1, r, k2, e, h1, -, -, rfl, -⟩ := h
  obtain ⟨b, k1', r', k2', e', h1', -, -, hs, -⟩ := h'
  have hs' : b ++ ['S'] ++ (r' ++ e') = a ++ (r ++ e) := by simp only [List.append_assoc] at hs ⊢; exact hs.symm
  have := fifth h1'.len hs' h1.len
  subst this
  have := h1.fifth (by decide) (by decide)
  cases h1' with
  | blank => exact absurd this (by decide)
  | @number p => injection this with this; cases p <;> exact absurd this (by decide)

theorem not_comet_sat {s : Str} {m m' : Caps} (h : ReadC s m) (h' : ReadS s m') : False := by
  obtain ⟨b, k1, ty, r, k2, e, h1, hty, -, -, rfl, -⟩ := h
  obtain ⟨b', k1', r', k2', e', h1', -, -, hs, -⟩ := h'
  simp only [List.append_assoc] at hs
  obtain ⟨-, e2⟩ := List.append_inj hs (by rw [h1.len, h1'.len])
  injection e2 with e2
  subst e2
  exact absurd hty (by decide)

end Verif.Unpacking
