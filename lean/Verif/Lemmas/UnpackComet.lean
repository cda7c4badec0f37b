import Verif.Lemmas.Unpack
/-! `unpackPackedID` on comet, satellite and tracklet columns. -/
namespace Verif
open Verif.PackUtil

/-! #### comets -/

/-- columns 1-4 of a comet -/
def c4 : Option Nat → Str
  | none => c! "    "
  | some n => Spec.fixed 4 n
def c4Caps : Option Nat → Caps
  | none => []
  | some n => [(1, Spec.fixed 4 n)]

theorem coHead_front {n : Option Nat} (hn : ∀ k ∈ n, k ≤ 9999) {ty : Char} (ht : ty ∈ (c! "ACDPX")) (v : Str) :
    reMatch cometPackedIDRegex (c4 n ++ [ty] ++ v) = (reMatch (cat coTail) v).map ((c4Caps n ++ [(2, [ty])]) ++ ·) := by
  rw [co_eq]
  cases n with
  | none =>
    exact reMatch_front (Fs := [[' '], [' '], [' '], [' '], c! "ACDPX"]) (k := [(2, 4, 1)]) (by simp [coTail])
      (by simp only [c4, List.cons_append, List.nil_append, InFams]; exact ⟨by simp, by simp, by simp, by simp, ht, trivial⟩)
      (by refine ⟨⟨by simp [coHead], ?_⟩, ?_⟩ <;> decide +kernel)
  | some k =>
    have hk := hn k rfl
    simp only [c4, c4Caps, fixed4 (show k < 10000 by omega)]
    exact reMatch_front (Fs := [digits10, digits10, digits10, digits10, c! "ACDPX"]) (k := [(1, 0, 4), (2, 4, 1)]) (by simp [coTail])
      (by simp only [List.cons_append, List.nil_append, InFams]
          exact ⟨dmem (by omega), dmem (by omega), dmem (by omega), dmem (by omega), ht, trivial⟩)
      (by refine ⟨⟨by simp [coHead], ?_⟩, ?_⟩ <;> decide +kernel)

theorem comet_mp_none {n : Option Nat} (hn : ∀ k ∈ n, k ≤ 9999) {ty : Char} (ht : ty ∈ (c! "ACDPX")) (v : Str) :
    reMatch minorplanetPackedIDRegex (c4 n ++ [ty] ++ v) = none := by
  rw [mp_eq]
  cases n with
  | none =>
    exact reMatch_front_nil (Fs := [[' '], [' '], [' '], [' '], c! "ACDPX"]) (by simp [mpTail])
      (by simp only [c4, List.cons_append, List.nil_append, InFams]; exact ⟨by simp, by simp, by simp, by simp, ht, trivial⟩)
      (by refine ⟨⟨by simp [mpHead], ?_⟩, ?_⟩ <;> decide +kernel)
  | some k =>
    have hk := hn k rfl
    simp only [c4, fixed4 (show k < 10000 by omega)]
    exact reMatch_front_nil (Fs := [digits10, digits10, digits10, digits10, c! "ACDPX"]) (by simp [mpTail])
      (by simp only [List.cons_append, List.nil_append, InFams]
          exact ⟨dmem (by omega), dmem (by omega), dmem (by omega), dmem (by omega), ht, trivial⟩)
      (by refine ⟨⟨by simp [mpHead], ?_⟩, ?_⟩ <;> decide +kernel)

theorem comet_sa_none {n : Option Nat} (hn : ∀ k ∈ n, k ≤ 9999) {ty : Char} (ht : ty ∈ (c! "ACDPX")) (v : Str) :
    reMatch satellitePackedIDRegex (c4 n ++ [ty] ++ v) = none := by
  rw [sa_eq]
  cases n with
  | none =>
    exact reMatch_front_nil (Fs := [[' '], [' '], [' '], [' '], c! "ACDPX"]) (by simp [saTail])
      (by simp only [c4, List.cons_append, List.nil_append, InFams]; exact ⟨by simp, by simp, by simp, by simp, ht, trivial⟩)
      (by refine ⟨⟨by simp [saHead], ?_⟩, ?_⟩ <;> decide +kernel)
  | some k =>
    have hk := hn k rfl
    simp only [c4, fixed4 (show k < 10000 by omega)]
    exact reMatch_front_nil (Fs := [digits10, digits10, digits10, digits10, c! "ACDPX"]) (by simp [saTail])
      (by simp only [List.cons_append, List.nil_append, InFams]
          exact ⟨dmem (by omega), dmem (by omega), dmem (by omega), dmem (by omega), ht, trivial⟩)
      (by refine ⟨⟨by simp [saHead], ?_⟩, ?_⟩ <;> decide +kernel)

/-- columns 6-12 of a comet -/
inductive CTail
  | blank
  | body (year : Nat) (half : Char) (num : Nat) (last : Char)
  | frag1 (a : Char)
  | frag2 (a b : Char)

/-- last column of a comet: 0, an upper-case letter, or a lower-case fragment letter -/
def LastOk (c : Char) : Prop := c = '0' ∨ c ∈ Spec.upperCase ∨ c ∈ lowers

def CTail.Ok : CTail → Prop
  | .blank => True
  | .body year half num last => year ≤ 6199 ∧ half ∈ Spec.halfMonths ∧ num ≤ 619 ∧ LastOk last
  | .frag1 a => a ∈ lowers
  | .frag2 a b => a ∈ lowers ∧ b ∈ lowers
def CTail.cols : CTail → Str
  | .blank => c! "       "
  | .body year half num last => Spec.yearCols year ++ [half] ++ Spec.countCols num ++ [last]
  | .frag1 a => c! "      " ++ [a]
  | .frag2 a b => c! "     " ++ [a, b]
def CTail.caps : CTail → Caps
  | .blank => []
  | .body year half num last => yCaps 3 year ++ [(5, [half])] ++ nCaps 6 num ++
      (if last = '0' then [] else if last ∈ Spec.upperCase then [(8, [last])] else [(9, [last])])
  | .frag1 a => [(10, [' ']), (11, [a])]
  | .frag2 a b => [(10, [a]), (11, [b])]

theorem lowers_not {c : Char} (h : c ∈ lowers) : c ≠ '0' ∧ c ∉ Spec.upperCase := by
  have : lowers.all (fun c => decide (c ≠ '0' ∧ c ∉ Spec.upperCase)) = true := by decide +kernel
  simpa using all_mem this h
theorem uppers_not {c : Char} (h : c ∈ Spec.upperCase) : c ≠ '0' := by
  have : Spec.upperCase.all (fun c => decide (c ≠ '0')) = true := by decide +kernel
  simpa using all_mem this h

theorem coTail_match {q : CTail} (h : q.Ok) : reMatch (cat coTail) q.cols = some q.caps := by
  cases q with
  | blank => decide +kernel
  | body y half n last =>
    obtain ⟨h1, h2, h3, h4⟩ := h
    simp only [CTail.cols, CTail.caps, yearCols_eq, countCols_eq]
    have hf : ∀ F, last ∈ F → InFams ([Spec.b62 (y / 100), digitChar (y / 10 % 10), digitChar (y % 10)] ++ [half] ++
        [Spec.b62 (n / 10), digitChar (n % 10)] ++ [last]) [b62s, digits10, digits10, Spec.halfMonths, b62s, digits10, F] := by
      intro F hF
      simp only [InFams, List.cons_append, List.nil_append]
      exact ⟨b62_mem (by omega), dmem (by omega), dmem (by omega), h2, b62_mem (by omega), dmem (by omega), hF, trivial⟩
    rcases h4 with h4 | h4 | h4
    · subst h4
      rw [if_pos rfl]
      exact reMatch_fams (hf ['0'] (by simp)) (o := some [(3, 0, 1), (4, 1, 2), (5, 3, 1), (6, 4, 1), (7, 5, 1)]) (by decide +kernel)
    · rw [if_neg (uppers_not h4), if_pos h4]
      exact reMatch_fams (hf _ h4) (o := some [(3, 0, 1), (4, 1, 2), (5, 3, 1), (6, 4, 1), (7, 5, 1), (8, 6, 1)]) (by decide +kernel)
    · rw [if_neg (lowers_not h4).1, if_neg (lowers_not h4).2]
      exact reMatch_fams (hf _ h4) (o := some [(3, 0, 1), (4, 1, 2), (5, 3, 1), (6, 4, 1), (7, 5, 1), (9, 6, 1)]) (by decide +kernel)
  | frag1 a =>
    exact reMatch_fams (Fs := [[' '], [' '], [' '], [' '], [' '], [' '], lowers])
      (by simp only [CTail.cols, List.cons_append, List.nil_append, InFams]
          exact ⟨by simp, by simp, by simp, by simp, by simp, by simp, h, trivial⟩)
      (o := some [(10, 5, 1), (11, 6, 1)]) (by decide +kernel)
  | frag2 a b =>
    exact reMatch_fams (Fs := [[' '], [' '], [' '], [' '], [' '], lowers, lowers])
      (by simp only [CTail.cols, List.cons_append, List.nil_append, InFams]
          exact ⟨by simp, by simp, by simp, by simp, by simp, h.1, h.2, trivial⟩)
      (o := some [(10, 5, 1), (11, 6, 1)]) (by decide +kernel)

/-- fragment suffix of the permanent designation -/
def CTail.permFrag : CTail → Str
  | .blank => []
  | .body _ _ _ last => if last ∈ lowers then ['-', asciiUpper last] else []
  | .frag1 a => ['-', asciiUpper a]
  | .frag2 a b => ['-', asciiUpper a, asciiUpper b]
def CTail.prov (ty : Char) : CTail → Option Str
  | .body year half num last => some ([ty, '/'] ++ natStr year ++ [' ', half] ++
      (if last ∈ Spec.upperCase then [last] else []) ++ numOrBlank num ++ (if last ∈ lowers then ['-', asciiUpper last] else []))
  | _ => none

theorem lowers_space {c : Char} (h : c ∈ lowers) : isSpace c = false := by
  have : lowers.all (fun c => !isSpace c) = true := by decide +kernel
  simpa using all_mem this h

theorem strip_frag1 {a : Char} (h : a ∈ lowers) : strip [' ', a] = [a] := by
  have h1 := lowers_space h
  have h2 : isSpace ' ' = true := by decide
  simp [strip, lstrip, rstrip, h1, h2]
theorem strip_frag2 {a b : Char} (h : a ∈ lowers) (h' : b ∈ lowers) : strip [a, b] = [a, b] := by
  have h1 := lowers_space h
  have h2 := lowers_space h'
  simp [strip, lstrip, rstrip, h1, h2]

theorem unpack_comet {n : Option Nat} (hn : ∀ k ∈ n, 1 ≤ k ∧ k ≤ 9999) {ty : Char} (ht : ty ∈ (c! "ACDPX"))
    (ht' : n.isSome → ty = 'P' ∨ ty = 'D') {q : CTail} (hq : q.Ok) (hne : n.isSome ∨ (q.prov ty).isSome) :
    unpackPackedID (c4 n ++ [ty] ++ q.cols) =
      .ok ⟨n.map fun k => natStr k ++ [ty] ++ q.permFrag, q.prov ty, none⟩ := by
  have hn' : ∀ k ∈ n, k ≤ 9999 := fun k hk => (hn k hk).2
  have hm := coHead_front hn' ht q.cols
  rw [coTail_match hq] at hm
  have key : unpackComet (c4 n ++ [ty] ++ q.cols) ⟨none, none, none⟩ =
      .ok ⟨n.map fun k => natStr k ++ [ty] ++ q.permFrag, q.prov ty, none⟩ := by
    simp only [unpackComet, hm, Option.map_some]
    have hty : ∀ k, n = some k → ¬ (([ty] : Str) ≠ c! "P" ∧ ([ty] : Str) ≠ c! "D") := by
      intro k hk
      rcases ht' (by simp [hk]) with h | h <;> simp [h]
    have hperm : ∀ {k}, n = some k → pyNat (Spec.fixed 4 k) = .ok k ∧ k ≠ 0 ∧ (Spec.fixed 4 k).isEmpty = false := by
      intro k hk
      have := hn k (by simp [hk])
      refine ⟨?_, by omega, ?_⟩
      · rw [fixed4 (by omega), pyNat4 (by omega) (by omega) (by omega) (by omega)]; congr 1; omega
      · rw [fixed4 (by omega)]; rfl
    cases q with
    | blank =>
      cases n with
      | none => simp [c4Caps, CTail.caps, group, truthy, bind, Except.bind, pure, Except.pure, grp!, CTail.prov]
      | some k =>
        obtain ⟨h1, h2, h3⟩ := hperm rfl
        have hty := hty k rfl
        simp [c4Caps, CTail.caps, group, truthy, bind, Except.bind, pure, Except.pure, grp!, CTail.prov, CTail.permFrag, h1, h2, h3]
        rcases ht' rfl with h | h <;> simp [h]
    | frag1 a =>
      cases n with
      | none => simp [CTail.prov] at hne
      | some k =>
        obtain ⟨h1, h2, h3⟩ := hperm rfl
        have hty := hty k rfl
        simp [c4Caps, CTail.caps, group, truthy, bind, Except.bind, pure, Except.pure, grp!, CTail.prov, CTail.permFrag, h1, h2, h3,
          strip_frag1 hq]
        rcases ht' rfl with h | h <;> simp [h]
    | frag2 a b =>
      cases n with
      | none => simp [CTail.prov] at hne
      | some k =>
        obtain ⟨h1, h2, h3⟩ := hperm rfl
        have hty := hty k rfl
        simp [c4Caps, CTail.caps, group, truthy, bind, Except.bind, pure, Except.pure, grp!, CTail.prov, CTail.permFrag, h1, h2, h3,
          strip_frag2 hq.1 hq.2]
        rcases ht' rfl with h | h <;> simp [h]
    | body y half c last =>
      obtain ⟨g1, g2, g3, g4⟩ := hq
      have ey : y / 100 * 100 + y % 100 = y := by omega
      have ec : c / 10 * 10 + c % 10 = c := by omega
      have elast : (last = '0' ∧ last ∉ Spec.upperCase ∧ last ∉ lowers) ∨ (last ≠ '0' ∧ last ∈ Spec.upperCase ∧ last ∉ lowers) ∨
          (last ≠ '0' ∧ last ∉ Spec.upperCase ∧ last ∈ lowers) := by
        rcases g4 with h | h | h
        · subst h; exact Or.inl ⟨rfl, by decide +kernel, by decide +kernel⟩
        · exact Or.inr (Or.inl ⟨uppers_not h, h, fun h' => (lowers_not h').2 h⟩)
        · exact Or.inr (Or.inr ⟨(lowers_not h).1, (lowers_not h).2, h⟩)
      have u1 := unpackLetter_b62 (show y / 100 < 62 by omega)
      have u2 := unpackLetter_b62 (show c / 10 < 62 by omega)
      have u3 := pyNat1 (show c % 10 < 10 by omega)
      have z2 : '0' ∉ Spec.upperCase := by decide +kernel
      have z3 : '0' ∉ lowers := by decide +kernel
      rcases elast with ⟨l1, l2, l3⟩ | ⟨l1, l2, l3⟩ | ⟨l1, l2, l3⟩ <;>
      · cases n with
        | none =>
          simp [c4Caps, CTail.caps, group, truthy, bind, Except.bind, pure, Except.pure, grp!, CTail.prov, yCaps, nCaps,
            unpackLetters, u1, u2, u3, ey, ec, yy_eq, l1, l2, l3, z2, z3]
        | some k =>
          obtain ⟨h1, h2, h3⟩ := hperm rfl
          have hty := hty k rfl
          simp [c4Caps, CTail.caps, group, truthy, bind, Except.bind, pure, Except.pure, grp!, CTail.prov, CTail.permFrag, h1, h2, h3,
            yCaps, nCaps, unpackLetters, u1, u2, u3, ey, ec, yy_eq, l1, l2, l3, z2, z3]
          rcases ht' rfl with h | h <;> simp [h]
  simp only [unpackPackedID, unpackMinor, comet_mp_none hn' ht, key, unpackSat, comet_sa_none hn' ht, bind, Except.bind, pure, Except.pure]
  have : (!truthy (n.map fun k => natStr k ++ [ty] ++ q.permFrag) && !truthy (q.prov ty)) = false := by
    rcases hne with h | h
    · cases n with
      | none => simp at h
      | some k => simp [truthy]
    · cases q <;> simp [CTail.prov] at h
      simp [truthy, CTail.prov]
  simp only [this, Bool.false_and]; rfl

/-! #### satellites -/

def s4 : Option (Spec.Planet × Nat) → Str
  | none => c! "    "
  | some (p, n) => p.letter :: Spec.fixed 3 n
def s4Caps : Option (Spec.Planet × Nat) → Caps
  | none => []
  | some (p, n) => [(1, [p.letter]), (2, Spec.fixed 3 n)]

theorem planet_jsun (p : Spec.Planet) : p.letter ∈ jsun := by cases p <;> decide

theorem sat_fams {r : Option (Spec.Planet × Nat)} (hr : ∀ x ∈ r, x.2 ≤ 999) :
    InFams (s4 r ++ ['S']) [[' '], [' '], [' '], [' '], ['S']] ∨ InFams (s4 r ++ ['S']) [jsun, digits10, digits10, digits10, ['S']] := by
  cases r with
  | none => left; simp [s4, InFams]
  | some x =>
    obtain ⟨p, n⟩ := x
    right
    have := hr _ rfl
    simp only [s4, fixed3 (show n < 1000 by simp at this; omega), List.cons_append, List.nil_append, InFams]
    exact ⟨planet_jsun p, dmem (by omega), dmem (by omega), dmem (by omega), by simp, trivial⟩

theorem sat_mp_none {r : Option (Spec.Planet × Nat)} (hr : ∀ x ∈ r, x.2 ≤ 999) (v : Str) :
    reMatch minorplanetPackedIDRegex (s4 r ++ ['S'] ++ v) = none := by
  rw [mp_eq]
  rcases sat_fams hr with h | h <;>
  exact reMatch_front_nil (by simp [mpTail]) h (by refine ⟨⟨by simp [mpHead], ?_⟩, ?_⟩ <;> decide +kernel)

theorem sat_co_none {r : Option (Spec.Planet × Nat)} (hr : ∀ x ∈ r, x.2 ≤ 999) (v : Str) :
    reMatch cometPackedIDRegex (s4 r ++ ['S'] ++ v) = none := by
  rw [co_eq]
  rcases sat_fams hr with h | h <;>
  exact reMatch_front_nil (by simp [coTail]) h (by refine ⟨⟨by simp [coHead], ?_⟩, ?_⟩ <;> decide +kernel)

theorem saHead_front {r : Option (Spec.Planet × Nat)} (hr : ∀ x ∈ r, x.2 ≤ 999) (v : Str) :
    reMatch satellitePackedIDRegex (s4 r ++ ['S'] ++ v) = (reMatch (cat saTail) v).map (s4Caps r ++ ·) := by
  rw [sa_eq]
  cases r with
  | none =>
    exact reMatch_front (Fs := [[' '], [' '], [' '], [' '], ['S']]) (k := []) (by simp [saTail])
      (by simp [s4, InFams]) (by refine ⟨⟨by simp [saHead], ?_⟩, ?_⟩ <;> decide +kernel)
  | some x =>
    obtain ⟨p, n⟩ := x
    have := hr _ rfl
    simp only [s4, s4Caps, fixed3 (show n < 1000 by simp at this; omega)]
    exact reMatch_front (Fs := [jsun, digits10, digits10, digits10, ['S']]) (k := [(1, 0, 1), (2, 1, 3)]) (by simp [saTail])
      (by simp only [List.cons_append, List.nil_append, InFams]
          exact ⟨planet_jsun p, dmem (by omega), dmem (by omega), dmem (by omega), by simp, trivial⟩)
      (by refine ⟨⟨by simp [saHead], ?_⟩, ?_⟩ <;> decide +kernel)

/-- columns 6-12 of a satellite -/
def s7 : Option (Nat × Spec.Planet × Nat) → Str
  | none => c! "       "
  | some (y, p, n) => Spec.yearCols y ++ [p.letter] ++ Spec.countCols n ++ ['0']
def s7Caps : Option (Nat × Spec.Planet × Nat) → Caps
  | none => []
  | some (y, p, n) => yCaps 3 y ++ [(5, [p.letter])] ++ nCaps 6 n

theorem saTail_match {q : Option (Nat × Spec.Planet × Nat)} (h : ∀ x ∈ q, x.1 ≤ 6199 ∧ x.2.2 ≤ 619) :
    reMatch (cat saTail) (s7 q) = some (s7Caps q) := by
  cases q with
  | none => decide +kernel
  | some x =>
    obtain ⟨y, p, n⟩ := x
    obtain ⟨h1, h2⟩ := h _ rfl
    simp only at h1 h2
    simp only [s7, s7Caps, yearCols_eq, countCols_eq]
    exact reMatch_fams (Fs := [b62s, digits10, digits10, jsun, b62s, digits10, ['0']])
      (o := some [(3, 0, 1), (4, 1, 2), (5, 3, 1), (6, 4, 1), (7, 5, 1)])
      (by simp only [List.cons_append, List.nil_append, InFams]
          exact ⟨b62_mem (by omega), dmem (by omega), dmem (by omega), planet_jsun p, b62_mem (by omega), dmem (by omega), by simp, trivial⟩)
      (by decide +kernel)

theorem unpack_sat {r : Option (Spec.Planet × Nat)} {q : Option (Nat × Spec.Planet × Nat)}
    (hr : ∀ x ∈ r, 1 ≤ x.2 ∧ x.2 ≤ 999) (hq : ∀ x ∈ q, x.1 ≤ 6199 ∧ x.2.2 ≤ 619) (hne : r.isSome ∨ q.isSome) :
    unpackPackedID (s4 r ++ ['S'] ++ s7 q) =
      .ok ⟨r.map fun x => x.1.name ++ [' '] ++ natStr x.2,
        q.map fun x => ['S', '/'] ++ natStr x.1 ++ [' ', x.2.1.letter, ' '] ++ numOrBlank x.2.2, none⟩ := by
  have hr' : ∀ x ∈ r, x.2 ≤ 999 := fun k hk => (hr k hk).2
  have hm := saHead_front hr' (s7 q)
  rw [saTail_match hq] at hm
  have key : unpackSat (s4 r ++ ['S'] ++ s7 q) ⟨none, none, none⟩ =
      .ok ⟨r.map fun x => x.1.name ++ [' '] ++ natStr x.2,
        q.map fun x => ['S', '/'] ++ natStr x.1 ++ [' ', x.2.1.letter, ' '] ++ numOrBlank x.2.2, none⟩ := by
    simp only [unpackSat, hm, Option.map_some]
    have hperm : ∀ {p n}, r = some (p, n) → pyNat (Spec.fixed 3 n) = .ok n ∧ n ≠ 0 ∧ planetName [p.letter] = .ok p.name := by
      intro p n h
      have := hr (p, n) (by simp [h]); simp only at this
      refine ⟨?_, by omega, by cases p <;> decide⟩
      rw [fixed3 (by omega), pyNat3 (by omega) (by omega) (by omega)]; congr 1; omega
    cases q with
    | none =>
      cases r with
      | none => simp at hne
      | some x =>
        obtain ⟨p, n⟩ := x
        obtain ⟨h1, h2, h3⟩ := hperm rfl
        simp [s4Caps, s7Caps, group, truthy, bind, Except.bind, pure, Except.pure, grp!, h1, h2, h3]
    | some z =>
      obtain ⟨y, p', c⟩ := z
      obtain ⟨g1, g3⟩ := hq _ rfl
      simp only at g1 g3
      have ey : y / 100 * 100 + y % 100 = y := by omega
      have ec : c / 10 * 10 + c % 10 = c := by omega
      have u1 := unpackLetter_b62 (show y / 100 < 62 by omega)
      have u2 := unpackLetter_b62 (show c / 10 < 62 by omega)
      have u3 := pyNat1 (show c % 10 < 10 by omega)
      cases r with
      | none =>
        simp [s4Caps, s7Caps, group, truthy, bind, Except.bind, pure, Except.pure, grp!, yCaps, nCaps,
            unpackLetters, u1, u2, u3, ey, ec, yy_eq]
      | some x =>
        obtain ⟨p, n⟩ := x
        obtain ⟨h1, h2, h3⟩ := hperm rfl
        simp [s4Caps, s7Caps, group, truthy, bind, Except.bind, pure, Except.pure, grp!, h1, h2, h3, yCaps, nCaps,
            unpackLetters, u1, u2, u3, ey, ec, yy_eq]
  simp only [unpackPackedID, unpackMinor, sat_mp_none hr', unpackComet, sat_co_none hr', key, bind, Except.bind, pure, Except.pure]
  have : (!truthy (r.map fun x => x.1.name ++ [' '] ++ natStr x.2) &&
      !truthy (q.map fun x => ['S', '/'] ++ natStr x.1 ++ [' ', x.2.1.letter, ' '] ++ numOrBlank x.2.2)) = false := by
    rcases hne with h | h
    · cases r with
      | none => simp at h
      | some k => simp [truthy]
    · cases q with
      | none => simp at h
      | some k => simp [truthy]
  simp only [this, Bool.false_and]; rfl

/-! #### tracklets -/

theorem run_seq_head {a b : Re} {s c t c' t' : Str} {k k' : Caps} {l l' : List (Str × Str × Caps)}
    (ha : run a s = (c, t, k) :: l) (hb : run b t = (c', t', k') :: l') :
    ∃ l'', run (.seq a b) s = (c ++ c', t', k ++ k') :: l'' := by
  rw [run, ha]
  simp only [List.flatMap_cons, hb, List.map_cons, List.cons_append]
  exact ⟨_, rfl⟩

theorem spanLen_stop {p : Char → Bool} : ∀ (h : Nat) (t pad : Str), t.length ≤ h → (∀ c ∈ t, p c = true) →
    (∀ c ∈ pad.head?, p c = false) → spanLen p (some h) (t ++ pad) = t.length
  | 0, [], pad, _, _, _ => by simp [spanLen]
  | h + 1, [], [], _, _, _ => rfl
  | h + 1, [], c :: pad, _, _, hp => by simp [spanLen, hp c rfl]
  | h + 1, c :: t, pad, hl, ht, hp => by
    have := spanLen_stop h t pad (by simp at hl; omega) (fun c hc => ht c (by simp [hc])) hp
    simp [spanLen, ht c (by simp), this]

theorem downTo_head {n : Nat} : ∃ l, downTo 0 n = n :: l := by
  cases n with
  | zero => exact ⟨[], rfl⟩
  | succ n => exact ⟨downTo 0 n, by simp [downTo]⟩

theorem trk_cls {c : Char} (h : c ∈ Spec.trkChars) : trkCls c = true := by
  have : Spec.trkChars.all trkCls = true := by decide +kernel
  exact all_mem this h

theorem mpAlt3_run {t : Str} (hl : t.length ≤ 7) (h : ∀ c ∈ t, c ∈ Spec.trkChars) (j : Nat) :
    ∃ l, run (.seq mpAlt3 .eos) (t ++ List.replicate j ' ') = (t ++ List.replicate j ' ', [], [(12, t)]) :: l := by
  have hsp : ∀ c ∈ (List.replicate j ' ').head?, trkCls c = false := by
    intro c hc
    cases j with
    | zero => simp at hc
    | succ j => simp [List.replicate_succ] at hc; subst hc; decide
  have e1 : ∃ l, run (.grp 12 (.rep 0 (some 8) trkCls)) (t ++ List.replicate j ' ') = (t, List.replicate j ' ', [(12, t)]) :: l := by
    obtain ⟨l, hl'⟩ := downTo_head (n := t.length)
    simp only [run, spanLen_stop 8 t _ (by omega) (fun c hc => trk_cls (h c hc)) hsp, hl']
    simp
  have hall : ∀ c ∈ List.replicate j ' ', ch ' ' c = true := by
    intro c hc; rw [List.eq_of_mem_replicate hc]; decide
  have e2 : ∃ l, run (star (ch ' ')) (List.replicate j ' ') = (List.replicate j ' ', [], []) :: l := by
    obtain ⟨l, hl'⟩ := downTo_head (n := j)
    have := spanLen_none_append (ch ' ') (List.replicate j ' ') [] hall (by simp)
    simp only [List.append_nil, List.length_replicate] at this
    simp only [star, run, this, hl']
    simp
  obtain ⟨l1, e1⟩ := e1
  obtain ⟨l2, e2⟩ := e2
  have e3 : run .eos ([] : Str) = ([], [], []) :: [] := rfl
  obtain ⟨l3, e4⟩ := run_seq_head e1 e2
  obtain ⟨l4, e5⟩ := run_seq_head e4 e3
  simp only [mpAlt3, cat]
  exact ⟨l4, by simpa using e5⟩

theorem trk_split {c : Char} (h : c ∈ Spec.trkChars ∨ c = ' ') :
    (isDec c = true → c ∈ (List.range 10).map Spec.b62) ∧ (alnum c = true → c ∈ (List.range 62).map Spec.b62) ∧
    (rng 'I' 'K' c = true → c ∈ ['I', 'J', 'K']) ∧ (halfCls c = true → c ∈ Spec.halfMonths) ∧ (orderCls c = true → c ∈ Spec.orders) := by
  have : (' ' :: Spec.trkChars).all (fun c => decide ((isDec c = true → c ∈ (List.range 10).map Spec.b62) ∧ (alnum c = true → c ∈ (List.range 62).map Spec.b62) ∧
    (rng 'I' 'K' c = true → c ∈ ['I', 'J', 'K']) ∧ (halfCls c = true → c ∈ Spec.halfMonths) ∧ (orderCls c = true → c ∈ Spec.orders))) = true := by
    decide +kernel
  exact of_decide_eq_true (all_mem this (by simp; exact h.symm))


theorem len2 {α : Type} {l : List α} (h1 : 2 ≤ l.length) (h2 : l.length ≤ 2) : ∃ a b, l = [a, b] := by
  match l, h1, h2 with
  | [a, b], _, _ => exact ⟨a, b, rfl⟩
theorem len4 {α : Type} {l : List α} (h1 : 4 ≤ l.length) (h2 : l.length ≤ 4) : ∃ a b c d, l = [a, b, c, d] := by
  match l, h1, h2 with
  | [a, b, c, d], _, _ => exact ⟨a, b, c, d, rfl⟩

/-- a padded tracklet whose last column is not blank is not padded -/
theorem pad_eq {t : Str} (hl : t.length ≤ 7) {a b c d e f g : Char} {u : Str} (hg : g ≠ ' ')
    (hs : t ++ List.replicate (7 - t.length) ' ' = [a, b, c, d, e, f, g] ++ u) : t = [a, b, c, d, e, f, g] := by
  have hlen := congrArg List.length hs
  simp only [List.length_append, List.length_replicate, List.length_cons, List.length_nil] at hlen
  have hu : u = [] := List.length_eq_zero_iff.1 (by omega)
  subst hu
  by_cases h7 : t.length = 7
  · simpa [h7] using hs
  · have h := congrArg List.getLast? hs
    have hr : 7 - t.length = (6 - t.length) + 1 := by omega
    rw [hr, List.replicate_succ', ← List.append_assoc] at h
    simp at h
    exact absurd h.symm hg

theorem mpAlt1_none {t : Str} (hl : t.length ≤ 7) (h : ∀ c ∈ t, c ∈ Spec.trkChars) (hp : ¬ Spec.LooksPacked t) :
    run (.seq mpAlt1 .eos) (t ++ List.replicate (7 - t.length) ' ') = [] := by
  rw [List.eq_nil_iff_forall_not_mem]
  rintro ⟨c, u, k⟩ hm
  have hs := run_split hm
  have hlang := run_lang hm
  simp only [mpAlt1, cat, Re.lang, times] at hlang
  obtain ⟨_, _, ⟨_, _, ⟨c1, p1, rfl⟩, ⟨_, _, ⟨a1, a2, a3⟩, ⟨_, _, ⟨c4, p4, rfl⟩, ⟨_, _, ⟨c5, p5, rfl⟩, ⟨_, _, ⟨c6, p6, rfl⟩, p7, rfl⟩, rfl⟩,
    rfl⟩, rfl⟩, rfl⟩, rfl, rfl⟩ := hlang
  obtain ⟨c2, c3, rfl⟩ := len2 a1 (a2 2 rfl)
  have p2 := a3 c2 (by simp)
  have p3 := a3 c3 (by simp)
  obtain ⟨c7, p7', rfl⟩ : ∃ c7, (orderCls c7 = true ∨ ch '0' c7 = true) ∧ _ = [c7] := by
    rcases p7 with ⟨c7, h, e⟩ | ⟨c7, h, e⟩
    · exact ⟨c7, Or.inl h, e⟩
    · exact ⟨c7, Or.inr h, e⟩
  have hne : c7 ≠ ' ' := by
    rintro rfl
    revert p7'; decide
  have ht := pad_eq hl hne (by simpa using hs)
  subst ht
  refine hp (Or.inl ⟨c1, c2, c3, c4, c5, c6, c7, rfl, ?_⟩)
  have hh : ∀ x ∈ [c1, c2, c3, c4, c5, c6, c7], x ∈ Spec.trkChars ∨ x = ' ' := fun x hx => Or.inl (h x hx)
  refine ⟨(trk_split (hh c1 (by simp))).2.2.1 p1, (trk_split (hh c2 (by simp))).1 p2, (trk_split (hh c3 (by simp))).1 p3,
    (trk_split (hh c4 (by simp))).2.2.2.1 p4, (trk_split (hh c5 (by simp))).2.1 p5, (trk_split (hh c6 (by simp))).1 p6, ?_⟩
  rcases p7' with h7 | h7
  · exact Or.inl ((trk_split (hh c7 (by simp))).2.2.2.2 h7)
  · exact Or.inr ((ch_iff _ _).1 h7)

theorem fixed4_surj {a b c d : Char} (ha : a ∈ (List.range 10).map Spec.b62) (hb : b ∈ (List.range 10).map Spec.b62)
    (hc : c ∈ (List.range 10).map Spec.b62) (hd : d ∈ (List.range 10).map Spec.b62) :
    ∃ n, n ≤ 9999 ∧ Spec.fixed 4 n = [a, b, c, d] := by
  simp only [List.mem_map, List.mem_range] at ha hb hc hd
  obtain ⟨w, hw, rfl⟩ := ha
  obtain ⟨x, hx, rfl⟩ := hb
  obtain ⟨y, hy, rfl⟩ := hc
  obtain ⟨z, hz, rfl⟩ := hd
  refine ⟨1000 * w + 100 * x + 10 * y + z, by omega, ?_⟩
  rw [fixed4 (by omega), b62_digit hw, b62_digit hx, b62_digit hy, b62_digit hz]
  rw [show (1000 * w + 100 * x + 10 * y + z) / 1000 = w by omega, show (1000 * w + 100 * x + 10 * y + z) / 100 % 10 = x by omega,
    show (1000 * w + 100 * x + 10 * y + z) / 10 % 10 = y by omega, show (1000 * w + 100 * x + 10 * y + z) % 10 = z by omega]

theorem mpAlt2_none {t : Str} (hl : t.length ≤ 7) (h : ∀ c ∈ t, c ∈ Spec.trkChars) (hp : ¬ Spec.LooksPacked t) :
    run (.seq mpAlt2 .eos) (t ++ List.replicate (7 - t.length) ' ') = [] := by
  rw [List.eq_nil_iff_forall_not_mem]
  rintro ⟨c, u, k⟩ hm
  have hs := run_split hm
  have hlang := run_lang hm
  simp only [mpAlt2, cat, Re.lang, times, alts, lit, List.map] at hlang
  obtain ⟨_, _, ⟨s, _, hsv, ⟨_, _, ⟨c3, p3, rfl⟩, ⟨a1, a2, a3⟩, rfl⟩, rfl⟩, rfl, rfl⟩ := hlang
  obtain ⟨c4, c5, c6, c7, rfl⟩ := len4 a1 (a2 4 rfl)
  have p4 := a3 c4 (by simp)
  have p5 := a3 c5 (by simp)
  have p6 := a3 c6 (by simp)
  have p7 := a3 c7 (by simp)
  obtain ⟨sv, rfl⟩ : ∃ sv : Spec.Survey, s = [sv.letter, sv.digit] := by
    simp only [ch_iff] at hsv
    rcases hsv with ⟨_, _, ⟨_, rfl, rfl⟩, ⟨_, rfl, rfl⟩, rfl⟩ | ⟨_, _, ⟨_, rfl, rfl⟩, ⟨_, rfl, rfl⟩, rfl⟩ |
      ⟨_, _, ⟨_, rfl, rfl⟩, ⟨_, rfl, rfl⟩, rfl⟩ | ⟨_, _, ⟨_, rfl, rfl⟩, ⟨_, rfl, rfl⟩, rfl⟩
    · exact ⟨.PL, rfl⟩
    · exact ⟨.T1, rfl⟩
    · exact ⟨.T2, rfl⟩
    · exact ⟨.T3, rfl⟩
  have e3 := (ch_iff _ _).1 p3
  subst e3
  have hne : c7 ≠ ' ' := by
    rintro rfl
    revert p7; decide
  have ht := pad_eq hl hne (by simpa using hs)
  subst ht
  have hh : ∀ x ∈ [sv.letter, sv.digit, 'S', c4, c5, c6, c7], x ∈ Spec.trkChars ∨ x = ' ' := fun x hx => Or.inl (h x hx)
  obtain ⟨n, hn, e⟩ := fixed4_surj ((trk_split (hh c4 (by simp))).1 p4) ((trk_split (hh c5 (by simp))).1 p5)
    ((trk_split (hh c6 (by simp))).1 p6) ((trk_split (hh c7 (by simp))).1 p7)
  exact hp (Or.inr ⟨sv, n, hn, by rw [e]; rfl⟩)

theorem run_seq_alt_nil {a b c : Re} {s : Str} (h : run (.seq a c) s = []) : run (.seq (.alt a b) c) s = run (.seq b c) s := by
  rw [run_seq_alt]; simp only [run] at h ⊢; rw [h]; rfl

theorem mpTail_trk {t : Str} (hl : t.length ≤ 7) (h : ∀ c ∈ t, c ∈ Spec.trkChars) (hp : ¬ Spec.LooksPacked t) :
    reMatch (cat mpTail) (t ++ List.replicate (7 - t.length) ' ') = some [(12, t)] := by
  simp only [mpTail, cat, alts]
  rw [reMatch, run_seq_alt_nil (mpAlt1_none hl h hp), run_seq_alt_nil (mpAlt2_none hl h hp), run_seq_alt]
  obtain ⟨l, hl'⟩ := mpAlt3_run hl h (7 - t.length)
  rw [run, hl']; rfl

theorem strip_trk {t : Str} (h : ∀ c ∈ t, c ∈ Spec.trkChars) : strip t = t := by
  have hsp : ∀ c ∈ t, isSpace c = false := by
    intro c hc
    have : Spec.trkChars.all (fun c => !isSpace c) = true := by decide +kernel
    simpa using all_mem this (h c hc)
  have h1 : ∀ l : Str, (∀ c ∈ l, isSpace c = false) → l.dropWhile isSpace = l := by
    intro l hl
    cases l with
    | nil => rfl
    | cons c l => simp [hl c (by simp)]
  simp only [strip, lstrip, rstrip]
  rw [h1 t.reverse (by simpa using hsp), List.reverse_reverse, h1 t hsp]

theorem unpack_trk {t : Str} (h0 : 1 ≤ t.length) (hl : t.length ≤ 7) (h : ∀ c ∈ t, c ∈ Spec.trkChars) (hp : ¬ Spec.LooksPacked t) :
    unpackPackedID (List.replicate 5 ' ' ++ t ++ List.replicate (7 - t.length) ' ') = .ok ⟨none, none, some t⟩ := by
  have hm : reMatch minorplanetPackedIDRegex (pCols none ++ (t ++ List.replicate (7 - t.length) ' ')) = some [(12, t)] := by
    rw [mpHead_front, mpTail_trk hl h hp]; rfl
  have e : List.replicate 5 ' ' ++ t ++ List.replicate (7 - t.length) ' ' = pCols none ++ (t ++ List.replicate (7 - t.length) ' ') := by
    rw [List.append_assoc]; rfl
  have ht : truthy (some t) = true := by
    cases t <;> simp_all [truthy]
  rw [e]
  have h1 := minor_comet_none (p := none) (by simp) (t ++ List.replicate (7 - t.length) ' ')
  have h2 := minor_sat_none (p := none) (by simp) (t ++ List.replicate (7 - t.length) ' ')
  simp only [unpackPackedID, unpackMinor, hm, unpackComet, h1, unpackSat, h2]
  simp only [group, List.find?_cons, List.find?_nil, Nat.reduceBEq, beq_self_eq_true, Option.map_some, Option.map_none, bind,
    Except.bind, pure, Except.pure, strip_trk h, ht]
  simp [truthy] at ht ⊢
  simp [ht]

end Verif
