import Verif.Lemmas.UnpackingComet
/-! What the captured groups are turned into. -/
set_option linter.unusedSimpArgs false
namespace Verif.Unpacking
open Verif Verif.PackUtil Verif.Spec Verif.Spec.Packing Verif.Spec.Unpacking Verif.Packing

/-! ### the parts of the minor-planet branch -/

def permPart (m : Match) : Py (Option Str) :=
  if truthy (group m 1) || truthy (group m 3) then do
    let n : Nat ←
      (if truthy (group m 1) then do
        let d ← pyNat (← grp! m 2)
        let l ← unpackLetters (← grp! m 1)
        return d + 10000 * l
      else do
        let n ← unRadix62_4 (← grp! m 3)
        return 620000 + n)
    if n = 0 then raiseRT else return some (natStr n)
  else return none

def provPart (m : Match) : Py (Option Str) := do
  let provID : Option Str ←
      (if truthy (group m 4) then do
        let c ← unpackLetters (← grp! m 4)
        let yy ← pyNat (← grp! m 5)
        let year := natStr (c * 100 + yy)
        let l ← unpackLetters (← grp! m 7)
        let d ← pyNat (← grp! m 8)
        let ns := numOrBlank (l * 10 + d)
        let hm ← grp! m 6
        if truthy (group m 9) then
          return some (year ++ [' '] ++ hm ++ (← grp! m 9) ++ ns)
        else
          return some (c! "A/" ++ year ++ [' '] ++ hm ++ ns)
      else if truthy (group m 13) then do
        let y ← unpackLetters (← grp! m 14)
        let year := natStr (20 * 100 + y)
        let o ← grp! m 16
        let n := 15500 + (← unRadix62_4 ('~' :: o))
        let order := n % 25
        let cycle := natStr ((n - order) / 25)
        let order_letter ← charAt (c! "ABCDEFGHJKLMNOPQRSTUVWXYZ") order
        return some (year ++ [' '] ++ (← grp! m 15) ++ [order_letter] ++ cycle)
      else return none)
  if truthy (group m 10) then do
    let s ← grp! m 10
    return some ((← grp! m 11) ++ [' '] ++ [← charAt s 0] ++ ['-'] ++ [← charAt s 1])
  else return provID

theorem unpackMinor_some {s : Str} {m : Match} (h : reMatch minorplanetPackedIDRegex s = some m) :
    unpackMinor s = (do
      let p ← permPart m
      let q ← provPart m
      return ⟨p, q, if !truthy p && truthy (group m 12) then (group m 12).map strip else group m 12⟩) := by
  simp only [unpackMinor, h, provPart, bind_assoc]
  rfl

theorem unpackMinor_none {s : Str} (h : reMatch minorplanetPackedIDRegex s = none) : unpackMinor s = .ok ⟨none, none, none⟩ := by
  simp only [unpackMinor, h]

theorem permPart_congr {m m' : Match} (h : ∀ i, i < 4 → group m i = group m' i) : permPart m = permPart m' := by
  simp only [permPart, grp!, h 1 (by omega), h 2 (by omega), h 3 (by omega)]

theorem provPart_congr {m m' : Match} (h : ∀ i, 4 ≤ i → i ≠ 12 → group m i = group m' i) : provPart m = provPart m' := by
  simp only [provPart, grp!, h 4 (by omega) (by omega), h 5 (by omega) (by omega), h 6 (by omega) (by omega), h 7 (by omega) (by omega), h 8 (by omega) (by omega), h 9 (by omega) (by omega), h 10 (by omega) (by omega), h 11 (by omega) (by omega), h 13 (by omega) (by omega), h 14 (by omega) (by omega), h 15 (by omega) (by omega), h 16 (by omega) (by omega)]

theorem group_none {k : Caps} {i : Nat} (h : ∀ x ∈ k, x.1 ≠ i) : group k i = none := by
  simp only [group, Option.map_eq_none_iff, List.find?_eq_none, beq_iff_eq]
  exact h

theorem H5.groups {a : Str} {k : Caps} (h : H5 a k) {i : Nat} (hi : 4 ≤ i) : group k i = none := by
  refine group_none fun x hx => ?_
  cases h with
  | blank => simp at hx
  | low => simp at hx; rcases hx with rfl | rfl <;> simp <;> omega
  | high => simp at hx; subst hx; simp; omega

theorem T124.groups {a : Str} {k : Caps} (h : T124 a k) {i : Nat} (hi : i < 4 ∨ i = 12) : group k i = none := by
  refine group_none fun x hx => ?_
  rcases h with h | h | h
  · cases h with
    | mk => simp only [List.mem_append, List.mem_cons, List.not_mem_nil, or_false] at hx
            rcases hx with (rfl | rfl | rfl | rfl | rfl) | hx
            · simp; omega
            · simp; omega
            · simp; omega
            · simp; omega
            · simp; omega
            · split at hx
              · simp at hx
              · simp at hx; subst hx; simp; omega
  · cases h with
    | mk => simp at hx; rcases hx with rfl | rfl <;> simp <;> omega
  · cases h with
    | mk => simp at hx; rcases hx with rfl | rfl | rfl | rfl <;> simp <;> omega

theorem T3.groups {a : Str} {k : Caps} (h : T3 a k) {i : Nat} (hi : i ≠ 12) : group k i = none := by
  refine group_none fun x hx => ?_
  cases h with
  | mk => simp at hx; subst hx; simp; omega

/-! ### values -/

theorem num1 {d : Char} (h : isDec d = true) : pyNat [d] = .ok (value [d]) := pyNat_value ⟨by simp, by simpa using h⟩
theorem num2 {a b : Char} (h : isDec a = true) (h' : isDec b = true) : pyNat [a, b] = .ok (value [a, b]) := pyNat_value ⟨by simp, by simp [h, h']⟩
theorem num3 {a b c : Char} (h : isDec a = true) (h' : isDec b = true) (h'' : isDec c = true) : pyNat [a, b, c] = .ok (value [a, b, c]) := pyNat_value ⟨by simp, by simp [h, h', h'']⟩
theorem num4 {a b c d : Char} (h : isDec a = true) (h' : isDec b = true) (h'' : isDec c = true) (h3 : isDec d = true) : pyNat [a, b, c, d] = .ok (value [a, b, c, d]) :=
  pyNat_value ⟨by simp, by simp [h, h', h'', h3]⟩

theorem dig2 {a b : Char} (h : isDec a = true) (h' : isDec b = true) : Digits 2 [a, b] := ⟨rfl, by simp [h, h']⟩
theorem dig3 {a b c : Char} (h : isDec a = true) (h' : isDec b = true) (h'' : isDec c = true) : Digits 3 [a, b, c] := ⟨rfl, by simp [h, h', h'']⟩
theorem dig4 {a b c d : Char} (h : isDec a = true) (h' : isDec b = true) (h'' : isDec c = true) (h3 : isDec d = true) : Digits 4 [a, b, c, d] := ⟨rfl, by simp [h, h', h'', h3]⟩

theorem b62x4_surj {a b c d : Char} (ha : alnum a = true) (hb : alnum b = true) (hc : alnum c = true) (hd : alnum d = true) : ∃ n, n < 62 ^ 4 ∧ b62x4 n = [a, b, c, d] := by
  obtain ⟨i, hi, rfl⟩ := alnum_b62.1 ha
  obtain ⟨j, hj, rfl⟩ := alnum_b62.1 hb
  obtain ⟨k, hk, rfl⟩ := alnum_b62.1 hc
  obtain ⟨l, hl, rfl⟩ := alnum_b62.1 hd
  refine ⟨((i * 62 + j) * 62 + k) * 62 + l, by omega, ?_⟩
  simp only [b62x4]
  have e1 : (((i * 62 + j) * 62 + k) * 62 + l) / 62 ^ 3 % 62 = i := by omega
  have e2 : (((i * 62 + j) * 62 + k) * 62 + l) / 62 ^ 2 % 62 = j := by omega
  have e3 : (((i * 62 + j) * 62 + k) * 62 + l) / 62 % 62 = k := by omega
  have e4 : (((i * 62 + j) * 62 + k) * 62 + l) % 62 = l := by omega
  rw [e1, e2, e3, e4]

theorem b62x4_alnum {n : Nat} : ∃ a b c d, b62x4 n = [a, b, c, d] ∧ alnum a = true ∧ alnum b = true ∧ alnum c = true ∧ alnum d = true :=
  ⟨_, _, _, _, rfl, alnum_b62.2 ⟨_, Nat.mod_lt _ (by omega), rfl⟩, alnum_b62.2 ⟨_, Nat.mod_lt _ (by omega), rfl⟩, alnum_b62.2 ⟨_, Nat.mod_lt _ (by omega), rfl⟩, alnum_b62.2 ⟨_, Nat.mod_lt _ (by omega), rfl⟩⟩

/-- columns 1-5 -/
theorem H5.number {a : Str} {k : Caps} (h : H5 a k) : ∃ n, Number5 a n ∧ permPart k = if n = some 0 then raiseRT else .ok (n.map dec) := by
  cases h with
  | blank => exact ⟨none, .blank, rfl⟩
  | low h0 h1 h2 h3 h4 =>
    obtain ⟨j, hj, rfl⟩ := alnum_b62.1 h0
    refine ⟨_, .low hj (dig4 h1 h2 h3 h4), ?_⟩
    simp [permPart, grp!, group, truthy, bind, Except.bind, num4 h1 h2 h3 h4, unpackLetters, unpackLetter_b62 hj, pure, Except.pure, dec_eq, Nat.add_comm]
  | high h1 h2 h3 h4 =>
    obtain ⟨n, hn, e⟩ := b62x4_surj h1 h2 h3 h4
    rw [← e]
    refine ⟨_, .high hn, ?_⟩
    have : ¬ (620000 + n = 0) := by omega
    simp [permPart, grp!, group, truthy, bind, Except.bind, unRadix_b62x4 hn, pure, Except.pure, dec_eq, this]

theorem Number5.caps {a : Str} {n : Option Nat} (h : Number5 a n) : ∃ k, H5 a k := by
  cases h with
  | blank => exact ⟨_, .blank⟩
  | low hk hd =>
    obtain ⟨hl, hd⟩ := hd
    obtain ⟨d1, d2, d3, d4, rfl⟩ := len4 (Nat.le_of_eq hl.symm) (Nat.le_of_eq hl)
    simp only [List.forall_mem_cons] at hd
    exact ⟨_, .low (alnum_b62.2 ⟨_, hk, rfl⟩) hd.1 hd.2.1 hd.2.2.1 hd.2.2.2.1⟩
  | high hn =>
    rename_i n
    obtain ⟨a, b, c, d, e, h1, h2, h3, h4⟩ := b62x4_alnum (n := n)
    rw [e]
    exact ⟨_, .high h1 h2 h3 h4⟩

theorem b62x4_inj {m n : Nat} (hm : m < 62 ^ 4) (hn : n < 62 ^ 4) (h : b62x4 m = b62x4 n) : m = n := by
  have e1 := unRadix_b62x4 (c := '~') hm
  rw [h, unRadix_b62x4 hn] at e1
  injection e1 with e1
  exact e1.symm

theorem Number5.unique {a : Str} {n n' : Option Nat} (h : Number5 a n) (h' : Number5 a n') : n = n' := by
  generalize e : a = b at h'
  have hb : ∀ {k : Nat}, k < 62 → b62 k ≠ ' ' ∧ b62 k ≠ '~' := fun hk => ⟨blank_not (alnum_b62.2 ⟨_, hk, rfl⟩), tilde_not (alnum_b62.2 ⟨_, hk, rfl⟩)⟩
  cases h with
  | blank =>
    cases h' with
    | blank => rfl
    | low h => injection e with e1; exact absurd e1.symm (hb h).1
    | high => injection e with e1; exact absurd e1 (by decide)
  | low h =>
    cases h' with
    | blank => injection e with e1; exact absurd e1 (hb h).1
    | low h' => injection e with e1 e2; rw [b62_inj h h' e1, e2]
    | high => injection e with e1; exact absurd e1 (hb h).2
  | high h =>
    cases h' with
    | blank => injection e with e1; exact absurd e1 (by decide)
    | low h => injection e with e1; exact absurd e1.symm (hb h).2
    | high h' => injection e with e1 e2; rw [b62x4_inj h h' e2]

/-- the letter of a place -/
theorem order_at {n : Nat} (h : n < 25) : ∃ o, charAt (c! "ABCDEFGHJKLMNOPQRSTUVWXYZ") n = .ok o ∧ Second o ∧ orderIndex o = n := by
  have hall : ∀ n : Fin 25, ∃ o ∈ orders, charAt (c! "ABCDEFGHJKLMNOPQRSTUVWXYZ") n = .ok o ∧ orderCls o = true ∧ orderIndex o = n := by decide +kernel
  obtain ⟨o, -, h1, h2, h3⟩ := hall ⟨n, h⟩
  exact ⟨o, h1, orderCls_iff.1 h2, h3⟩

/-- columns 6-12 -/
theorem T124.text {r : Str} {k : Caps} (h : T124 r k) : ∃ q, Minor7 r q ∧ provPart k = .ok (some q) := by
  rcases h with h | h | h
  · cases h with
    | @mk c y1 y2 h l d o hc h1 h2 hh hl hd ho =>
      obtain ⟨i, i1, i2, rfl⟩ := IK.1 hc
      obtain ⟨j, hj, rfl⟩ := alnum_b62.1 hl
      have hi : i < 62 := by omega
      rcases ho with ho | rfl
      · refine ⟨_, .normal (yy := [y1, y2]) i1 i2 (dig2 h1 h2) (halfCls_iff.1 hh) hj hd (orderCls_iff.1 ho), ?_⟩
        rw [if_neg (order_zero ho)]
        simp [provPart, grp!, group, truthy, bind, Except.bind, num1 hd, num2 h1 h2, unpackLetters, unpackLetter_b62 hi, unpackLetter_b62 hj, pure, Except.pure, dec_eq, count_eq, Nat.mul_comm]
      · refine ⟨_, .old (yy := [y1, y2]) i1 i2 (dig2 h1 h2) (halfCls_iff.1 hh) hj hd, ?_⟩
        simp [provPart, grp!, group, truthy, bind, Except.bind, num1 hd, num2 h1 h2, unpackLetters, unpackLetter_b62 hi, unpackLetter_b62 hj, pure, Except.pure, dec_eq, count_eq, Nat.mul_comm]
  · cases h with
    | @mk s a b c d h1 h2 h3 h4 =>
      refine ⟨_, .survey s (dig4 h1 h2 h3 h4), ?_⟩
      simp [provPart, grp!, group, truthy, bind, Except.bind, pure, Except.pure, charAt]
  · cases h with
    | @mk y h a b c d hy hh h1 h2 h3 h4 =>
      obtain ⟨i, i1, i2, rfl⟩ := PZ.1 hy
      obtain ⟨n, hn, e⟩ := b62x4_surj h1 h2 h3 h4
      obtain ⟨o, o1, o2, o3⟩ := order_at (n := (15500 + n) % 25) (Nat.mod_lt _ (by omega))
      have hi : i < 62 := by omega
      have en : 25 * ((15500 + n) / 25) + orderIndex o = 15500 + n := by rw [o3]; exact Nat.div_add_mod _ _
      have en' : 25 * ((15500 + n) / 25) + orderIndex o - 15500 = n := by omega
      have := Minor7.extended (n := (15500 + n) / 25) i1 i2 (halfCls_iff.1 hh) o2 (by omega) (by omega)
      rw [en'] at this
      rw [← e]
      refine ⟨_, this, ?_⟩
      have ec : (15500 + n - (15500 + n) % 25) / 25 = (15500 + n) / 25 := by omega
      simp only [provPart, grp!, group, truthy, bind, Except.bind, unpackLetters, unpackLetter_b62 hi, unRadix_b62x4 hn, pure, Except.pure, dec_eq, List.find?_cons, List.find?_nil]
      simp [o1, ec, unpackLetter_b62 hi, unRadix_b62x4 hn]

theorem Minor7.caps {r q : Str} (h : Minor7 r q) : ∃ k, T124 r k := by
  cases h with
  | @normal c yy h k d o c1 c2 hy hh hk hd ho =>
    obtain ⟨hl, hy⟩ := hy
    obtain ⟨y1, y2, rfl⟩ := len2 (Nat.le_of_eq hl.symm) (Nat.le_of_eq hl)
    simp only [List.forall_mem_cons] at hy
    exact ⟨_, .inl (.mk (IK.2 ⟨_, c1, c2, rfl⟩) hy.1 hy.2.1 (halfCls_iff.2 hh) (alnum_b62.2 ⟨_, hk, rfl⟩) hd (.inl (orderCls_iff.2 ho)))⟩
  | @old c yy h k d c1 c2 hy hh hk hd =>
    obtain ⟨hl, hy⟩ := hy
    obtain ⟨y1, y2, rfl⟩ := len2 (Nat.le_of_eq hl.symm) (Nat.le_of_eq hl)
    simp only [List.forall_mem_cons] at hy
    exact ⟨_, .inl (.mk (IK.2 ⟨_, c1, c2, rfl⟩) hy.1 hy.2.1 (halfCls_iff.2 hh) (alnum_b62.2 ⟨_, hk, rfl⟩) hd (.inr rfl))⟩
  | @survey s n hn =>
    obtain ⟨hl, hn⟩ := hn
    obtain ⟨d1, d2, d3, d4, rfl⟩ := len4 (Nat.le_of_eq hl.symm) (Nat.le_of_eq hl)
    simp only [List.forall_mem_cons] at hn
    exact ⟨_, .inr (.inl (.mk hn.1 hn.2.1 hn.2.2.1 hn.2.2.2.1))⟩
  | @extended y h o n y1 y2 hh ho n1 n2 =>
    obtain ⟨a, b, c, d, e, h1, h2, h3, h4⟩ := b62x4_alnum (n := 25 * n + orderIndex o - 15500)
    rw [e]
    exact ⟨_, .inr (.inr (.mk (PZ.2 ⟨_, y1, y2, rfl⟩) (halfCls_iff.2 hh) h1 h2 h3 h4))⟩

/-! ### comets -/

def cometPerm (m : Match) (ty : Str) : Py (Option Str) :=
  if truthy (group m 1) then do
    let n ← pyNat (← grp! m 1)
    if n = 0 then raiseRT
    else if ty ≠ c! "P" ∧ ty ≠ c! "D" then raiseRT
    else
      let p := natStr n ++ ty
      let p ← (if truthy (group m 9) then do return p ++ ['-'] ++ (← grp! m 9).map asciiUpper
               else return p : Py Str)
      let p ← (if truthy (group m 11) then do
                 return p ++ ['-'] ++ (strip ((← grp! m 10) ++ (← grp! m 11))).map asciiUpper
               else return p : Py Str)
      return some p
  else return none

def cometProv (m : Match) (ty : Str) : Py (Option Str) :=
  if truthy (group m 3) then do
    let c ← unpackLetters (← grp! m 3)
    let yy ← pyNat (← grp! m 4)
    let y := natStr (c * 100 + yy)
    let l ← unpackLetters (← grp! m 6)
    let d ← pyNat (← grp! m 7)
    let ns := numOrBlank (l * 10 + d)
    let extra := if truthy (group m 8) then (group m 8).getD [] else []
    let frag := if truthy (group m 9) then '-' :: ((group m 9).getD []).map asciiUpper else []
    return some (ty ++ ['/'] ++ y ++ [' '] ++ (← grp! m 5) ++ extra ++ ns ++ frag)
  else return none

theorem unpackComet_some {s : Str} {m : Match} (h : reMatch cometPackedIDRegex s = some m) :
    unpackComet s ⟨none, none, none⟩ = (do
      let ty ← grp! m 2
      let p ← cometPerm m ty
      let q ← cometProv m ty
      return ⟨p, q, none⟩) := by
  simp only [unpackComet, h]
  rfl

/-- what the columns 6-12 add to the permanent designation -/
def fragPart (k : Caps) : Py Str := do
  let p ← (if truthy (group k 9) then do return ['-'] ++ (← grp! k 9).map asciiUpper else return [] : Py Str)
  if truthy (group k 11) then do return p ++ ['-'] ++ (strip ((← grp! k 10) ++ (← grp! k 11))).map asciiUpper else return p

theorem C7.groups {a : Str} {k : Caps} (h : C7 a k) {i : Nat} (hi : i < 3) : group k i = none := by
  refine group_none fun x hx => ?_
  cases h with
  | body =>
    simp only [List.mem_append, List.mem_cons, List.not_mem_nil, or_false] at hx
    rcases hx with (rfl | rfl | rfl | rfl | rfl) | hx
    · simp; omega
    · simp; omega
    · simp; omega
    · simp; omega
    · simp; omega
    · unfold lastCaps at hx
      split at hx
      · simp at hx
      · split at hx <;> simp at hx <;> subst hx <;> simp <;> omega
  | frag => simp at hx; rcases hx with rfl | rfl <;> simp <;> omega
  | blank => simp at hx

theorem C4.groups {a : Str} {k : Caps} (h : C4 a k) {i : Nat} (hi : i ≠ 1) : group k i = none := by
  refine group_none fun x hx => ?_
  cases h with
  | blank => simp at hx
  | number => simp at hx; subst hx; simp; omega

theorem caps_right {k1 k2 : Caps} {i : Nat} (h : group k1 i = none) : group (k1 ++ k2) i = group k2 i := by
  rw [group_append, h]; rfl
theorem caps_left {k1 k2 : Caps} {i : Nat} (h : group k2 i = none) : group (k1 ++ k2) i = group k1 i := by
  rw [group_append, h]; cases group k1 i <;> rfl

theorem C4.num {a : Str} {k : Caps} (h : C4 a k) : ∃ n, Number4 a n ∧ ((n = none ∧ group k 1 = none) ∨ ∃ ds, Digits 4 ds ∧ n = some (value ds) ∧ group k 1 = some ds ∧ pyNat ds = .ok (value ds)) := by
  cases h with
  | blank => exact ⟨none, .blank, .inl ⟨rfl, rfl⟩⟩
  | number h1 h2 h3 h4 => exact ⟨_, .number (dig4 h1 h2 h3 h4), .inr ⟨_, dig4 h1 h2 h3 h4, rfl, rfl, num4 h1 h2 h3 h4⟩⟩

theorem Number4.caps {a : Str} {n : Option Nat} (h : Number4 a n) : ∃ k, C4 a k := by
  cases h with
  | blank => exact ⟨_, .blank⟩
  | number hd =>
    obtain ⟨hl, hd⟩ := hd
    obtain ⟨d1, d2, d3, d4, rfl⟩ := len4 (Nat.le_of_eq hl.symm) (Nat.le_of_eq hl)
    simp only [List.forall_mem_cons] at hd
    exact ⟨_, .number hd.1 hd.2.1 hd.2.2.1 hd.2.2.2.1⟩

theorem Number4.unique {a : Str} {n n' : Option Nat} (h : Number4 a n) (h' : Number4 a n') : n = n' := by
  generalize e : a = b at h'
  have hb : ∀ {ds : Str}, Digits 4 ds → ds ≠ spaces 4 := by
    rintro ds ⟨-, hd⟩ rfl
    exact absurd (hd ' ' (by simp [spaces])) (by decide)
  cases h with
  | blank =>
    cases h' with
    | blank => rfl
    | number h => exact absurd e.symm (hb h)
  | number h =>
    cases h' with
    | blank => exact absurd e (hb h)
    | number => rw [e]

theorem strip1 {b : Char} (h : rng 'a' 'z' b = true) : strip [' ', b] = [b] := by
  obtain ⟨f, hf, rfl, -⟩ := lower_az.1 h
  refine strip_frag1 (List.mem_map.2 ⟨f, ?_, rfl⟩)
  have hf := capital_rng.1 hf
  have hc : f.toNat < 123 := by
    simp only [rng, Bool.and_eq_true, decide_eq_true_eq] at hf
    have := hf.2; have e : 'Z'.toNat = 90 := rfl; omega
  have hall : ∀ n : Fin 123, rng 'A' 'Z' (Char.ofNat n) = true → Char.ofNat n ∈ upperCase := by decide +kernel
  have := hall ⟨f.toNat, hc⟩ (by simpa [Char.ofNat_toNat] using hf)
  simpa [Char.ofNat_toNat] using this

theorem capital_upper {f : Char} (hf : Capital f) : f ∈ upperCase := by
  have hf := capital_rng.1 hf
  have hc : f.toNat < 123 := by
    simp only [rng, Bool.and_eq_true, decide_eq_true_eq] at hf
    have := hf.2; have e : 'Z'.toNat = 90 := rfl; omega
  have hall : ∀ n : Fin 123, rng 'A' 'Z' (Char.ofNat n) = true → Char.ofNat n ∈ upperCase := by decide +kernel
  have := hall ⟨f.toNat, hc⟩ (by simpa [Char.ofNat_toNat] using hf)
  simpa [Char.ofNat_toNat] using this

theorem strip2 {a b : Char} (h : rng 'a' 'z' a = true) (h' : rng 'a' 'z' b = true) : strip [a, b] = [a, b] := by
  obtain ⟨f, hf, rfl, -⟩ := lower_az.1 h
  obtain ⟨g, hg, rfl, -⟩ := lower_az.1 h'
  exact strip_frag2 (List.mem_map.2 ⟨f, capital_upper hf, rfl⟩) (List.mem_map.2 ⟨g, capital_upper hg, rfl⟩)

theorem C7.text {r : Str} {k : Caps} (h : C7 r k) (ty : Char) : ∃ q f, Comet7 ty r q f ∧ cometProv k [ty] = .ok q ∧ fragPart k = .ok f := by
  cases h with
  | @body c y1 y2 h l d z hc h1 h2 hh hl hd hz =>
    obtain ⟨i, hi, rfl⟩ := alnum_b62.1 hc
    obtain ⟨j, hj, rfl⟩ := alnum_b62.1 hl
    rcases hz with rfl | hz | hz
    · refine ⟨_, _, .plain (yy := [y1, y2]) hi (dig2 h1 h2) (halfCls_iff.1 hh) hj hd, ?_, ?_⟩
      · simp [cometProv, lastCaps, grp!, group, truthy, bind, Except.bind, num1 hd, num2 h1 h2, unpackLetters, unpackLetter_b62 hi, unpackLetter_b62 hj, pure, Except.pure, dec_eq, count_eq, Nat.mul_comm]
      · simp [fragPart, lastCaps, grp!, group, truthy, bind, Except.bind, pure, Except.pure]
    · refine ⟨_, _, .letters (yy := [y1, y2]) hi (dig2 h1 h2) (halfCls_iff.1 hh) hj hd (capital_rng.2 hz), ?_, ?_⟩
      · simp [cometProv, lastCaps, AZ_zero hz, hz, grp!, group, truthy, bind, Except.bind, num1 hd, num2 h1 h2, unpackLetters, unpackLetter_b62 hi, unpackLetter_b62 hj, pure, Except.pure, dec_eq, count_eq, Nat.mul_comm]
      · simp [fragPart, lastCaps, AZ_zero hz, hz, grp!, group, truthy, bind, Except.bind, pure, Except.pure]
    · have z1 := (az_not hz).1
      have z2 := (az_not hz).2.1
      obtain ⟨f, hf, e, eu⟩ := lower_az.1 hz
      subst e
      refine ⟨_, _, Comet7.fragment (yy := [y1, y2]) hi (dig2 h1 h2) (halfCls_iff.1 hh) hj hd hf, ?_, ?_⟩
      · simp [cometProv, lastCaps, z1, z2, eu, grp!, group, truthy, bind, Except.bind, num1 hd, num2 h1 h2, unpackLetters, unpackLetter_b62 hi, unpackLetter_b62 hj, pure, Except.pure, dec_eq, count_eq, Nat.mul_comm]
      · simp [fragPart, lastCaps, z1, z2, eu, grp!, group, truthy, bind, Except.bind, pure, Except.pure]
  | @frag a b ha hb =>
    obtain ⟨g, hg, e, eu⟩ := lower_az.1 hb
    subst e
    rcases ha with ha | rfl
    · obtain ⟨f, hf, e', eu'⟩ := lower_az.1 ha
      subst e'
      refine ⟨_, _, Comet7.two hf hg, rfl, ?_⟩
      simp [fragPart, grp!, group, truthy, bind, Except.bind, pure, Except.pure, strip2 ha hb, eu, eu']
    · refine ⟨_, _, Comet7.one hg, rfl, ?_⟩
      simp [fragPart, grp!, group, truthy, bind, Except.bind, pure, Except.pure, strip1 hb, eu]
  | blank n => exact ⟨_, _, .blank n, rfl, rfl⟩

theorem Comet7.caps {ty : Char} {r f : Str} {q : Option Str} (h : Comet7 ty r q f) : ∃ k, C7 r k := by
  have two : ∀ {yy : Str}, Digits 2 yy → ∃ y1 y2, yy = [y1, y2] ∧ isDec y1 = true ∧ isDec y2 = true := by
    rintro yy ⟨hl, hy⟩
    obtain ⟨y1, y2, rfl⟩ := len2 (Nat.le_of_eq hl.symm) (Nat.le_of_eq hl)
    simp only [List.forall_mem_cons] at hy
    exact ⟨_, _, rfl, hy.1, hy.2.1⟩
  have az : ∀ {f : Char}, Capital f → rng 'a' 'z' (lower f) = true := fun hf => lower_az.2 ⟨_, hf, rfl, lower_up hf⟩
  cases h with
  | plain hc hy hh hk hd =>
    obtain ⟨y1, y2, rfl, h1, h2⟩ := two hy
    exact ⟨_, .body (alnum_b62.2 ⟨_, hc, rfl⟩) h1 h2 (halfCls_iff.2 hh) (alnum_b62.2 ⟨_, hk, rfl⟩) hd (.inl rfl)⟩
  | letters hc hy hh hk hd ho =>
    obtain ⟨y1, y2, rfl, h1, h2⟩ := two hy
    exact ⟨_, .body (alnum_b62.2 ⟨_, hc, rfl⟩) h1 h2 (halfCls_iff.2 hh) (alnum_b62.2 ⟨_, hk, rfl⟩) hd (.inr (.inl (capital_rng.1 ho)))⟩
  | fragment hc hy hh hk hd hf =>
    obtain ⟨y1, y2, rfl, h1, h2⟩ := two hy
    exact ⟨_, .body (alnum_b62.2 ⟨_, hc, rfl⟩) h1 h2 (halfCls_iff.2 hh) (alnum_b62.2 ⟨_, hk, rfl⟩) hd (.inr (.inr (az hf)))⟩
  | one hf => exact ⟨_, .frag (.inr rfl) (az hf)⟩
  | two hf hg => exact ⟨_, .frag (.inl (az hf)) (az hg)⟩
  | blank n => exact ⟨_, .blank n⟩

theorem fragPart_bind {m k : Caps} (h : ∀ i, 3 ≤ i → group m i = group k i) {f p : Str} (hf : fragPart k = .ok f) :
    (do let p ← (if truthy (group m 9) then do return p ++ ['-'] ++ (← grp! m 9).map asciiUpper else return p : Py Str)
        let p ← (if truthy (group m 11) then do return p ++ ['-'] ++ (strip ((← grp! m 10) ++ (← grp! m 11))).map asciiUpper else return p : Py Str)
        return some p : Py (Option Str)) = .ok (some (p ++ f)) := by
  simp only [grp!, h 9 (by omega), h 10 (by omega), h 11 (by omega)]
  simp only [fragPart, grp!] at hf
  generalize group k 9 = g9 at hf ⊢
  generalize group k 10 = g10 at hf ⊢
  generalize group k 11 = g11 at hf ⊢
  rcases g9 with _ | _ | ⟨x, g9⟩ <;> rcases g10 with _ | g10 <;> rcases g11 with _ | _ | ⟨y, g11⟩ <;> cases hf <;> simp [truthy, bind, Except.bind, pure, Except.pure]

theorem comet_run {a r : Str} {k1 k2 : Caps} {ty : Char} {s : Str} (h1 : C4 a k1) (h2 : C7 r k2) (hm : reMatch cometPackedIDRegex s = some (k1 ++ [(2, [ty])] ++ k2)) :
    ∃ n q f, Number4 a n ∧ Comet7 ty r q f ∧ unpackComet s ⟨none, none, none⟩ =
      if n = some 0 ∨ (n ≠ none ∧ ty ≠ 'P' ∧ ty ≠ 'D') then raiseRT else .ok ⟨n.map fun n => dec n ++ [ty] ++ f, q, none⟩ := by
  obtain ⟨n, hn, hn'⟩ := h1.num
  obtain ⟨q, f, hq, eq, ef⟩ := h2.text ty
  refine ⟨n, q, f, hn, hq, ?_⟩
  have g2 : group (k1 ++ [(2, [ty])] ++ k2) 2 = some [ty] := by
    rw [caps_left (h2.groups (by omega)), caps_right (h1.groups (by omega))]; rfl
  have g1 : group (k1 ++ [(2, [ty])] ++ k2) 1 = group k1 1 := by
    rw [caps_left (h2.groups (by omega)), caps_left rfl]
  have g3 : ∀ i, 3 ≤ i → group (k1 ++ [(2, [ty])] ++ k2) i = group k2 i := by
    intro i hi
    rw [caps_right]
    rw [caps_right (h1.groups (by omega))]
    exact group_none fun x hx => by simp at hx; subst hx; simp; omega
  have ep : cometProv (k1 ++ [(2, [ty])] ++ k2) [ty] = .ok q := by
    rw [← eq]
    simp only [cometProv, grp!, g3 3 (by omega), g3 4 (by omega), g3 5 (by omega), g3 6 (by omega), g3 7 (by omega), g3 8 (by omega), g3 9 (by omega)]
  rw [unpackComet_some hm]
  simp only [grp_of g2, ep]
  rcases hn' with ⟨rfl, hg⟩ | ⟨ds, hd, rfl, hg, hv⟩
  · have : cometPerm (k1 ++ [(2, [ty])] ++ k2) [ty] = .ok none := by
      rw [cometPerm, g1, hg]; rfl
    simp only [bind, Except.bind, this]
    rw [ep]
    simp [pure, Except.pure]
  · have hne : truthy (some ds) = true := by
      obtain ⟨hl, -⟩ := hd
      cases ds with
      | nil => simp at hl
      | cons => rfl
    have : cometPerm (k1 ++ [(2, [ty])] ++ k2) [ty] = if value ds = 0 then raiseRT else if [ty] ≠ c! "P" ∧ [ty] ≠ c! "D" then raiseRT else .ok (some (natStr (value ds) ++ [ty] ++ f)) := by
      rw [← fragPart_bind g3 ef]
      rw [cometPerm, g1, hg, if_pos hne]
      simp only [grp_of (g1.trans hg), bind, Except.bind, hv]
    rw [show (bind (Except.ok [ty]) fun ty_1 => bind (cometPerm (k1 ++ [(2, [ty])] ++ k2) ty_1) fun p => bind (cometProv (k1 ++ [(2, [ty])] ++ k2) ty_1) fun q => pure (⟨p, q, none⟩ : IDs)) =
      bind (cometPerm (k1 ++ [(2, [ty])] ++ k2) [ty]) fun p => bind (cometProv (k1 ++ [(2, [ty])] ++ k2) [ty]) fun q => pure (⟨p, q, none⟩ : IDs) from rfl, this, ep]
    by_cases c1 : value ds = 0
    · rw [if_pos c1, if_pos (.inl (by rw [c1]))]; rfl
    · rw [if_neg c1]
      by_cases c2 : ty ≠ 'P' ∧ ty ≠ 'D'
      · rw [if_pos (by simpa using c2), if_pos (.inr ⟨by simp, c2⟩)]; rfl
      · rw [if_neg (by simpa using c2), if_neg (by simpa [c1] using c2)]
        simp [bind, Except.bind, pure, Except.pure, dec_eq]

/-! ### satellites -/

theorem S4.num {a : Str} {k : Caps} (h : S4 a k) : ∃ n, Sat4 a n ∧ ((n = none ∧ k = []) ∨ ∃ (p : Planet) (ds : Str), n = some (p, value ds) ∧ k = [(1, [p.letter]), (2, ds)] ∧ pyNat ds = .ok (value ds)) := by
  cases h with
  | blank => exact ⟨none, .blank, .inl ⟨rfl, rfl⟩⟩
  | number h1 h2 h3 => exact ⟨_, .number (dig3 h1 h2 h3), .inr ⟨_, _, rfl, rfl, num3 h1 h2 h3⟩⟩

theorem planet_name (p : Planet) : planetName [p.letter] = .ok p.name := by cases p <;> rfl

theorem sat_run {a r : Str} {k1 k2 : Caps} {s : Str} (h1 : S4 a k1) (h2 : S7 r k2) (hm : reMatch satellitePackedIDRegex s = some (k1 ++ k2)) :
    ∃ n q, Sat4 a n ∧ Sat7 r q ∧ unpackSat s ⟨none, none, none⟩ =
      if (∃ x ∈ n, x.2 = 0) then raiseRT else .ok ⟨n.map fun x => x.1.name ++ [' '] ++ dec x.2, q, none⟩ := by
  obtain ⟨n, hn, hn'⟩ := h1.num
  rcases hn' with ⟨rfl, rfl⟩ | ⟨p, ds, rfl, rfl, hv⟩
  · cases h2 with
    | @body c y1 y2 l d p hc h1 h2 hl hd =>
      obtain ⟨i, hi, rfl⟩ := alnum_b62.1 hc
      obtain ⟨j, hj, rfl⟩ := alnum_b62.1 hl
      refine ⟨_, _, hn, .prov (p := p) (yy := [y1, y2]) hi (dig2 h1 h2) hj hd, ?_⟩
      simp only [unpackSat, hm]
      simp [grp!, group, truthy, bind, Except.bind, num1 hd, num2 h1 h2, unpackLetters, unpackLetter_b62 hi, unpackLetter_b62 hj, pure, Except.pure, dec_eq, count_eq, Nat.mul_comm]
    | blank n =>
      refine ⟨_, _, hn, .blank n, ?_⟩
      simp only [unpackSat, hm]
      simp [group, truthy, bind, Except.bind, pure, Except.pure]
  · by_cases hz : value ds = 0
    · obtain ⟨q, hq⟩ : ∃ q, Sat7 r q := by
        cases h2 with
        | @body c y1 y2 l d p hc h1 h2 hl hd =>
          obtain ⟨i, hi, rfl⟩ := alnum_b62.1 hc
          obtain ⟨j, hj, rfl⟩ := alnum_b62.1 hl
          exact ⟨_, .prov (p := p) (yy := [y1, y2]) hi (dig2 h1 h2) hj hd⟩
        | blank n => exact ⟨_, .blank n⟩
      refine ⟨_, q, hn, hq, ?_⟩
      simp only [unpackSat, hm]
      simp [grp!, group, truthy, bind, Except.bind, hv, hz, raiseRT]
    · cases h2 with
      | @body c y1 y2 l d p' hc h1 h2 hl hd =>
        obtain ⟨i, hi, rfl⟩ := alnum_b62.1 hc
        obtain ⟨j, hj, rfl⟩ := alnum_b62.1 hl
        refine ⟨_, _, hn, .prov (p := p') (yy := [y1, y2]) hi (dig2 h1 h2) hj hd, ?_⟩
        simp only [unpackSat, hm]
        simp [grp!, group, truthy, bind, Except.bind, hv, hz, planet_name, num1 hd, num2 h1 h2, unpackLetters, unpackLetter_b62 hi, unpackLetter_b62 hj, pure, Except.pure, dec_eq, count_eq, Nat.mul_comm]
      | blank n =>
        refine ⟨_, _, hn, .blank n, ?_⟩
        simp only [unpackSat, hm]
        simp [grp!, group, truthy, bind, Except.bind, hv, hz, planet_name, pure, Except.pure, dec_eq]

theorem Sat4.caps {a : Str} {n : Option (Planet × Nat)} (h : Sat4 a n) : ∃ k, S4 a k := by
  cases h with
  | blank => exact ⟨_, .blank⟩
  | number hd =>
    obtain ⟨hl, hd⟩ := hd
    obtain ⟨d1, d2, d3, rfl⟩ := len3 (Nat.le_of_eq hl.symm) (Nat.le_of_eq hl)
    simp only [List.forall_mem_cons] at hd
    exact ⟨_, .number hd.1 hd.2.1 hd.2.2.1⟩

theorem Sat7.caps {r : Str} {q : Option Str} (h : Sat7 r q) : ∃ k, S7 r k := by
  cases h with
  | prov hc hy hk hd =>
    obtain ⟨hl, hy⟩ := hy
    obtain ⟨y1, y2, rfl⟩ := len2 (Nat.le_of_eq hl.symm) (Nat.le_of_eq hl)
    simp only [List.forall_mem_cons] at hy
    exact ⟨_, .body (alnum_b62.2 ⟨_, hc, rfl⟩) hy.1 hy.2.1 (alnum_b62.2 ⟨_, hk, rfl⟩) hd⟩
  | blank n => exact ⟨_, .blank n⟩

end Verif.Unpacking
