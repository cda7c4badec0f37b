import Verif.Lemmas.PackProv
/-! `unpackPackedID` on the columns of every valid designation. -/
namespace Verif
open Verif.PackUtil

/-! #### character families -/

def b62s : Str := (List.range 62).map Spec.b62
def jsun : Str := c! "JSUN"
/-- letters other than J, S, U, N -/
def otherLetters : Str := (c! "ABCDEFGHIKLMOPQRTVWXYZabcdefghijklmnopqrstuvwxyz")
def lowers : Str := Spec.upperCase.map Spec.lower

theorem b62_mem {k : Nat} (h : k < 62) : Spec.b62 k ∈ b62s := List.mem_map.2 ⟨k, List.mem_range.2 h, rfl⟩
theorem lower_mem {c : Char} (h : c ∈ Spec.upperCase) : Spec.lower c ∈ lowers := List.mem_map.2 ⟨c, h, rfl⟩

theorem b62_split {k : Nat} (h : k < 62) : Spec.b62 k ∈ digits10 ∨ Spec.b62 k ∈ jsun ∨ Spec.b62 k ∈ otherLetters := by
  have := forall_lt_of_all (P := fun k => digits10.contains (Spec.b62 k) || jsun.contains (Spec.b62 k) ||
    otherLetters.contains (Spec.b62 k)) 62 (by decide +kernel) k h
  simpa [or_assoc] using this

theorem fixed4_fams {n : Nat} (h : n < 10000) : ∃ a b c d, Spec.fixed 4 n = [a, b, c, d] ∧ a ∈ digits10 ∧ b ∈ digits10 ∧
    c ∈ digits10 ∧ d ∈ digits10 :=
  ⟨_, _, _, _, fixed4 h, dmem (by omega), dmem (by omega), dmem (by omega), dmem (by omega)⟩

/-! #### the minor-planet pattern -/

def mpHead : List Re :=
  [alts [times 5 (ch ' '),
             cat [.grp 1 (.cls alnum), .grp 2 (times 4 isDec)],
             .grp 3 (cat [.cls (ch '~'), times 4 alnum])]]
def mpAlt1 : Re := cat [.grp 4 (.cls (rng 'I' 'K')), .grp 5 (times 2 isDec), .grp 6 (.cls halfCls),
                  .grp 7 (.cls alnum), .grp 8 (.cls isDec),
                  .alt (.grp 9 (.cls orderCls)) (.cls (ch '0'))]
def mpAlt2 : Re := cat [.grp 10 (alts [lit (c! "PL"), lit (c! "T1"), lit (c! "T2"), lit (c! "T3")]),
                  .cls (ch 'S'), .grp 11 (times 4 isDec)]
def mpAlt3 : Re := cat [.grp 12 (.rep 0 (some 8) trkCls), star (ch ' ')]
def mpAlt4 : Re := cat [.grp 13 (.cls (ch '_')), .grp 14 (.cls (rng 'P' 'Z')), .grp 15 (.cls halfCls),
                  .grp 16 (times 4 alnum)]
def mpTail : List Re := [alts [mpAlt1, mpAlt2, mpAlt3, mpAlt4, star (ch ' ')], .eos]

theorem mp_eq : minorplanetPackedIDRegex = cat (mpHead ++ mpTail) := rfl

def pCols : Option Nat → Str
  | none => c! "     "
  | some n => (Spec.Perm.minor n).cols
def pCaps : Option Nat → Caps
  | none => []
  | some n => if n < 620000 then [(1, [Spec.b62 (n / 10000)]), (2, Spec.fixed 4 (n % 10000))]
      else [(3, '~' :: Spec.b62x4 (n - 620000))]

theorem mpHead_front {p : Option Nat} (v : Str) :
    reMatch minorplanetPackedIDRegex (pCols p ++ v) = (reMatch (cat mpTail) v).map (pCaps p ++ ·) := by
  rw [mp_eq]
  cases p with
  | none =>
    exact reMatch_front (Fs := [[' '], [' '], [' '], [' '], [' ']]) (k := []) (by simp [mpTail])
      (by simp [InFams, pCols]) (by refine ⟨⟨by simp [mpHead], ?_⟩, ?_⟩ <;> decide +kernel)
  | some n =>
    simp only [pCols, pCaps, Spec.Perm.cols]
    by_cases hn : n < 620000
    · rw [if_pos hn, if_pos hn, fixed4 (n := n % 10000) (by omega)]
      exact reMatch_front (Fs := [b62s, digits10, digits10, digits10, digits10]) (k := [(1, 0, 1), (2, 1, 4)])
        (by simp [mpTail])
        (by simp only [InFams]
            exact ⟨b62_mem (by omega), dmem (by omega), dmem (by omega), dmem (by omega), dmem (by omega), trivial⟩)
        (by refine ⟨⟨by simp [mpHead], ?_⟩, ?_⟩ <;> decide +kernel)
    · rw [if_neg hn, if_neg hn]
      exact reMatch_front (Fs := [['~'], b62s, b62s, b62s, b62s]) (k := [(3, 0, 5)])
        (by simp [mpTail])
        (by simp only [InFams, Spec.b62x4]
            exact ⟨by simp, b62_mem (Nat.mod_lt _ (by omega)), b62_mem (Nat.mod_lt _ (by omega)),
              b62_mem (Nat.mod_lt _ (by omega)), b62_mem (Nat.mod_lt _ (by omega)), trivial⟩)
        (by refine ⟨⟨by simp [mpHead], ?_⟩, ?_⟩ <;> decide +kernel)

/-- the provisional part of a minor-planet designation (`comet` with type `A`: asteroidal comet) -/
def ProvMinorLike : Option Spec.Prov → Prop
  | none => True
  | some (.minor year half order cycle) => (Spec.Prov.minor year half order cycle).Valid
  | some (.survey n s) => (Spec.Prov.survey n s).Valid
  | some (.comet ty year half order num) => ty = 'A' ∧ 1800 ≤ year ∧ year ≤ 2099 ∧ half ∈ Spec.halfMonths ∧ order = none ∧ num ≤ 619
  | _ => False
def tCols : Option Spec.Prov → Str
  | none => c! "       "
  | some q => q.cols.drop 1
def yCaps (g y : Nat) : Caps := [(g, [Spec.b62 (y / 100)]), (g + 1, [digitChar (y / 10 % 10), digitChar (y % 10)])]
def nCaps (g n : Nat) : Caps := [(g, [Spec.b62 (n / 10)]), (g + 1, [digitChar (n % 10)])]
def tCaps : Option Spec.Prov → Caps
  | some (.minor year half order cycle) =>
    if cycle ≤ 619 then yCaps 4 year ++ [(6, [half])] ++ nCaps 7 cycle ++ [(9, [order])]
    else [(13, ['_']), (14, [Spec.b62 (year % 100)]), (15, [half]), (16, Spec.b62x4 (25 * cycle + Spec.orderIndex order - 15500))]
  | some (.survey n s) => [(10, [s.letter, s.digit]), (11, Spec.fixed 4 n)]
  | some (.comet _ year half _ num) => yCaps 4 year ++ [(6, [half])] ++ nCaps 7 num
  | _ => [(12, [])]

theorem countCols_eq {n : Nat} : Spec.countCols n = [Spec.b62 (n / 10), digitChar (n % 10)] := by
  simp [Spec.countCols, b62_digit (d := n % 10) (Nat.mod_lt _ (by omega))]

theorem century_IJK {y : Nat} (h1 : 1800 ≤ y) (h2 : y ≤ 2099) : Spec.b62 (y / 100) ∈ (c! "IJK") := by
  have : y / 100 = 18 ∨ y / 100 = 19 ∨ y / 100 = 20 := by omega
  rcases this with h | h | h <;> rw [h] <;> decide

theorem mpTail_match {q : Option Spec.Prov} (h : ProvMinorLike q) : reMatch (cat mpTail) (tCols q) = some (tCaps q) := by
  match q, h with
  | none, _ => decide +kernel
  | some (.minor y half order c), ⟨h1, h2, h3, h4, h5⟩ =>
    simp only [tCols, tCaps, Spec.Prov.cols]
    by_cases hc : c ≤ 619
    · rw [if_pos hc, if_pos hc, yearCols_eq, countCols_eq]
      exact reMatch_fams (Fs := [c! "IJK", digits10, digits10, Spec.halfMonths, b62s, digits10, Spec.orders])
        (o := some [(4, 0, 1), (5, 1, 2), (6, 3, 1), (7, 4, 1), (8, 5, 1), (9, 6, 1)])
        (by simp only [InFams, List.cons_append, List.nil_append, List.drop_succ_cons, List.drop_zero]
            exact ⟨century_IJK h1 h2, dmem (by omega), dmem (by omega), h3, b62_mem (by omega), dmem (by omega), h4, trivial⟩)
        (by decide +kernel)
    · rw [if_neg hc, if_neg hc]
      have hy : Spec.b62 (y % 100) ∈ (c! "PQRSTUVWXYZ") := by
        have : y % 100 - 25 < 11 := by omega
        have h := forall_lt_of_all (P := fun k => (c! "PQRSTUVWXYZ").contains (Spec.b62 (k + 25))) 11 (by decide +kernel) _ this
        rw [show y % 100 - 25 + 25 = y % 100 by omega] at h
        simpa using h
      exact reMatch_fams (Fs := [['_'], c! "PQRSTUVWXYZ", Spec.halfMonths, b62s, b62s, b62s, b62s])
        (o := some [(13, 0, 1), (14, 1, 1), (15, 2, 1), (16, 3, 4)])
        (by simp only [InFams, List.cons_append, List.nil_append, List.drop_succ_cons, List.drop_zero, Spec.b62x4]
            exact ⟨by simp, hy, h3, b62_mem (Nat.mod_lt _ (by omega)), b62_mem (Nat.mod_lt _ (by omega)),
              b62_mem (Nat.mod_lt _ (by omega)), b62_mem (Nat.mod_lt _ (by omega)), trivial⟩)
        (by decide +kernel)
  | some (.survey n s), h =>
    have h : n ≤ 9999 := h
    simp only [tCols, tCaps, Spec.Prov.cols, fixed4 (show n < 10000 by omega)]
    have hf : ∀ a b, s.letter ∈ a → s.digit ∈ b → InFams (List.drop 1 ([' ', s.letter, s.digit, 'S'] ++
        [digitChar (n / 1000), digitChar (n / 100 % 10), digitChar (n / 10 % 10), digitChar (n % 10)]))
        [a, b, ['S'], digits10, digits10, digits10, digits10] := by
      intro a b ha hb
      simp only [InFams, List.cons_append, List.nil_append, List.drop_succ_cons, List.drop_zero]
      exact ⟨ha, hb, by simp, dmem (by omega), dmem (by omega), dmem (by omega), dmem (by omega), trivial⟩
    have e : [(10, [s.letter, s.digit]), (11, [digitChar (n / 1000), digitChar (n / 100 % 10), digitChar (n / 10 % 10), digitChar (n % 10)])]
        = capsAt (List.drop 1 ([' ', s.letter, s.digit, 'S'] ++
        [digitChar (n / 1000), digitChar (n / 100 % 10), digitChar (n / 10 % 10), digitChar (n % 10)])) [(10, 0, 2), (11, 3, 4)] := rfl
    rw [e]
    cases s with
    | PL => exact reMatch_fams (o := some [(10, 0, 2), (11, 3, 4)]) (hf ['P'] ['L'] (by decide) (by decide)) (by decide +kernel)
    | T1 => exact reMatch_fams (o := some [(10, 0, 2), (11, 3, 4)]) (hf ['T'] ['1'] (by decide) (by decide)) (by decide +kernel)
    | T2 => exact reMatch_fams (o := some [(10, 0, 2), (11, 3, 4)]) (hf ['T'] ['2'] (by decide) (by decide)) (by decide +kernel)
    | T3 => exact reMatch_fams (o := some [(10, 0, 2), (11, 3, 4)]) (hf ['T'] ['3'] (by decide) (by decide)) (by decide +kernel)
  | some (.comet ty y half order c), ⟨h0, h1, h2, h3, h4, h5⟩ =>
    subst h4
    simp only [tCols, tCaps, Spec.Prov.cols, yearCols_eq, countCols_eq]
    exact reMatch_fams (Fs := [c! "IJK", digits10, digits10, Spec.halfMonths, b62s, digits10, ['0']])
        (o := some [(4, 0, 1), (5, 1, 2), (6, 3, 1), (7, 4, 1), (8, 5, 1)])
        (by simp only [InFams, List.cons_append, List.nil_append, List.drop_succ_cons, List.drop_zero]
            exact ⟨century_IJK h1 h2, dmem (by omega), dmem (by omega), h3, b62_mem (by omega), dmem (by omega), by simp, trivial⟩)
        (by decide +kernel)

theorem minor_match {p : Option Nat} {q : Option Spec.Prov} (h : ProvMinorLike q) :
    reMatch minorplanetPackedIDRegex (pCols p ++ tCols q) = some (pCaps p ++ tCaps q) := by
  rw [mpHead_front, mpTail_match h]; rfl

/-! #### the comet pattern -/

def coHead : List Re := [.alt (times 4 (ch ' ')) (.grp 1 (times 4 isDec)), .grp 2 (.cls (oneOf (c! "APCDXI")))]
def coTail : List Re :=
  [alts [cat [.grp 3 (.cls alnum), .grp 4 (times 2 isDec), .grp 5 (.cls halfCls),
                  .grp 6 (.cls alnum), .grp 7 (.cls isDec),
                  alts [.cls (ch '0'), .grp 8 (.cls (rng 'A' 'Z')), .grp 9 (.cls (rng 'a' 'z'))]],
             cat [times 5 (ch ' '), .grp 10 (.cls fun c => rng 'a' 'z' c || ch ' ' c),
                  .grp 11 (.cls (rng 'a' 'z'))],
             cat [star (ch ' '), .eos]],
       .eos]
theorem co_eq : cometPackedIDRegex = cat (coHead ++ coTail) := rfl

def saHead : List Re := [.alt (times 4 (ch ' ')) (cat [.grp 1 (.cls (oneOf (c! "JSUN"))), .grp 2 (times 3 isDec)]), .cls (ch 'S')]
def saTail : List Re :=
  [.alt (cat [.grp 3 (.cls alnum), .grp 4 (times 2 isDec), .grp 5 (.cls (oneOf (c! "JSUN"))),
                  .grp 6 (.cls alnum), .grp 7 (.cls isDec), .cls (ch '0'), .eos])
            (cat [star (ch ' '), .eos]),
       .eos]
theorem sa_eq : satellitePackedIDRegex = cat (saHead ++ saTail) := rfl

/-- the comet and satellite patterns reject minor-planet columns -/
theorem minor_comet_none {p : Option Nat} (hp : ∀ n ∈ p, n ≤ 15396335) (v : Str) : reMatch cometPackedIDRegex (pCols p ++ v) = none := by
  rw [co_eq]
  cases p with
  | none =>
    exact reMatch_front_nil (Fs := [[' '], [' '], [' '], [' '], [' ']]) (by simp [coTail])
      (by simp [InFams, pCols]) (by refine ⟨⟨by simp [coHead], ?_⟩, ?_⟩ <;> decide +kernel)
  | some n =>
    have hn' := hp n rfl
    simp only [pCols, Spec.Perm.cols]
    by_cases hn : n < 620000
    · rw [if_pos hn, fixed4 (n := n % 10000) (by omega)]
      rcases b62_split (k := n / 10000) (by omega) with h | h | h
      · exact reMatch_front_nil (Fs := [digits10, digits10, digits10, digits10, digits10]) (by simp [coTail])
          (by simp only [InFams]
              exact ⟨h, dmem (by omega), dmem (by omega), dmem (by omega), dmem (by omega), trivial⟩)
          (by refine ⟨⟨by simp [coHead], ?_⟩, ?_⟩ <;> decide +kernel)
      · exact reMatch_rej (all_mem (F := jsun) (by decide) h)
      · exact reMatch_rej (all_mem (F := otherLetters) (by decide) h)
    · rw [if_neg hn]; exact reMatch_rej (by decide)

theorem minor_sat_none {p : Option Nat} (hp : ∀ n ∈ p, n ≤ 15396335) (v : Str) : reMatch satellitePackedIDRegex (pCols p ++ v) = none := by
  rw [sa_eq]
  cases p with
  | none =>
    exact reMatch_front_nil (Fs := [[' '], [' '], [' '], [' '], [' ']]) (by simp [saTail])
      (by simp [InFams, pCols]) (by refine ⟨⟨by simp [saHead], ?_⟩, ?_⟩ <;> decide +kernel)
  | some n =>
    have hn' := hp n rfl
    simp only [pCols, Spec.Perm.cols]
    by_cases hn : n < 620000
    · rw [if_pos hn, fixed4 (n := n % 10000) (by omega)]
      rcases b62_split (k := n / 10000) (by omega) with h | h | h
      · exact reMatch_rej (all_mem (F := digits10) (by decide) h)
      · exact reMatch_front_nil (Fs := [jsun, digits10, digits10, digits10, digits10]) (by simp [saTail])
          (by simp only [InFams]
              exact ⟨h, dmem (by omega), dmem (by omega), dmem (by omega), dmem (by omega), trivial⟩)
          (by refine ⟨⟨by simp [saHead], ?_⟩, ?_⟩ <;> decide +kernel)
      · exact reMatch_rej (all_mem (F := otherLetters) (by decide) h)
    · rw [if_neg hn]; exact reMatch_rej (by decide)

/-! #### evaluating `unpackMinor` -/

theorem group_append (a b : Caps) (k : Nat) : group (a ++ b) k = (group a k).or (group b k) := by
  simp only [group, List.find?_append]
  cases List.find? (fun x => x.1 == k) a <;> simp

theorem group_pCaps {p : Option Nat} {b : Caps} {k : Nat} (hk : 4 ≤ k) : group (pCaps p ++ b) k = group b k := by
  rw [group_append]
  have : group (pCaps p) k = none := by
    cases p with
    | none => rfl
    | some n =>
      simp only [pCaps]; split <;> simp only [group, List.find?_cons, List.find?_nil] <;> (repeat' split) <;>
        simp_all <;> omega
  rw [this]; rfl

theorem tCaps_low {q : Option Spec.Prov} {k : Nat} (hk : k < 4) : group (tCaps q) k = none := by
  match k, hk with
  | 0, _ | 1, _ | 2, _ | 3, _ =>
    cases q with
    | none => rfl
    | some q => cases q <;> (try rfl) <;> (simp only [tCaps]; split <;> rfl)

theorem group_pCaps_low {p : Option Nat} {q : Option Spec.Prov} {k : Nat} (hk : k < 4) :
    group (pCaps p ++ tCaps q) k = group (pCaps p) k := by
  rw [group_append, tCaps_low hk]; cases group (pCaps p) k <;> rfl

theorem yy_eq {y : Nat} : pyNat [digitChar (y / 10 % 10), digitChar (y % 10)] = .ok (y % 100) := by
  rw [pyNat2 (by omega) (by omega)]; congr 1; omega

theorem order_of_index {o : Char} (h : o ∈ Spec.orders) :
    charAt (c! "ABCDEFGHJKLMNOPQRSTUVWXYZ") (Spec.orderIndex o) = .ok o ∧ Spec.orderIndex o < 25 := by
  have : Spec.orders.all (fun o => decide (charAt (c! "ABCDEFGHJKLMNOPQRSTUVWXYZ") (Spec.orderIndex o) = .ok o ∧ Spec.orderIndex o < 25)) = true := by
    decide +kernel
  simpa using all_mem this h

theorem mp_perm_ok {p : Option Nat} {q : Option Spec.Prov} (hp : ∀ n ∈ p, 1 ≤ n ∧ n ≤ 15396335) : (if truthy (group (pCaps p ++ tCaps q) 1) || truthy (group (pCaps p ++ tCaps q) 3) then do
        let n : Nat ←
          (if truthy (group (pCaps p ++ tCaps q) 1) then do
            let d ← pyNat (← grp! (pCaps p ++ tCaps q) 2)
            let l ← unpackLetters (← grp! (pCaps p ++ tCaps q) 1)
            return d + 10000 * l
          else do
            let n ← unRadix62_4 (← grp! (pCaps p ++ tCaps q) 3)
            return 620000 + n)
        if n = 0 then raiseRT else return some (natStr n)
      else return none : Py (Option Str)) = .ok (p.map natStr) := by
    simp only [grp!, group_pCaps_low (show 1 < 4 by omega), group_pCaps_low (show 2 < 4 by omega), group_pCaps_low (show 3 < 4 by omega)]
    cases p with
    | none => rfl
    | some n =>
      obtain ⟨h1, h2⟩ := hp n rfl
      simp only [pCaps]
      by_cases hn : n < 620000
      · have hv : pyNat (Spec.fixed 4 (n % 10000)) = .ok (n % 10000) := by
          rw [fixed4 (by omega), pyNat4 (by omega) (by omega) (by omega) (by omega)]; congr 1; omega
        simp only [if_pos hn, group, List.find?_cons, beq_self_eq_true, Option.map_some, Nat.reduceBEq, truthy,
          List.isEmpty_cons, Bool.not_false, Bool.true_or, if_true, bind, Except.bind, hv, unpackLetters,
          unpackLetter_b62 (show n / 10000 < 62 by omega), pure, Except.pure]
        rw [show n % 10000 + 10000 * (n / 10000) = n by omega, if_neg (by omega)]
      · obtain ⟨k, hk⟩ : ∃ k, k = n - 620000 := ⟨_, rfl⟩
        have e1 : 620000 + k = n := by omega
        have e2 : n ≠ 0 := by omega
        have e3 : k < 62 ^ 4 := by omega
        simp only [if_neg hn, ← hk]
        clear hk
        simp only [group, List.find?_cons, List.find?_nil, beq_self_eq_true, Option.map_some, Nat.reduceBEq, truthy,
          List.isEmpty_cons, Bool.not_false, Bool.or_true, if_true, bind, Except.bind, Option.map_none,
          unRadix_b62x4 e3, pure, Except.pure, e1, Bool.false_eq_true, if_false]
        rw [if_neg e2]

theorem unpackMinor_ok {p : Option Nat} {q : Option Spec.Prov} (hp : ∀ n ∈ p, 1 ≤ n ∧ n ≤ 15396335) (h : ProvMinorLike q) :
    unpackMinor (pCols p ++ tCols q) =
      .ok ⟨p.map natStr, q.map Spec.Prov.text, if q.isNone then some [] else none⟩ := by
  simp only [unpackMinor, minor_match h]
  rw [mp_perm_ok hp]
  have hg : ∀ k, 4 ≤ k → group (pCaps p ++ tCaps q) k = group (tCaps q) k := fun k hk => group_pCaps hk
  simp only [grp!, hg 4 (by omega), hg 5 (by omega), hg 6 (by omega), hg 7 (by omega), hg 8 (by omega), hg 9 (by omega),
    hg 10 (by omega), hg 11 (by omega), hg 12 (by omega), hg 13 (by omega), hg 14 (by omega), hg 15 (by omega), hg 16 (by omega)]
  match q, h with
  | none, _ =>
    simp [tCaps, group, truthy, bind, Except.bind, pure, Except.pure]
  | some (.minor y half order c), ⟨h1, h2, h3, h4, h5⟩ =>
    simp only [tCaps, Option.map_some, Spec.Prov.text, dec_eq, count_eq]
    by_cases hc : c ≤ 619
    · simp only [if_pos hc, yCaps, nCaps, List.cons_append, List.nil_append, group, List.find?_cons, List.find?_nil, beq_self_eq_true,
        Option.map_some, Nat.reduceAdd, Nat.reduceBEq, Option.map_none, truthy, List.isEmpty_cons, Bool.not_false, if_true, bind, Except.bind, pure,
        Except.pure, unpackLetters, unpackLetter_b62 (show y / 100 < 62 by omega), yy_eq, unpackLetter_b62 (show c / 10 < 62 by omega),
        pyNat1 (show c % 10 < 10 by omega)]
      rw [show y / 100 * 100 + y % 100 = y by omega, show c / 10 * 10 + c % 10 = c by omega]
      simp
    · obtain ⟨ho, ho2⟩ := order_of_index h4
      obtain ⟨k, hk⟩ : ∃ k, k = 25 * c + Spec.orderIndex order - 15500 := ⟨_, rfl⟩
      have e1 : 15500 + k = 25 * c + Spec.orderIndex order := by omega
      have e3 : k < 62 ^ 4 := by omega
      have e4 : (25 * c + Spec.orderIndex order) % 25 = Spec.orderIndex order := by omega
      have e5 : (25 * c + Spec.orderIndex order - Spec.orderIndex order) / 25 = c := by omega
      obtain ⟨j, hj⟩ : ∃ j, j = y % 100 := ⟨_, rfl⟩
      have e6 : 20 * 100 + j = y := by omega
      have e7 : j < 62 := by omega
      have e8 : numOrBlank c = natStr c := by simp [numOrBlank]; omega
      simp only [if_neg hc, ← hk, ← hj]
      clear hk hj
      simp only [group, List.find?_cons, List.find?_nil, beq_self_eq_true,
        Option.map_some, Nat.reduceBEq, Option.map_none, truthy, List.isEmpty_cons, Bool.not_false, if_true, bind, Except.bind, pure,
        Except.pure, unpackLetters, unpackLetter_b62 e7, unRadix_b62x4 e3, e1, e4, e5, ho, e6, Bool.false_eq_true, if_false, e8]
      simp
  | some (.survey n s), h =>
    have : group (tCaps (some (.survey n s))) 12 = none := rfl
    cases p <;> simp [tCaps, Spec.Prov.text, group, List.find?_cons, truthy, bind, Except.bind, pure, Except.pure, charAt]
  | some (.comet ty y half order c), ⟨h0, h1, h2, h3, h4, h5⟩ =>
    subst h4 h0
    simp only [tCaps, Option.map_some, Spec.Prov.text, dec_eq, count_eq]
    simp only [yCaps, nCaps, List.cons_append, List.nil_append, group, List.find?_cons, List.find?_nil, beq_self_eq_true,
        Option.map_some, Nat.reduceAdd, Nat.reduceBEq, Option.map_none, truthy, List.isEmpty_cons, Bool.not_false, if_true, bind, Except.bind, pure,
        Except.pure, unpackLetters, unpackLetter_b62 (show y / 100 < 62 by omega), yy_eq, unpackLetter_b62 (show c / 10 < 62 by omega),
        pyNat1 (show c % 10 < 10 by omega)]
    rw [show y / 100 * 100 + y % 100 = y by omega, show c / 10 * 10 + c % 10 = c by omega]
    simp

theorem truthy_natStr (n : Nat) : truthy (some (natStr n)) = true := by
  have := natStr_ne_nil n
  simpa [truthy] using this

theorem unpack_minorlike {p : Option Nat} {q : Option Spec.Prov} (hp : ∀ n ∈ p, 1 ≤ n ∧ n ≤ 15396335) (h : ProvMinorLike q)
    (hne : p.isSome ∨ q.isSome) :
    unpackPackedID (pCols p ++ tCols q) =
      .ok ⟨p.map natStr, q.map Spec.Prov.text, if q.isNone then some [] else none⟩ := by
  have hp' : ∀ n ∈ p, n ≤ 15396335 := fun n hn => (hp n hn).2
  simp only [unpackPackedID, unpackMinor_ok hp h, unpackComet, minor_comet_none hp', unpackSat, minor_sat_none hp', bind, Except.bind,
    pure, Except.pure]
  have : (!truthy (p.map natStr) && !truthy (q.map Spec.Prov.text)) = false := by
    cases p with
    | some n => simp [truthy_natStr]
    | none =>
      cases q with
      | none => simp at hne
      | some q =>
        have : q.text.isEmpty = false := by
          cases q <;> simp [Spec.Prov.text]
        simp [truthy, this]
  simp [this]

end Verif
