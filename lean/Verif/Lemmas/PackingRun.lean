import Verif.Lemmas.PackingProv
/-! `packProv` on any text: the outcome. -/
set_option linter.unusedSimpArgs false
namespace Verif.Packing
open Verif Verif.PackUtil Verif.Spec Verif.Spec.Packing

theorem second_order {c : Char} (h : Second c) : c ∈ orders := by
  obtain ⟨h1, h2, h3⟩ := h
  have e1 : 65 ≤ c.toNat := h1
  have e2 : c.toNat ≤ 90 := h2
  have hall : ∀ n : Fin 91, 65 ≤ n.val → Char.ofNat n ≠ 'I' → Char.ofNat n ∈ orders := by decide +kernel
  have := hall ⟨c.toNat, by omega⟩ e1 (by rw [Char.ofNat_toNat]; exact h3)
  rwa [Char.ofNat_toNat] at this

theorem lower_capital {c : Char} (h : Capital c) : asciiLower c = lower c := by
  obtain ⟨h1, h2⟩ := h
  have e1 : 65 ≤ c.toNat := h1
  have e2 : c.toNat ≤ 90 := h2
  have hall : ∀ n : Fin 91, 65 ≤ n.val → asciiLower (Char.ofNat n) = lower (Char.ofNat n) := by decide +kernel
  have := hall ⟨c.toNat, by omega⟩ e1
  rwa [Char.ofNat_toNat] at this

theorem year_slices {y : Str} (h : Year y) : slice y 0 2 = y.take 2 ∧ slice y 2 4 = y.drop 2 := by
  obtain ⟨a, b, c, d, rfl, -⟩ := year_chars h
  exact ⟨rfl, rfl⟩

/-- the outcome as a half -/
def halfOf (w : ProvName) : Py (Option Half) := w.cols.map fun t => some ⟨t, tyOf w.kind, w.fragment?⟩

theorem minor_half {y n : Str} {half order : Char} {v : Str} (h : (ProvName.minor y half order n).Is v)
    (hm : reMatch minorplanetProvIDRegex v = some ([(1, y.take 2), (2, y.drop 2), (3, [half]), (4, [order])] ++ numCap n)) :
    packProvMinor v none = halfOf (.minor y half order n) := by
  obtain ⟨⟨hy, hh, ho, hn⟩, -⟩ := h
  obtain ⟨t1, -, t2, -⟩ := year_take hy
  have g1 : grp! ([(1, y.take 2), (2, y.drop 2), (3, [half]), (4, [order])] ++ numCap n) 1 = .ok (y.take 2) := rfl
  have g2 : grp! ([(1, y.take 2), (2, y.drop 2), (3, [half]), (4, [order])] ++ numCap n) 2 = .ok (y.drop 2) := rfl
  have g3 : grp! ([(1, y.take 2), (2, y.drop 2), (3, [half]), (4, [order])] ++ numCap n) 3 = .ok [half] := rfl
  have g4 : grp! ([(1, y.take 2), (2, y.drop 2), (3, [half]), (4, [order])] ++ numCap n) 4 = .ok [order] := rfl
  have g5 : (if truthy (group ([(1, y.take 2), (2, y.drop 2), (3, [half]), (4, [order])] ++ numCap n) 5) = true then
       (grp! ([(1, y.take 2), (2, y.drop 2), (3, [half]), (4, [order])] ++ numCap n) 5).bind pyNat else .ok 0 : Py Nat) = .ok (value n) := by
    by_cases hq : n = []
    · subst hq; rfl
    · have : numCap n = [(5, n)] := by rw [numCap, if_neg hq]
      rw [this]
      have e1 : group ([(1, y.take 2), (2, y.drop 2), (3, [half]), (4, [order])] ++ [(5, n)]) 5 = some n := rfl
      have e2 : grp! ([(1, y.take 2), (2, y.drop 2), (3, [half]), (4, [order])] ++ [(5, n)]) 5 = .ok n := rfl
      rw [e1, e2, if_pos]
      · exact pyNat_value ⟨hq, hn⟩
      · cases n with
        | nil => exact absurd rfl hq
        | cons _ _ => rfl
  have h5 : 619 < value n → grp! ([(1, y.take 2), (2, y.drop 2), (3, [half]), (4, [order])] ++ numCap n) 5 = .ok n ∧ Number n := by
    intro hv
    have hq : n ≠ [] := by rintro rfl; simp [value] at hv
    have : numCap n = [(5, n)] := by rw [numCap, if_neg hq]
    rw [this]; exact ⟨rfl, hq, hn⟩
  generalize hk : ([(1, y.take 2), (2, y.drop 2), (3, [half]), (4, [order])] ++ numCap n : Caps) = K at *
  simp only [packProvMinor, hm, bind, pure, Except.pure]
  rw [g5]
  simp only [hm, g1, g2, g3, g4, bind, Except.bind, pure, Except.pure, pyNat_value t1, halfOf, ProvName.cols, ProvName.kind, ProvName.fragment?]
  show (if Spec.Packing.century y < 18 ∨ Spec.Packing.century y > 61 then _ else _) = _
  by_cases hc : Spec.Packing.century y < 18 ∨ 61 < Spec.Packing.century y
  · rw [if_pos hc, if_pos hc]; rfl
  · rw [if_neg hc, if_neg hc]
    have hcent : packLetter (Spec.Packing.century y) = .ok (b62 (Spec.Packing.century y)) := packLetter_ok (by omega)
    by_cases h6 : value n ≤ 619
    · have ed : value n - 10 * (value n / 10) = value n % 10 := by omega
      rw [if_pos h6, if_pos h6, packLetter_ok (by omega)]
      simp only
      rw [show packLetter (value (List.take 2 y)) = .ok (b62 (Spec.Packing.century y)) from hcent, ed, padded10 (by omega)]
      simp [Except.map, countCols, b62_digit (d := value n % 10) (by omega), tyOf]
    · obtain ⟨g6, hN⟩ := h5 (by omega)
      rw [if_neg h6, if_neg h6]
      have hfind : strFind orderLetters [order] = some (orderIndex order) ∧ orderIndex order < 25 := by
        have : orders.all (fun o => decide (strFind orderLetters [o] = some (orderIndex o) ∧ orderIndex o < 25)) = true := by
          decide +kernel
        simpa using all_mem this (second_order ho)
      simp only [hfind.1, g6, pyNat_value hN]
      have hi := hfind.2
      have hiff : (value n > 591673 ∨ value n = 591673 ∧ orderIndex order > 10) ↔ 15500 + 62 ^ 4 ≤ 25 * value n + orderIndex order := by
        omega
      simp only [hiff]
      by_cases hbig : 15500 + 62 ^ 4 ≤ 25 * value n + orderIndex order
      · rw [if_pos hbig, if_pos hbig]; rfl
      · rw [if_neg hbig, if_neg hbig]
        simp only [pyNat_value t2]
        by_cases hyy : 61 < value (y.drop 2)
        · rw [if_pos hyy, packLetter_err hyy]; rfl
        · rw [if_neg hyy, packLetter_ok (by omega)]
          have : ((25 * value n + orderIndex order : Nat) : Int) - 15500 = ((25 * value n + orderIndex order - 15500 : Nat) : Int) := by
            omega
          simp only [this, radix62_4_nat]
          simp [Except.map, tyOf]

theorem survey_half {n : Str} {s : Survey} {v : Str} (h : (ProvName.survey n s).Is v)
    (hm : reMatch minorplanetSurveyProvIDRegex v = some [(1, n), (2, [s.letter, '-', s.digit])]) :
    packProvSurvey v none = halfOf (.survey n s) := by
  have hf : Year n := h.1
  have hN : Number n := (year_take hf).2.2.2.2.2
  have hlt := value_lt hN
  rw [hf.1] at hlt
  have g1 : grp! [(1, n), (2, [s.letter, '-', s.digit])] 1 = .ok n := rfl
  have g2 : grp! [(1, n), (2, [s.letter, '-', s.digit])] 2 = .ok [s.letter, '-', s.digit] := rfl
  have c0 : charAt [s.letter, '-', s.digit] 0 = .ok s.letter := rfl
  have c2 : charAt [s.letter, '-', s.digit] 2 = .ok s.digit := rfl
  simp only [packProvSurvey, hm, g1, g2, c0, c2, bind, Except.bind, pure, Except.pure, pyNat_value hN, halfOf, ProvName.cols, ProvName.kind, ProvName.fragment?]
  rw [padded10000 (by omega)]; rfl

theorem comet_half {ty half : Char} {y n : Str} {order : Option Char} {v : Str} (h : (ProvName.comet ty y half order n).Is v)
    (hm : reMatch cometProvIDRegex v = some ([(1, [ty]), (2, y), (3, [half])] ++ orderCap order ++ [(5, n)])) :
    packProvComet v none = halfOf (.comet ty y half order n) := by
  obtain ⟨⟨ht, hy, hh, ho, hn⟩, -⟩ := h
  obtain ⟨t1, -, t2, -⟩ := year_take hy
  have g1 : grp! ([(1, [ty]), (2, y), (3, [half])] ++ orderCap order ++ [(5, n)]) 1 = .ok [ty] := rfl
  have g2 : grp! ([(1, [ty]), (2, y), (3, [half])] ++ orderCap order ++ [(5, n)]) 2 = .ok y := rfl
  have g3 : grp! ([(1, [ty]), (2, y), (3, [half])] ++ orderCap order ++ [(5, n)]) 3 = .ok [half] := rfl
  have g4 : (if truthy (group ([(1, [ty]), (2, y), (3, [half])] ++ orderCap order ++ [(5, n)]) 4) = true then (group ([(1, [ty]), (2, y), (3, [half])] ++ orderCap order ++ [(5, n)]) 4).getD [] else ['0']) = [order.getD '0'] := by
    cases order <;> rfl
  have g5 : grp! ([(1, [ty]), (2, y), (3, [half])] ++ orderCap order ++ [(5, n)]) 5 = .ok n := by cases order <;> rfl
  generalize hk : ([(1, [ty]), (2, y), (3, [half])] ++ orderCap order ++ [(5, n)] : Caps) = K at *
  simp only [packProvComet, hm, g1, g2, g3, g4, g5, bind, Except.bind, pure, Except.pure, pyNat_zero_value hn, halfOf, ProvName.cols, cometCols, ProvName.kind, ProvName.fragment?,
    (year_slices hy).1, (year_slices hy).2, pyNat_value t1]
  by_cases h6 : 619 < value n
  · rw [if_pos (by omega), if_pos h6]; rfl
  · rw [if_neg (by omega), if_neg h6]
    have hcen : value (y.take 2) = Spec.Packing.century y := rfl
    rw [hcen]
    by_cases h7 : 61 < Spec.Packing.century y
    · rw [if_pos h7, packLetter_err h7]; rfl
    · have ed : value n - value n / 10 * 10 = value n % 10 := by omega
      rw [if_neg h7, packLetter_ok (by omega), packLetter_ok (by omega), ed, packLetter_ok (by omega)]
      simp only [Except.map, countCols, List.append_assoc, List.cons_append, List.nil_append, b62_digit (d := value n % 10) (by omega)]
      by_cases hA : ty = 'A'
      · subst hA; simp [tyOf]
      · simp [hA, tyOf]

theorem frag_half {ty half f : Char} {y n : Str} {v : Str} (h : (ProvName.fragment ty y half n f).Is v)
    (hm : reMatch cometfragmentProvIDRegex v = some [(1, [ty]), (2, y), (3, [half]), (4, n), (5, [f])]) :
    packProvFragment v none = halfOf (.fragment ty y half n f) := by
  obtain ⟨⟨ht, hy, hh, hn, hf⟩, -⟩ := h
  obtain ⟨t1, -, t2, -⟩ := year_take hy
  have g1 : grp! [(1, [ty]), (2, y), (3, [half]), (4, n), (5, [f])] 1 = .ok [ty] := rfl
  have g2 : grp! [(1, [ty]), (2, y), (3, [half]), (4, n), (5, [f])] 2 = .ok y := rfl
  have g3 : grp! [(1, [ty]), (2, y), (3, [half]), (4, n), (5, [f])] 3 = .ok [half] := rfl
  have g4 : grp! [(1, [ty]), (2, y), (3, [half]), (4, n), (5, [f])] 4 = .ok n := rfl
  have g5 : grp! [(1, [ty]), (2, y), (3, [half]), (4, n), (5, [f])] 5 = .ok [f] := rfl
  generalize hk : ([(1, [ty]), (2, y), (3, [half]), (4, n), (5, [f])] : Caps) = K at *
  simp only [packProvFragment, hm, g1, g2, g3, g4, g5, bind, Except.bind, pure, Except.pure, halfOf, ProvName.cols, cometCols, ProvName.kind, ProvName.fragment?,
    (year_slices hy).1, (year_slices hy).2, pyNat_value t1]
  by_cases hq : n = []
  · subst hq; rw [if_pos rfl]; rfl
  rw [if_neg hq, pyNat_value ⟨hq, hn⟩]
  simp only
  by_cases h6 : 619 < value n
  · rw [if_pos (by omega), if_pos h6]; rfl
  · rw [if_neg (by omega), if_neg h6]
    have hcen : value (y.take 2) = Spec.Packing.century y := rfl
    rw [hcen]
    by_cases h7 : 61 < Spec.Packing.century y
    · rw [if_pos h7, packLetter_err h7]; rfl
    · have ed : value n - value n / 10 * 10 = value n % 10 := by omega
      rw [if_neg h7, packLetter_ok (by omega), packLetter_ok (by omega), ed, packLetter_ok (by omega)]
      simp only [Except.map, countCols, List.append_assoc, List.cons_append, List.nil_append, b62_digit (d := value n % 10) (by omega), List.map_cons, List.map_nil, lower_capital hf, tyOf]

theorem sat_half {p : Planet} {y n : Str} {v : Str} (h : (ProvName.satellite y p n).Is v)
    (hm : reMatch satelliteProvIDRegex v = some [(1, y), (2, [p.letter]), (3, n)]) :
    packProvSat v none = halfOf (.satellite y p n) := by
  obtain ⟨⟨hy, hn⟩, -⟩ := h
  obtain ⟨t1, -, t2, -⟩ := year_take hy
  have g1 : grp! [(1, y), (2, [p.letter]), (3, n)] 1 = .ok y := rfl
  have g2 : grp! [(1, y), (2, [p.letter]), (3, n)] 2 = .ok [p.letter] := rfl
  have g3 : grp! [(1, y), (2, [p.letter]), (3, n)] 3 = .ok n := rfl
  generalize hk : ([(1, y), (2, [p.letter]), (3, n)] : Caps) = K at *
  simp only [packProvSat, hm, g1, g2, g3, bind, Except.bind, pure, Except.pure, pyNat_value hn, halfOf, ProvName.cols, cometCols, ProvName.kind, ProvName.fragment?,
    (year_slices hy).1, (year_slices hy).2, pyNat_value t1]
  by_cases h6 : 619 < value n
  · rw [if_pos (by omega), if_neg (by omega), if_pos h6]; rfl
  · rw [if_neg (by omega)]
    by_cases h0 : value n = 0
    · rw [if_pos h0, if_pos h0]; rfl
    rw [if_neg h0, if_neg h0, if_neg h6]
    have hcen : value (y.take 2) = Spec.Packing.century y := rfl
    rw [hcen]
    by_cases h7 : 61 < Spec.Packing.century y
    · rw [if_pos h7, packLetter_err h7]; rfl
    · have ed : value n - value n / 10 * 10 = value n % 10 := by omega
      rw [if_neg h7, packLetter_ok (by omega), packLetter_ok (by omega), ed, packLetter_ok (by omega)]
      simp only [Except.map, countCols, List.append_assoc, List.cons_append, List.nil_append, b62_digit (d := value n % 10) (by omega), tyOf]

theorem cols_ne {w : ProvName} {t : Str} (h : w.cols = .ok t) : t.isEmpty = false := by
  cases w <;> simp only [ProvName.cols, cometCols] at h <;> (repeat' split at h) <;> first | (injection h with h; subst h; rfl) | (injection h) | (cases h)

/-- a text that is a designation -/
theorem packProv_is {w : ProvName} {v : Str} (h : w.Is v) : packProv (some v) = halfOf w := by
  have none_of : ∀ {r : Re}, (∀ m, reMatch r v = some m → False) → reMatch r v = none := by
    intro r hr
    cases hq : reMatch r v with
    | none => rfl
    | some m => exact (hr m hq).elim
  have e1 : ∀ {m}, reMatch minorplanetProvIDRegex v = some m → ∃ y half order n, w = .minor y half order n ∧ m = [(1, y.take 2), (2, y.drop 2), (3, [half]), (4, [order])] ++ numCap n := by
    intro m hm
    obtain ⟨y, a, b, n, h1, h2⟩ := mpProv_some hm
    exact ⟨y, a, b, n, ProvName.unique h h1, h2⟩
  have e2 : ∀ {m}, reMatch minorplanetSurveyProvIDRegex v = some m → ∃ n s, w = .survey n s ∧ m = [(1, n), (2, [s.letter, '-', s.digit])] := by
    intro m hm
    obtain ⟨n, s, h1, h2⟩ := survey_some hm
    exact ⟨n, s, ProvName.unique h h1, h2⟩
  have e3 : ∀ {m}, reMatch cometProvIDRegex v = some m → ∃ ty y half order n, w = .comet ty y half order n ∧ m = [(1, [ty]), (2, y), (3, [half])] ++ orderCap order ++ [(5, n)] := by
    intro m hm
    obtain ⟨ty, y, a, b, n, h1, h2⟩ := comet_some hm
    exact ⟨ty, y, a, b, n, ProvName.unique h h1, h2⟩
  have e4 : ∀ {m}, reMatch cometfragmentProvIDRegex v = some m → ∃ ty y half n f, w = .fragment ty y half n f ∧ m = [(1, [ty]), (2, y), (3, [half]), (4, n), (5, [f])] := by
    intro m hm
    obtain ⟨ty, y, a, b, n, h1, h2⟩ := frag_some hm
    exact ⟨ty, y, a, b, n, ProvName.unique h h1, h2⟩
  have e5 : ∀ {m}, reMatch satelliteProvIDRegex v = some m → ∃ y p n, w = .satellite y p n ∧ m = [(1, y), (2, [p.letter]), (3, n)] := by
    intro m hm
    obtain ⟨y, p, n, h1, h2⟩ := sat_some hm
    exact ⟨y, p, n, ProvName.unique h h1, h2⟩
  have fin : ∀ {o : Py (Option Half)}, o = halfOf w → (o.bind fun a => match a with | some h => if h.text.isEmpty then raiseRT else .ok (some h) | none => raiseRT) = halfOf w := by
    rintro o rfl
    unfold halfOf
    cases hq : w.cols with
    | error e => rfl
    | ok t => simp [Except.map, Except.bind, cols_ne hq]
  have d1 := fun (n1 : reMatch minorplanetProvIDRegex v = none) => show packProvMinor v none = .ok none by simp only [packProvMinor, n1]
  have d2 := fun a (n1 : reMatch minorplanetSurveyProvIDRegex v = none) => show packProvSurvey v a = .ok a by simp only [packProvSurvey, n1]
  have d3 := fun a (n1 : reMatch cometProvIDRegex v = none) => show packProvComet v a = .ok a by simp only [packProvComet, n1]
  have d4 := fun a (n1 : reMatch cometfragmentProvIDRegex v = none) => show packProvFragment v a = .ok a by simp only [packProvFragment, n1]
  have d5 := fun a (n1 : reMatch satelliteProvIDRegex v = none) => show packProvSat v a = .ok a by simp only [packProvSat, n1]
  cases w with
  | minor y half order n =>
    obtain ⟨m, hm⟩ := mpProv_match h
    obtain ⟨_, _, _, _, hn, rfl⟩ := e1 hm
    injection hn with q1 q2 q3 q4; subst q1 q2 q3 q4
    have n2 := none_of fun m hm => by obtain ⟨_, _, h, -⟩ := e2 hm; cases h
    have n3 := none_of fun m hm => by obtain ⟨_, _, _, _, _, h, -⟩ := e3 hm; cases h
    have n4 := none_of fun m hm => by obtain ⟨_, _, _, _, _, h, -⟩ := e4 hm; cases h
    have n5 := none_of fun m hm => by obtain ⟨_, _, _, h, -⟩ := e5 hm; cases h
    rw [← fin (minor_half h hm)]
    simp only [packProv, bind, Except.bind]
    cases packProvMinor v none with
    | error e => rfl
    | ok a => simp only [d2 _ n2, d3 _ n3, d4 _ n4, d5 _ n5, pure, Except.pure]; cases a <;> rfl
  | survey n s =>
    obtain ⟨m, hm⟩ := survey_match h
    obtain ⟨_, _, hn, rfl⟩ := e2 hm
    injection hn with q1 q2; subst q1 q2
    have n1 := none_of fun m hm => by obtain ⟨_, _, _, _, h, -⟩ := e1 hm; cases h
    have n3 := none_of fun m hm => by obtain ⟨_, _, _, _, _, h, -⟩ := e3 hm; cases h
    have n4 := none_of fun m hm => by obtain ⟨_, _, _, _, _, h, -⟩ := e4 hm; cases h
    have n5 := none_of fun m hm => by obtain ⟨_, _, _, h, -⟩ := e5 hm; cases h
    rw [← fin (survey_half h hm)]
    simp only [packProv, bind, d1 n1, Except.bind]
    cases packProvSurvey v none with
    | error e => rfl
    | ok a => simp only [d3 _ n3, d4 _ n4, d5 _ n5, pure, Except.pure]; cases a <;> rfl
  | comet ty y half order n =>
    obtain ⟨m, hm⟩ := comet_match h
    obtain ⟨_, _, _, _, _, hn, rfl⟩ := e3 hm
    injection hn with q1 q2 q3 q4 q5; subst q1 q2 q3 q4 q5
    have n1 := none_of fun m hm => by obtain ⟨_, _, _, _, h, -⟩ := e1 hm; cases h
    have n2 := none_of fun m hm => by obtain ⟨_, _, h, -⟩ := e2 hm; cases h
    have n4 := none_of fun m hm => by obtain ⟨_, _, _, _, _, h, -⟩ := e4 hm; cases h
    have n5 := none_of fun m hm => by obtain ⟨_, _, _, h, -⟩ := e5 hm; cases h
    rw [← fin (comet_half h hm)]
    simp only [packProv, bind, d1 n1, d2 _ n2, Except.bind]
    cases packProvComet v none with
    | error e => rfl
    | ok a => simp only [d4 _ n4, d5 _ n5, pure, Except.pure]; cases a <;> rfl
  | fragment ty y half n f =>
    obtain ⟨m, hm⟩ := frag_match h
    obtain ⟨_, _, _, _, _, hn, rfl⟩ := e4 hm
    injection hn with q1 q2 q3 q4 q5; subst q1 q2 q3 q4 q5
    have n1 := none_of fun m hm => by obtain ⟨_, _, _, _, h, -⟩ := e1 hm; cases h
    have n2 := none_of fun m hm => by obtain ⟨_, _, h, -⟩ := e2 hm; cases h
    have n3 := none_of fun m hm => by obtain ⟨_, _, _, _, _, h, -⟩ := e3 hm; cases h
    have n5 := none_of fun m hm => by obtain ⟨_, _, _, h, -⟩ := e5 hm; cases h
    rw [← fin (frag_half h hm)]
    simp only [packProv, bind, d1 n1, d2 _ n2, d3 _ n3, Except.bind]
    cases packProvFragment v none with
    | error e => rfl
    | ok a => simp only [d5 _ n5, pure, Except.pure]; cases a <;> rfl
  | satellite y p n =>
    obtain ⟨m, hm⟩ := sat_match h
    obtain ⟨_, _, _, hn, rfl⟩ := e5 hm
    injection hn with q1 q2 q3; subst q1 q2 q3
    have n1 := none_of fun m hm => by obtain ⟨_, _, _, _, h, -⟩ := e1 hm; cases h
    have n2 := none_of fun m hm => by obtain ⟨_, _, h, -⟩ := e2 hm; cases h
    have n3 := none_of fun m hm => by obtain ⟨_, _, _, _, _, h, -⟩ := e3 hm; cases h
    have n4 := none_of fun m hm => by obtain ⟨_, _, _, _, _, h, -⟩ := e4 hm; cases h
    rw [← fin (sat_half h hm)]
    simp only [packProv, bind, d1 n1, d2 _ n2, d3 _ n3, d4 _ n4, Except.bind]
    cases packProvSat v none with
    | error e => rfl
    | ok a => cases a <;> rfl

/-- any other text -/
theorem packProv_isnt {v : Str} (h : ∀ w : ProvName, ¬ w.Is v) : packProv (some v) = raiseRT := by
  have none_of : ∀ {r : Re}, (∀ m, reMatch r v = some m → False) → reMatch r v = none := by
    intro r hr
    cases hq : reMatch r v with
    | none => rfl
    | some m => exact (hr m hq).elim
  have n1 := none_of fun m hm => by obtain ⟨_, _, _, _, h', -⟩ := mpProv_some hm; exact h _ h'
  have n2 := none_of fun m hm => by obtain ⟨_, _, h', -⟩ := survey_some hm; exact h _ h'
  have n3 := none_of fun m hm => by obtain ⟨_, _, _, _, _, h', -⟩ := comet_some hm; exact h _ h'
  have n4 := none_of fun m hm => by obtain ⟨_, _, _, _, _, h', -⟩ := frag_some hm; exact h _ h'
  have n5 := none_of fun m hm => by obtain ⟨_, _, _, h', -⟩ := sat_some hm; exact h _ h'
  simp only [packProv, packProvMinor, packProvSurvey, packProvComet, packProvFragment, packProvSat, n1, n2, n3, n4, n5, bind, Except.bind]

end Verif.Packing
