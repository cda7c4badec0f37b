import Verif.Lemmas.PackPerm
/-! `packProv` on every valid provisional designation. -/
namespace Verif
open Verif.PackUtil

/-- four digits of a year -/
theorem year4 {y : Nat} (h1 : 1000 ≤ y) (h2 : y ≤ 9999) :
    natStr y = [digitChar (y / 1000), digitChar (y / 100 % 10), digitChar (y / 10 % 10), digitChar (y % 10)] :=
  natStr4 (by omega) (by omega)

theorem yearCols_eq {y : Nat} :
    Spec.yearCols y = [Spec.b62 (y / 100), digitChar (y / 10 % 10), digitChar (y % 10)] := by
  have e1 : y % 100 / 10 = y / 10 % 10 := by omega
  have e2 : y % 100 % 10 = y % 10 := by omega
  simp [Spec.yearCols, fixed2 (n := y % 100) (by omega), e1, e2]

theorem century {y : Nat} (h2 : y ≤ 9999) :
    pyNat [digitChar (y / 1000), digitChar (y / 100 % 10)] = .ok (y / 100) := by
  rw [pyNat2 (by omega) (by omega)]; congr 1; omega

theorem count_eq (n : Nat) : Spec.count n = numOrBlank n := by
  simp [Spec.count, numOrBlank, dec_eq]

theorem numOrBlank_mem (n : Nat) : ∀ c ∈ numOrBlank n, c ∈ digits10 := by
  intro c hc
  simp only [numOrBlank] at hc
  split at hc
  · simp at hc
  · exact natStr_mem n c hc

theorem dmem {d : Nat} (h : d < 10) : digitChar d ∈ digits10 := digitChar_mem h

/-- digits in group `g`, then end of string -/
theorem reMatch_digits_eos {lo g : Nat} {ds : Str} (h : ∀ c ∈ ds, c ∈ digits10) (hl : lo ≤ ds.length) :
    reMatch (.seq (.grp g (.rep lo none isDec)) .eos) ds = some [(g, ds)] := by
  have h := run_grp_rep_seq' (lo := lo) (g := g) (p := isDec) (b := .eos) (ds := ds) (t := [])
    (fun c hc => isDec_of_mem (h c hc)) (by simp) (fun c hc => all_mem (F := digits10) (by decide) (h c hc)) hl
  rw [List.append_nil] at h
  rw [reMatch, h]; simp [run]

theorem run_lit3_none {a b c x y : Char} {s : Str} (h : ch b y = false) : run (lit [a, b, c]) (x :: y :: s) = [] := by
  have e : lit [a, b, c] = .seq (.cls (ch a)) (.seq (.cls (ch b)) (.cls (ch c))) := rfl
  rw [e, run, run]
  split
  · simp [run, h]
  · rfl

theorem reMatch_alt_left {a b : Re} {s : Str} {m : Caps} (h : reMatch a s = some m) :
    reMatch (.alt a b) s = some m := by
  simp only [reMatch, run, Option.map_eq_some_iff] at h ⊢
  obtain ⟨x, hx, rfl⟩ := h
  exact ⟨x, by simp [List.head?_append, hx], rfl⟩

theorem reMatch_none_iff {r : Re} {s : Str} : reMatch r s = none ↔ run r s = [] := by
  simp [reMatch, List.head?_eq_none_iff]

theorem reMatch_alt_right {a b : Re} {s : Str} (h : reMatch a s = none) :
    reMatch (.alt a b) s = reMatch b s := by
  rw [reMatch_none_iff] at h
  simp [reMatch, run, h]

theorem run_seq_alt (a b c : Re) (s : Str) : run (.seq (.alt a b) c) s = run (.alt (.seq a c) (.seq b c)) s := by
  simp [run, List.flatMap_append]

theorem run_seq_eps (b : Re) (s : Str) : run (.seq .eps b) s = run b s := by
  simp [run]

theorem reMatch_seq_alt (a b c : Re) (s : Str) : reMatch (.seq (.alt a b) c) s = reMatch (.alt (.seq a c) (.seq b c)) s := by
  simp only [reMatch, run_seq_alt]
theorem reMatch_seq_eps (b : Re) (s : Str) : reMatch (.seq .eps b) s = reMatch b s := by
  simp only [reMatch, run_seq_eps]

/-! #### minor planets -/

def provMinorBack : List Re := [opt (.grp 5 (plus isDec)), .eos]

theorem provMinorBack_match {ds : Str} (h : ∀ c ∈ ds, c ∈ digits10) :
    reMatch (cat provMinorBack) ds = some (if ds = [] then [] else [(5, ds)]) := by
  simp only [provMinorBack, cat, opt, plus]
  rw [reMatch_seq_alt]
  by_cases hd : ds = []
  · subst hd
    rw [reMatch_alt_right (by decide)]; decide
  · rw [reMatch_alt_left (reMatch_digits_eos h (by cases ds <;> simp_all)), if_neg hd]

section
variable {y : Nat} {half order : Char} (hy1 : 1000 ≤ y) (hy2 : y ≤ 9999)
  (hh : half ∈ Spec.halfMonths) (ho : order ∈ Spec.orders)
include hy1 hy2 hh ho

theorem provMinor_match {ds : Str} (h : ∀ c ∈ ds, c ∈ digits10) :
    reMatch minorplanetProvIDRegex (natStr y ++ [' ', half, order] ++ ds) =
      some ([(1, [digitChar (y / 1000), digitChar (y / 100 % 10)]), (2, [digitChar (y / 10 % 10), digitChar (y % 10)]),
        (3, [half]), (4, [order])] ++ if ds = [] then [] else [(5, ds)]) := by
  rw [year4 hy1 hy2]
  have hf : InFams ([digitChar (y / 1000), digitChar (y / 100 % 10), digitChar (y / 10 % 10), digitChar (y % 10)] ++
      [' ', half, order]) [digits10, digits10, digits10, digits10, [' '], Spec.halfMonths, Spec.orders] := by
    simp only [InFams, List.cons_append, List.nil_append]
    refine ⟨dmem (by omega), dmem (by omega), dmem (by omega), dmem (by omega), by simp, hh, ho, trivial⟩
  have := reMatch_front (l1 := [.grp 1 (times 2 isDec), .grp 2 (times 2 isDec), .cls (ch ' '), .grp 3 (.cls halfCls),
       .grp 4 (.cls orderCls)]) (l2 := provMinorBack) (v := ds)
       (k := [(1, 0, 2), (2, 2, 2), (3, 5, 1), (4, 6, 1)]) (by simp [provMinorBack]) hf (by refine ⟨⟨by simp, ?_⟩, ?_⟩ <;> decide +kernel)
  rw [provMinorBack_match h] at this
  exact this

omit hh in
theorem survey_minor_none {ds : Str} :
    reMatch minorplanetSurveyProvIDRegex (natStr y ++ [' ', half, order] ++ ds) = none := by
  rw [year4 hy1 hy2, List.append_assoc]
  have hf : InFams [digitChar (y / 1000), digitChar (y / 100 % 10), digitChar (y / 10 % 10), digitChar (y % 10)]
       [digits10, digits10, digits10, digits10] := by
    simp only [InFams]
    refine ⟨dmem (by omega), dmem (by omega), dmem (by omega), dmem (by omega), trivial⟩
  have hm : ch '-' order = false := by
    have : Spec.orders.all (fun c => !ch '-' c) = true := by decide
    simpa using all_mem this ho
  have := reMatch_front (l1 := [.grp 1 (times 4 isDec)]) (l2 := [.cls (ch ' '),
       .grp 2 (alts [lit (c! "P-L"), lit (c! "T-1"), lit (c! "T-2"), lit (c! "T-3")]), .eos])
       (v := [' ', half, order] ++ ds)
       (k := [(1, 0, 4)]) (by simp) hf (by refine ⟨⟨by simp, ?_⟩, ?_⟩ <;> decide +kernel)
  rw [show minorplanetSurveyProvIDRegex = cat ([.grp 1 (times 4 isDec)] ++ [.cls (ch ' '),
       .grp 2 (alts [lit (c! "P-L"), lit (c! "T-1"), lit (c! "T-2"), lit (c! "T-3")]), .eos]) from rfl, this]
  have h4 : run (alts [lit (c! "P-L"), lit (c! "T-1"), lit (c! "T-2"), lit (c! "T-3")]) (half :: order :: ds) = [] := by
    simp only [alts, run, run_lit3_none hm, List.append_nil]
  have h5 : run (cat [.cls (ch ' '), .grp 2 (alts [lit (c! "P-L"), lit (c! "T-1"), lit (c! "T-2"), lit (c! "T-3")]), .eos])
      ([' ', half, order] ++ ds) = [] := by
    have h6 : run (.cls (ch ' ')) (' ' :: half :: order :: ds) = [([' '], half :: order :: ds, [])] := rfl
    simp only [cat, List.cons_append, List.nil_append]
    rw [run, h6]
    simp only [run, List.flatMap_cons, List.flatMap_nil, List.append_nil, h4, List.map_nil]
  rw [reMatch, h5]; rfl
end

theorem packProv_minor {y c : Nat} {half order : Char} (hy1 : 1000 ≤ y) (hy2 : y ≤ 9999)
    (hh : half ∈ Spec.halfMonths) (ho : order ∈ Spec.orders) :
    packProv (some (natStr y ++ [' ', half, order] ++ numOrBlank c)) =
      if y < 1800 ∨ 6199 < y then raiseRT
      else if c ≤ 619 then .ok (some ⟨(Spec.Prov.minor y half order c).cols, .A, []⟩)
      else if 15500 + 62 ^ 4 ≤ 25 * c + Spec.orderIndex order then raiseRT
      else if 62 ≤ y % 100 then .error .indexError
      else .ok (some ⟨(Spec.Prov.minor y half order c).cols, .A, []⟩) := by
  have e1 := provMinor_match hy1 hy2 hh ho (numOrBlank_mem c)
  have e2 := survey_minor_none (half := half) hy1 hy2 ho (ds := numOrBlank c)
  have hx : ∀ r : Re, digits10.all r.rej = true → reMatch r (natStr y ++ [' ', half, order] ++ numOrBlank c) = none := by
    intro r hr
    rw [List.append_assoc]; exact reMatch_num_none y hr
  have e3 := hx cometProvIDRegex (by decide)
  have e4 := hx cometfragmentProvIDRegex (by decide)
  have e5 := hx satelliteProvIDRegex (by decide)
  have hmid : packProvMinor (natStr y ++ [' ', half, order] ++ numOrBlank c) none = 
      if y < 1800 ∨ 6199 < y then raiseRT
      else if c ≤ 619 then .ok (some ⟨(Spec.Prov.minor y half order c).cols, .A, []⟩)
      else if 15500 + 62 ^ 4 ≤ 25 * c + Spec.orderIndex order then raiseRT
      else if 62 ≤ y % 100 then .error .indexError
      else .ok (some ⟨(Spec.Prov.minor y half order c).cols, .A, []⟩) := by
    simp only [packProvMinor, e1, grp!, group, List.cons_append, List.find?_cons, beq_self_eq_true, Option.map_some, bind,
      Except.bind, pure, Except.pure, century hy2, Nat.reduceBEq, List.nil_append]
    by_cases hc : y < 1800 ∨ 6199 < y
    · rw [if_pos hc, if_pos (by omega)]
    · rw [if_neg hc, if_neg (by omega)]
      by_cases hz : c = 0
      · subst hz
        simp [numOrBlank, truthy, packLetter_ok (k := 0) (by omega), packLetter_ok (k := y / 100) (by omega),
          padded10 (n := 0) (by omega), Spec.Prov.cols, yearCols_eq, Spec.countCols, b62_digit]
      · have hn : numOrBlank c = natStr c := by simp [numOrBlank, hz]
        have hne := natStr_ne_nil c
        have hne' : (natStr c).isEmpty = false := by simpa using hne
        simp only [hn, hne, if_false, List.find?_cons, beq_self_eq_true, Option.map_some, truthy, hne', Bool.not_false,
          if_true, pyNat_natStr]
        by_cases h6 : c ≤ 619
        · simp only [if_pos h6]
          rw [packLetter_ok (k := c / 10) (by omega)]
          simp only [packLetter_ok (k := y / 100) (show y / 100 < 62 by omega)]
          have ed : c - 10 * (c / 10) = c % 10 := by omega
          rw [ed, padded10 (by omega)]
          simp [Spec.Prov.cols, h6, yearCols_eq, Spec.countCols, b62_digit (d := c % 10) (by omega)]
        · simp only [if_neg h6]
          have hfind : strFind orderLetters [order] = some (Spec.orderIndex order) ∧ Spec.orderIndex order < 25 := by
            have : Spec.orders.all (fun o => decide (strFind orderLetters [o] = some (Spec.orderIndex o) ∧ Spec.orderIndex o < 25)) = true := by
              decide +kernel
            simpa using all_mem this ho
          rw [hfind.1]
          have hi := hfind.2
          simp only
          have hiff : (c > 591673 ∨ c = 591673 ∧ Spec.orderIndex order > 10) ↔ 15500 + 62 ^ 4 ≤ 25 * c + Spec.orderIndex order := by
            omega
          simp only [hiff]
          by_cases hbig : 15500 + 62 ^ 4 ≤ 25 * c + Spec.orderIndex order
          · rw [if_pos hbig, if_pos hbig]
          · rw [if_neg hbig, if_neg hbig]
            have ey : pyNat [digitChar (y / 10 % 10), digitChar (y % 10)] = .ok (y % 100) := by
              rw [pyNat2 (by omega) (by omega)]; congr 1; omega
            rw [ey]
            by_cases hyy : 62 ≤ y % 100
            · rw [if_pos hyy]
              have hnone : packLetters[y % 100]? = none := by
                rw [List.getElem?_eq_none_iff]; rw [packLetters_length]; exact hyy
              have : packLetter (y % 100) = .error .indexError := by
                simp only [packLetter, charAt, hnone]
              simp only [this]
            · simp only [if_neg hyy, packLetter_ok (k := y % 100) (by omega)]
              have : ((25 * c + Spec.orderIndex order : Nat) : Int) - 15500 = ((25 * c + Spec.orderIndex order - 15500 : Nat) : Int) := by
                omega
              rw [this, radix62_4_nat]
              simp [Spec.Prov.cols, h6]
  simp only [packProv, hmid, packProvSurvey, packProvComet, packProvFragment, packProvSat, e2, e3, e4, e5, bind, Except.bind]
  have hne : (Spec.Prov.minor y half order c).cols.isEmpty = false := by
    simp only [Spec.Prov.cols]; split <;> rfl
  by_cases h1 : y < 1800 ∨ 6199 < y
  · simp only [if_pos h1, raiseRT]
  · simp only [if_neg h1]
    by_cases h2 : c ≤ 619
    · simp only [if_pos h2, hne]; rfl
    · simp only [if_neg h2]
      by_cases h3 : 15500 + 62 ^ 4 ≤ 25 * c + Spec.orderIndex order
      · simp only [if_pos h3, raiseRT]
      · simp only [if_neg h3]
        by_cases h4 : 62 ≤ y % 100
        · simp only [if_pos h4]
        · simp only [if_neg h4, hne]; rfl

/-! #### surveys -/

theorem packProv_survey {n : Nat} (sv : Spec.Survey) (hn : n ≤ 9999) :
    packProv (some (Spec.fixed 4 n ++ [' ', sv.letter, '-', sv.digit])) =
      .ok (some ⟨[' ', sv.letter, sv.digit, 'S'] ++ Spec.fixed 4 n, .A, []⟩) := by
  have hF := fixed4 (n := n) (by omega)
  have hf : ∃ Fs, (Fs = [digits10, digits10, digits10, digits10, [' '], ['P'], ['-'], ['L']] ∨
      Fs = [digits10, digits10, digits10, digits10, [' '], ['T'], ['-'], ['1']] ∨
      Fs = [digits10, digits10, digits10, digits10, [' '], ['T'], ['-'], ['2']] ∨
      Fs = [digits10, digits10, digits10, digits10, [' '], ['T'], ['-'], ['3']]) ∧
      InFams (Spec.fixed 4 n ++ [' ', sv.letter, '-', sv.digit]) Fs := by
    refine ⟨[digits10, digits10, digits10, digits10, [' '], [sv.letter], ['-'], [sv.digit]], ?_, ?_⟩
    · cases sv <;> simp [Spec.Survey.letter, Spec.Survey.digit]
    · rw [hF]
      simp only [InFams, List.cons_append, List.nil_append]
      refine ⟨dmem (by omega), dmem (by omega), dmem (by omega), dmem (by omega), by simp, by simp, by simp, by simp, trivial⟩
  have e1 : reMatch minorplanetProvIDRegex (Spec.fixed 4 n ++ [' ', sv.letter, '-', sv.digit]) = none := by
    obtain ⟨Fs, rfl | rfl | rfl | rfl, h⟩ := hf <;> exact reMatch_fams (o := none) h (by decide +kernel)
  have e2 : reMatch minorplanetSurveyProvIDRegex (Spec.fixed 4 n ++ [' ', sv.letter, '-', sv.digit]) =
      some [(1, Spec.fixed 4 n), (2, [sv.letter, '-', sv.digit])] := by
    have : reMatch minorplanetSurveyProvIDRegex (Spec.fixed 4 n ++ [' ', sv.letter, '-', sv.digit]) =
        (some [(1, 0, 4), (2, 5, 3)]).map (capsAt (Spec.fixed 4 n ++ [' ', sv.letter, '-', sv.digit])) := by
      obtain ⟨Fs, rfl | rfl | rfl | rfl, h⟩ := hf <;> exact reMatch_fams h (by decide +kernel)
    rw [this, hF]; rfl
  have hx : ∀ r : Re, digits10.all r.rej = true → reMatch r (Spec.fixed 4 n ++ [' ', sv.letter, '-', sv.digit]) = none := by
    intro r hr
    rw [hF]; exact reMatch_rej (all_mem hr (dmem (by omega)))
  have e3 := hx cometProvIDRegex (by decide)
  have e4 := hx cometfragmentProvIDRegex (by decide)
  have e5 := hx satelliteProvIDRegex (by decide)
  have hv : pyNat (Spec.fixed 4 n) = .ok n := by
    rw [hF, pyNat4 (by omega) (by omega) (by omega) (by omega)]; congr 1; omega
  simp only [packProv, packProvMinor, packProvSurvey, packProvComet, packProvFragment, packProvSat, e1, e2, e3, e4, e5, bind,
    Except.bind, pure, Except.pure, grp!, group, List.find?_cons, beq_self_eq_true, Option.map_some, Nat.reduceBEq, hv,
    padded10000 (show n < 10000 by omega), charAt, List.getElem?_cons_zero, List.getElem?_cons_succ]
  rfl

/-! #### comets -/

section
variable {y : Nat} {ty half : Char} (hy1 : 1000 ≤ y) (hy2 : y ≤ 9999)
  (hh : half ∈ Spec.halfMonths)
include hy1 hy2 hh

theorem comet_fams (T : Str) (ht : ty ∈ T) : InFams ([ty, '/'] ++ natStr y ++ [' ', half])
    [T, ['/'], digits10, digits10, digits10, digits10, [' '], Spec.halfMonths] := by
  rw [year4 hy1 hy2]
  simp only [InFams, List.cons_append, List.nil_append]
  exact ⟨ht, by simp, dmem (by omega), dmem (by omega), dmem (by omega), dmem (by omega), by simp, hh, trivial⟩

omit hh in
theorem comet_caps : capsAt ([ty, '/'] ++ natStr y ++ [' ', half]) [(1, 0, 1), (2, 2, 4), (3, 7, 1)] =
    [(1, [ty]), (2, natStr y), (3, [half])] := by
  rw [year4 hy1 hy2]; rfl

theorem cometProv_front (ht : ty ∈ (c! "ACDPX")) (v : Str) :
    reMatch cometProvIDRegex ([ty, '/'] ++ natStr y ++ [' ', half] ++ v) =
      (reMatch (cat [opt (.grp 4 (.cls (rng 'A' 'Z'))), .grp 5 (star isDec), .eos]) v).map
        ([(1, [ty]), (2, natStr y), (3, [half])] ++ ·) := by
  rw [← comet_caps (half := half) hy1 hy2]
  exact reMatch_front (l1 := [.grp 1 (.cls (oneOf (c! "ACDPX"))), .cls (ch '/'), .grp 2 (times 4 isDec), .cls (ch ' '),
       .grp 3 (.cls (rng 'A' 'Z'))]) (l2 := [opt (.grp 4 (.cls (rng 'A' 'Z'))), .grp 5 (star isDec), .eos])
       (by simp) (comet_fams hy1 hy2 hh _ ht) (by refine ⟨⟨by simp, ?_⟩, ?_⟩ <;> decide +kernel)

theorem fragProv_front (ht : ty ∈ (c! "CDPX")) (v : Str) :
    reMatch cometfragmentProvIDRegex ([ty, '/'] ++ natStr y ++ [' ', half] ++ v) =
      (reMatch (cat [.grp 4 (star isDec), .cls (ch '-'), .grp 5 (.cls (rng 'A' 'Z')), .eos]) v).map
        ([(1, [ty]), (2, natStr y), (3, [half])] ++ ·) := by
  rw [← comet_caps (half := half) hy1 hy2]
  exact reMatch_front (l1 := [.grp 1 (.cls (oneOf (c! "CDPX"))), .cls (ch '/'), .grp 2 (times 4 isDec), .cls (ch ' '),
       .grp 3 (.cls (rng 'A' 'Z'))]) (l2 := [.grp 4 (star isDec), .cls (ch '-'), .grp 5 (.cls (rng 'A' 'Z')), .eos])
       (by simp) (comet_fams hy1 hy2 hh _ ht) (by refine ⟨⟨by simp, ?_⟩, ?_⟩ <;> decide +kernel)
end

theorem upper_notDec {o : Char} (h : o ∈ Spec.upperCase) : isDec o = false := by
  have : Spec.upperCase.all (fun c => !isDec c) = true := by decide +kernel
  simpa using all_mem this h

theorem upper_rng {o : Char} (h : o ∈ Spec.upperCase) : rng 'A' 'Z' o = true := by
  have : Spec.upperCase.all (rng 'A' 'Z') = true := by decide +kernel
  exact all_mem this h

theorem cometBack_match {ds : Str} (h : ∀ c ∈ ds, c ∈ digits10) (order : Option Char) (ho : ∀ o ∈ order, o ∈ Spec.upperCase) :
    reMatch (cat [opt (.grp 4 (.cls (rng 'A' 'Z'))), .grp 5 (star isDec), .eos]) (order.toList ++ ds) =
      some ((match order with | none => [] | some o => [(4, [o])]) ++ [(5, ds)]) := by
  have hd := reMatch_digits_eos (lo := 0) (g := 5) h (by omega)
  simp only [cat, opt, star]
  rw [reMatch_seq_alt]
  cases order with
  | none =>
    simp only [Option.toList_none, List.nil_append]
    rw [reMatch_alt_right, reMatch_seq_eps, hd]
    rw [reMatch_none_iff]
    cases ds with
    | nil => rfl
    | cons c s =>
      exact rej_sound (all_mem (F := digits10) (by decide) (h c (by simp)))
  | some o =>
    refine reMatch_alt_left ?_
    have h1 : run (.grp 4 (.cls (rng 'A' 'Z'))) (o :: ds) = [([o], ds, [(4, [o])])] := by
      simp [run, upper_rng (ho o rfl)]
    simp only [Option.toList_some, List.singleton_append]
    simp only [reMatch] at hd ⊢
    rw [run, h1]
    simp only [List.flatMap_cons, List.flatMap_nil, List.append_nil, List.head?_map]
    simp only [Option.map_eq_some_iff] at hd
    obtain ⟨x, hx, hx2⟩ := hd
    rw [hx]; simp [hx2]

theorem fragBack_none {ds : Str} (h : ∀ c ∈ ds, c ∈ digits10) (order : Option Char) (ho : ∀ o ∈ order, o ∈ Spec.upperCase) :
    reMatch (cat [.grp 4 (star isDec), .cls (ch '-'), .grp 5 (.cls (rng 'A' 'Z')), .eos]) (order.toList ++ ds) = none := by
  simp only [cat, star]
  rw [reMatch_none_iff]
  cases order with
  | none =>
    have := run_grp_rep_seq' (lo := 0) (g := 4) (p := isDec) (b := .seq (.cls (ch '-')) (.seq (.grp 5 (.cls (rng 'A' 'Z'))) .eos))
      (ds := ds) (t := []) (fun c hc => isDec_of_mem (h c hc)) (by simp)
      (fun c hc => all_mem (F := digits10) (by decide) (h c hc)) (by omega)
    rw [List.append_nil] at this
    simpa [run] using this
  | some o =>
    have hu := ho o rfl
    have := run_grp_rep_seq' (lo := 0) (g := 4) (p := isDec) (b := .seq (.cls (ch '-')) (.seq (.grp 5 (.cls (rng 'A' 'Z'))) .eos))
      (ds := []) (t := o :: ds) (by simp) (by simp [upper_notDec hu]) (by simp) (by simp)
    simp only [List.nil_append] at this
    simp only [Option.toList_some, List.singleton_append]
    rw [this, rej_sound (all_mem (F := Spec.upperCase) (by decide) hu)]; rfl

theorem cometBack_none {n : Nat} {f : Char} :
    reMatch (cat [opt (.grp 4 (.cls (rng 'A' 'Z'))), .grp 5 (star isDec), .eos]) (natStr n ++ ['-', f]) = none := by
  simp only [cat, opt, star]
  rw [reMatch_seq_alt, reMatch_alt_right (reMatch_num_none n (by decide)), reMatch_seq_eps, reMatch_none_iff]
  have := run_grp_rep_seq' (lo := 0) (g := 5) (p := isDec) (b := .eos) (ds := natStr n) (t := ['-', f])
      (natStr_isDec n) (by simp; decide) (fun c hc => all_mem (F := digits10) (by decide) (natStr_mem n c hc)) (by omega)
  rw [this]; simp [run]

theorem fragBack_match {n : Nat} {f : Char} (hf : f ∈ Spec.upperCase) :
    reMatch (cat [.grp 4 (star isDec), .cls (ch '-'), .grp 5 (.cls (rng 'A' 'Z')), .eos]) (natStr n ++ ['-', f]) =
      some [(4, natStr n), (5, [f])] := by
  have := run_grp_rep_seq' (lo := 0) (g := 4) (p := isDec) (b := .seq (.cls (ch '-')) (.seq (.grp 5 (.cls (rng 'A' 'Z'))) .eos))
      (ds := natStr n) (t := ['-', f]) (natStr_isDec n) (by simp; decide)
      (fun c hc => all_mem (F := digits10) (by decide) (natStr_mem n c hc)) (by omega)
  simp only [cat, star]
  rw [reMatch, this]
  simp [run, upper_rng hf, (ch_iff '-' '-').2 rfl]

theorem slice_year {y : Nat} (h1 : 1000 ≤ y) (h2 : y ≤ 9999) :
    slice (natStr y) 0 2 = [digitChar (y / 1000), digitChar (y / 100 % 10)] ∧
    slice (natStr y) 2 4 = [digitChar (y / 10 % 10), digitChar (y % 10)] := by
  rw [year4 h1 h2]; exact ⟨rfl, rfl⟩

theorem packLetter_err {k : Nat} (h : 62 ≤ k) : packLetter k = .error .indexError := by
  have : packLetters[k]? = none := by rw [List.getElem?_eq_none_iff, packLetters_length]; exact h
  simp only [packLetter, charAt, this]

theorem pyNat_zero_num (n : Nat) : pyNat ('0' :: numOrBlank n) = .ok n := by
  simp only [numOrBlank]
  split
  · rename_i h; subst h; decide
  · exact pyNat_zero_natStr n

theorem packProv_comet {y n : Nat} {ty half : Char} {order : Option Char} (hy1 : 1000 ≤ y) (hy2 : y ≤ 9999)
    (hh : half ∈ Spec.halfMonths) (ht : ty ∈ (c! "ACDPX")) (ho : ∀ o ∈ order, o ∈ Spec.upperCase) :
    packProv (some ([ty, '/'] ++ natStr y ++ [' ', half] ++ order.toList ++ numOrBlank n)) =
      if 620 ≤ n then raiseRT
      else if 6200 ≤ y then .error .indexError
      else .ok (some ⟨(Spec.Prov.comet ty y half order n).cols, if ty = 'A' then .A else .C, []⟩) := by
  rw [List.append_assoc ([ty, '/'] ++ natStr y ++ [' ', half])]
  have e3 := cometProv_front hy1 hy2 hh ht (order.toList ++ numOrBlank n)
  rw [cometBack_match (numOrBlank_mem n) order ho] at e3
  have hx : ∀ r : Re, (c! "ACDPX").all r.rej = true →
      reMatch r ([ty, '/'] ++ natStr y ++ [' ', half] ++ (order.toList ++ numOrBlank n)) = none := by
    intro r hr
    simp only [List.cons_append]
    exact reMatch_rej (all_mem hr ht)
  have e1 := hx minorplanetProvIDRegex (by decide)
  have e2 := hx minorplanetSurveyProvIDRegex (by decide)
  have e5 := hx satelliteProvIDRegex (by decide)
  have e4 : reMatch cometfragmentProvIDRegex ([ty, '/'] ++ natStr y ++ [' ', half] ++ (order.toList ++ numOrBlank n)) = none := by
    by_cases hA : ty = 'A'
    · subst hA
      simp only [List.cons_append]
      exact reMatch_rej (by decide)
    · have ht' : ty ∈ (c! "CDPX") := by simp only [List.mem_cons] at ht ⊢; exact ht.resolve_left hA
      rw [fragProv_front hy1 hy2 hh ht', fragBack_none (numOrBlank_mem n) order ho]; rfl
  obtain ⟨s1, s2⟩ := slice_year hy1 hy2
  have key : packProvComet ([ty, '/'] ++ natStr y ++ [' ', half] ++ (order.toList ++ numOrBlank n)) none =
      if 620 ≤ n then raiseRT
      else if 6200 ≤ y then .error .indexError
      else .ok (some ⟨(Spec.Prov.comet ty y half order n).cols, if ty = 'A' then .A else .C, []⟩) := by
    simp only [packProvComet, e3, Option.map_some]
    have hg : ∀ k, group ([(1, [ty]), (2, natStr y), (3, [half])] ++
        ((match order with | none => [] | some o => [(4, [o])]) ++ [(5, numOrBlank n)])) k =
        if k = 1 then some [ty] else if k = 2 then some (natStr y) else if k = 3 then some [half]
        else if k = 4 then order.map ([·]) else if k = 5 then some (numOrBlank n) else none := by
      intro k
      cases order <;> simp [group, List.find?_cons] <;> (repeat' split) <;> simp_all <;> omega
    simp only [grp!, hg, Nat.reduceEqDiff, if_false, if_true, bind, Except.bind, pure, Except.pure, pyNat_zero_num, s1, s2,
      century hy2]
    by_cases h6 : 620 ≤ n
    · rw [if_pos h6, if_pos (by omega)]
    · rw [if_neg h6, if_neg (by omega)]
      by_cases h7 : 6200 ≤ y
      · rw [if_pos h7, packLetter_err (by omega)]
      · rw [if_neg h7]
        simp only [packLetter_ok (k := y / 100) (by omega), packLetter_ok (k := n / 10) (by omega),
          packLetter_ok (k := n - n / 10 * 10) (by omega)]
        have ed : n - n / 10 * 10 = n % 10 := by omega
        rw [ed]
        cases order <;> simp [truthy, Spec.Prov.cols, yearCols_eq, Spec.countCols]
  simp only [packProv, packProvMinor, packProvSurvey, key, packProvFragment, packProvSat, e1, e2, e4, e5, bind,
    Except.bind, pure, Except.pure]
  by_cases h6 : 620 ≤ n
  · simp only [if_pos h6, raiseRT]
  · by_cases h7 : 6200 ≤ y
    · simp only [if_neg h6, if_pos h7]
    · simp only [if_neg h6, if_neg h7]; rfl

theorem packProv_fragment {y n : Nat} {ty half f : Char} (hy1 : 1000 ≤ y) (hy2 : y ≤ 9999)
    (hh : half ∈ Spec.halfMonths) (ht : ty ∈ (c! "CDPX")) (hf : f ∈ Spec.upperCase) :
    packProv (some ([ty, '/'] ++ natStr y ++ [' ', half] ++ natStr n ++ ['-', f])) =
      if 620 ≤ n then raiseRT
      else if 6200 ≤ y then .error .indexError
      else .ok (some ⟨(Spec.Prov.fragment ty y half n f).cols, .F, [f]⟩) := by
  rw [List.append_assoc ([ty, '/'] ++ natStr y ++ [' ', half])]
  have ht' : ty ∈ (c! "ACDPX") := by simp at ht ⊢; exact Or.inr ht
  have e3 := cometProv_front hy1 hy2 hh ht' (natStr n ++ ['-', f])
  rw [cometBack_none] at e3
  have e4 := fragProv_front hy1 hy2 hh ht (natStr n ++ ['-', f])
  rw [fragBack_match hf] at e4
  have hx : ∀ r : Re, (c! "ACDPX").all r.rej = true →
      reMatch r ([ty, '/'] ++ natStr y ++ [' ', half] ++ (natStr n ++ ['-', f])) = none := by
    intro r hr
    simp only [List.cons_append]
    exact reMatch_rej (all_mem hr ht')
  have e1 := hx minorplanetProvIDRegex (by decide)
  have e2 := hx minorplanetSurveyProvIDRegex (by decide)
  have e5 := hx satelliteProvIDRegex (by decide)
  obtain ⟨s1, s2⟩ := slice_year hy1 hy2
  have hlow : asciiLower f = Spec.lower f := by
    have : Spec.upperCase.all (fun f => asciiLower f == Spec.lower f) = true := by decide +kernel
    simpa using all_mem this hf
  simp only [Option.map_none] at e3
  have e4' : reMatch cometfragmentProvIDRegex ([ty, '/'] ++ natStr y ++ [' ', half] ++ (natStr n ++ ['-', f])) =
      some [(1, [ty]), (2, natStr y), (3, [half]), (4, natStr n), (5, [f])] := e4
  generalize [ty, '/'] ++ natStr y ++ [' ', half] ++ (natStr n ++ ['-', f]) = str at e1 e2 e3 e4' e5
  have key : packProvFragment str none =
      if 620 ≤ n then raiseRT
      else if 6200 ≤ y then .error .indexError
      else .ok (some ⟨(Spec.Prov.fragment ty y half n f).cols, .F, [f]⟩) := by
    simp only [packProvFragment, e4', bind,
      Except.bind, pure, Except.pure, grp!, group, List.find?_cons, beq_self_eq_true,
      Option.map_some, Nat.reduceBEq, pyNat_natStr, s1, s2, century hy2]
    by_cases h6 : 620 ≤ n
    · rw [if_pos h6, if_pos (by omega)]
    · rw [if_neg h6, if_neg (by omega)]
      by_cases h7 : 6200 ≤ y
      · rw [if_pos h7, packLetter_err (by omega)]
      · rw [if_neg h7]
        have ed : n - n / 10 * 10 = n % 10 := by omega
        simp only [packLetter_ok (k := y / 100) (by omega), packLetter_ok (k := n / 10) (by omega), ed,
          packLetter_ok (k := n % 10) (by omega)]
        simp [Spec.Prov.cols, yearCols_eq, Spec.countCols, hlow]
  simp only [packProv, packProvMinor, packProvSurvey, key, packProvComet, packProvSat, e1, e2, e3, e5, bind,
    Except.bind, pure, Except.pure]
  by_cases h6 : 620 ≤ n
  · simp only [if_pos h6, raiseRT]
  · by_cases h7 : 6200 ≤ y
    · simp only [if_neg h6, if_pos h7]
    · simp only [if_neg h6, if_neg h7]; rfl

/-! #### satellites -/

theorem satProv_match {y n : Nat} (p : Spec.Planet) (hy1 : 1000 ≤ y) (hy2 : y ≤ 9999) :
    reMatch satelliteProvIDRegex (['S', '/'] ++ natStr y ++ [' ', p.letter, ' '] ++ natStr n) =
      some [(1, natStr y), (2, [p.letter]), (3, natStr n)] := by
  have hf : InFams (['S', '/'] ++ natStr y ++ [' ', p.letter, ' '])
      [['S'], ['/'], digits10, digits10, digits10, digits10, [' '], c! "JSUN", [' ']] := by
    rw [year4 hy1 hy2]
    simp only [InFams, List.cons_append, List.nil_append]
    refine ⟨by simp, by simp, dmem (by omega), dmem (by omega), dmem (by omega), dmem (by omega), by simp, ?_, by simp, trivial⟩
    cases p <;> decide
  have := reMatch_front (l1 := [.cls (ch 'S'), .cls (ch '/'), .grp 1 (times 4 isDec), .cls (ch ' '),
       .grp 2 (.cls (oneOf (c! "JSUN"))), .cls (ch ' ')]) (l2 := [.grp 3 (plus isDec), .eos]) (v := natStr n)
       (k := [(1, 2, 4), (2, 7, 1)]) (by simp) hf (by refine ⟨⟨by simp, ?_⟩, ?_⟩ <;> decide +kernel)
  have hb : reMatch (cat [.grp 3 (plus isDec), .eos]) (natStr n) = some [(3, natStr n)] :=
    reMatch_digits_eos (natStr_mem n) (natStr_length_pos n)
  rw [hb] at this
  refine Eq.trans this ?_
  rw [year4 hy1 hy2]; rfl

theorem packProv_satellite {y n : Nat} (p : Spec.Planet) (hy1 : 1000 ≤ y) (hy2 : y ≤ 9999) :
    packProv (some (['S', '/'] ++ natStr y ++ [' ', p.letter, ' '] ++ natStr n)) =
      if 620 ≤ n ∨ n = 0 then raiseRT
      else if 6200 ≤ y then .error .indexError
      else .ok (some ⟨(Spec.Prov.satellite y p n).cols, .S, []⟩) := by
  have e5 := satProv_match (n := n) p hy1 hy2
  have hx : ∀ r : Re, r.rej 'S' = true →
      reMatch r (['S', '/'] ++ natStr y ++ [' ', p.letter, ' '] ++ natStr n) = none := by
    intro r hr
    simp only [List.cons_append]
    exact reMatch_rej hr
  have e1 := hx minorplanetProvIDRegex (by decide)
  have e2 := hx minorplanetSurveyProvIDRegex (by decide)
  have e3 := hx cometProvIDRegex (by decide)
  have e4 := hx cometfragmentProvIDRegex (by decide)
  obtain ⟨s1, s2⟩ := slice_year hy1 hy2
  simp only [packProv, packProvMinor, packProvSurvey, packProvComet, packProvFragment, packProvSat, e1, e2, e3, e4, e5, bind,
    Except.bind, pure, Except.pure, grp!, group, List.find?_cons, beq_self_eq_true,
    Option.map_some, Nat.reduceBEq, pyNat_natStr, s1, s2, century hy2]
  by_cases h6 : 620 ≤ n
  · rw [if_pos (Or.inl h6), if_pos (by omega)]; rfl
  · rw [if_neg (by omega)]
    by_cases h0 : n = 0
    · rw [if_pos h0, if_pos (Or.inr h0)]; rfl
    · rw [if_neg h0, if_neg (by omega)]
      by_cases h7 : 6200 ≤ y
      · rw [if_pos h7, packLetter_err (by omega)]
      · rw [if_neg h7]
        have ed : n - n / 10 * 10 = n % 10 := by omega
        simp [packLetter_ok (k := y / 100) (by omega), packLetter_ok (k := n / 10) (by omega),
          packLetter_ok (k := n % 10) (by omega), ed, Spec.Prov.cols, yearCols_eq, Spec.countCols]

/-! #### all provisional designations -/

def provTy : Spec.Prov → IdType
  | .minor .. => .A
  | .survey .. => .A
  | .comet ty .. => if ty = 'A' then .A else .C
  | .fragment .. => .F
  | .satellite .. => .S
def provFrag : Spec.Prov → Str
  | .fragment _ _ _ _ f => [f]
  | _ => []

theorem packProv_valid {q : Spec.Prov} (h : q.Valid) :
    packProv (some q.text) = .ok (some ⟨q.cols, provTy q, provFrag q⟩) := by
  cases q with
  | minor y half order c =>
    obtain ⟨h1, h2, h3, h4, h5⟩ := h
    simp only [Spec.Prov.text, dec_eq, count_eq, provTy, provFrag]
    rw [packProv_minor (by omega) (by omega) h3 h4, if_neg (by omega)]
    rcases h5 with h5 | ⟨h5, h6, h7⟩
    · rw [if_pos h5]
    · by_cases h8 : c ≤ 619
      · rw [if_pos h8]
      · rw [if_neg h8, if_neg (by omega), if_neg (by omega)]
  | survey n s =>
    exact packProv_survey s h
  | comet ty y half order n =>
    obtain ⟨h1, h2, h3, h4, h5, h6⟩ := h
    simp only [Spec.Prov.text, dec_eq, count_eq, provTy, provFrag]
    rw [packProv_comet h2 (by omega) h4 h1 h5, if_neg (by omega), if_neg (by omega)]
  | fragment ty y half n f =>
    obtain ⟨h1, h2, h3, h4, h5, h6, h7⟩ := h
    simp only [Spec.Prov.text, dec_eq, count_eq, provTy, provFrag]
    have : numOrBlank n = natStr n := by simp [numOrBlank]; omega
    rw [this, packProv_fragment h2 (by omega) h4 h1 h7, if_neg (by omega), if_neg (by omega)]
  | satellite y p n =>
    obtain ⟨h1, h2, h3, h4⟩ := h
    simp only [Spec.Prov.text, dec_eq, provTy, provFrag]
    rw [packProv_satellite p h1 (by omega), if_neg (by omega), if_neg (by omega)]

end Verif
