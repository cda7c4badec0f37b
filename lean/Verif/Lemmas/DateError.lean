import Verif.Spec.Decoded
import Verif.Lemmas.DateAccept
import Verif.Props.Positions
/-!
  Verif.Lemmas.DateError : the exceptions of the date check.
-/
namespace Verif.Sex
open Verif Flt Verif.Spec.Packing

theorem value_two {a b : Char} {x y : Nat} (ha : decVal a = some x) (hb : decVal b = some y) : Digits0 [a, b] ∧ value [a, b] = 10 * x + y := by
  constructor
  · intro z hz
    simp only [List.mem_cons, List.not_mem_nil, or_false] at hz
    rcases hz with rfl | rfl
    · simp [isDec, ha]
    · simp [isDec, hb]
  · simp [value, ha, hb]

theorem rng_val {a b c : Char} (hs : (List.range 128).all (fun n => !(decide (a.toNat ≤ n) && decide (n ≤ b.toNat)) || (decide (48 ≤ n) && decide (n < 58))) = true)
    (hb : b.toNat < 128) (h : rng a b c = true) : decVal c = some (c.toNat - 48) ∧ a.toNat ≤ c.toNat ∧ c.toNat ≤ b.toNat := by
  obtain ⟨h1, h2, h3⟩ := rng_digit hs hb h
  refine ⟨decVal_ascii h1 h2, h3, ?_⟩
  simp only [rng, Bool.and_eq_true, decide_eq_true_eq] at h
  exact h.2

theorem month_value {c t : Str} {k : Caps}
    (h : (alts [cat [.cls (ch '0'), .cls (rng '1' '9')], lit ['1', '0'], lit ['1', '1'], lit ['1', '2']]).parse c t k) :
    Digits0 c ∧ c.length = 2 ∧ 1 ≤ value c ∧ value c ≤ 12 := by
  simp only [alts, lit, cat, List.map_cons, List.map_nil] at h
  rcases h with h | h | h | h
  all_goals obtain ⟨a, b, rfl, ha, hb, rfl⟩ := pair_parse h
  · rw [ch_iff.1 ha]
    obtain ⟨hv, h1, h2⟩ := rng_val (by decide +kernel) (by decide) hb
    obtain ⟨e1, e2⟩ := value_two (a := '0') (x := 0) (by decide) hv
    have : ('1' : Char).toNat = 49 := rfl
    have : ('9' : Char).toNat = 57 := rfl
    exact ⟨e1, rfl, by omega, by omega⟩
  all_goals rw [ch_iff.1 ha, ch_iff.1 hb]
  · exact ⟨by intro z hz; revert z; decide, rfl, by decide, by decide⟩
  · exact ⟨by intro z hz; revert z; decide, rfl, by decide, by decide⟩
  · exact ⟨by intro z hz; revert z; decide, rfl, by decide, by decide⟩

theorem day_value {c t : Str} {k : Caps}
    (h : (alts [cat [.cls (ch '0'), .cls (rng '1' '9')], cat [.cls (oneOf ['1', '2']), .cls isDec], lit ['3', '0'], lit ['3', '1']]).parse c t k) :
    Digits0 c ∧ c.length = 2 ∧ 1 ≤ value c ∧ value c ≤ 31 := by
  simp only [alts, lit, cat, List.map_cons, List.map_nil] at h
  rcases h with h | h | h | h
  all_goals obtain ⟨a, b, rfl, ha, hb, rfl⟩ := pair_parse h
  · rw [ch_iff.1 ha]
    obtain ⟨hv, h1, h2⟩ := rng_val (by decide +kernel) (by decide) hb
    obtain ⟨e1, e2⟩ := value_two (a := '0') (x := 0) (by decide) hv
    have : ('1' : Char).toNat = 49 := rfl
    have : ('9' : Char).toNat = 57 := rfl
    exact ⟨e1, rfl, by omega, by omega⟩
  · rw [isDec, Option.isSome_iff_exists] at hb
    obtain ⟨y, hy⟩ := hb
    have hl := decVal_lt hy
    have : ∃ x, decVal a = some x ∧ 1 ≤ x ∧ x ≤ 2 := by
      simp only [oneOf, List.any_cons, List.any_nil, Bool.or_false, Bool.or_eq_true, beq_iff_eq, Char.toNat_inj] at ha
      rcases ha with rfl | rfl
      · exact ⟨1, by decide, by omega, by omega⟩
      · exact ⟨2, by decide, by omega, by omega⟩
    obtain ⟨x, hx, x1, x2⟩ := this
    obtain ⟨e1, e2⟩ := value_two hx hy
    exact ⟨e1, rfl, by omega, by omega⟩
  all_goals rw [ch_iff.1 ha, ch_iff.1 hb]
  · exact ⟨by intro z hz; revert z; decide, rfl, by decide, by decide⟩
  · exact ⟨by intro z hz; revert z; decide, rfl, by decide, by decide⟩

/-- the parts of a text that the pattern matches -/
theorem date_full {t : Str} {m : Caps} (h : reMatch checkDateRe t = some m) :
    ∃ Y M D F w, t = Y ++ ' ' :: M ++ ' ' :: D ++ '.' :: F ++ w ∧ group m 1 = some Y ∧ group m 2 = some M ∧ group m 3 = some D ∧ group m 4 = some F ∧
      Digits0 Y ∧ Y.length = 4 ∧ 1600 ≤ value Y ∧ Digits0 M ∧ M.length = 2 ∧ 1 ≤ value M ∧ value M ≤ 12 ∧ Digits0 D ∧ D.length = 2 ∧ 1 ≤ value D ∧ value D ≤ 31 ∧
      Digits0 F ∧ 1 ≤ F.length := by
  obtain ⟨c, r, rfl, hp⟩ := reMatch_parse h
  obtain ⟨ab, c1, c2, kab, tab, mo, tmo, kmo, dd, tdd, kdd, f, w, k, hab, hc1, hc2, hmo, hdd, f1, hfd, q1, q2⟩ := date_split hp
  obtain ⟨a, b, x, z, rfl, ha, hb, hv, rfl⟩ := century_parse hab
  obtain ⟨m1, m2, m3, m4⟩ := month_value hmo
  obtain ⟨d1, d2, d3, d4⟩ := day_value hdd
  obtain rfl := month_caps hmo
  obtain rfl := day_caps hdd
  obtain ⟨e1, e2⟩ := year_value ha hb hc1 hc2 hv
  subst q1 q2
  refine ⟨[a, b, c1, c2], mo, dd, f, w ++ r, ?_, rfl, rfl, rfl, rfl, e1, rfl, e2, m1, m2, m3, m4, d1, d2, d3, d4, hfd, f1⟩
  simp

theorem errBind {α β : Type} (e : PyErr) (f : α → Py β) : ((Except.error e : Py α) >>= f : Py β) = .error e := rfl

theorem okBind' {α β : Type} (a : α) (f : α → Py β) : (Except.ok a >>= f : Py β) = f a := rfl

theorem read_core {t Y M D F : Str} {m : Caps} {y mo d : Nat} {q : F64} (intsec : Bool) (h : reMatch checkDateRe t = some m)
    (g1 : (group m 1).getD [] = Y) (g2 : (group m 2).getD [] = M) (g3 : (group m 3).getD [] = D) (g4 : (group m 4).getD [] = F)
    (nY : pyNat Y = .ok y) (nM : pyNat M = .ok mo) (nD : pyNat D = .ok d) (hp : parse ('.' :: F) = .ok q) :
    sexDateToISO t intsec = (do
    let seconds := mul q (ofInt 86400)
    let prec : Num := if F.length ≤ 6 then .int (10 ^ (6 - F.length)) else .flt (ofRat (ten (6 - (F.length : Int))))
    let digits := secondsDigits intsec false true F.length
    let d0 ← mkDate y mo d
    if digits = 0 then do
      let dt ← addUs d0 ((Flt.round seconds).toNat * 1000000)
      pure (isoSeconds dt ++ ['Z'], prec, '.' :: F)
    else do
      let dt ← addUs d0 (timedeltaUs seconds)
      let fr := Flt.round (mul (sub seconds (ofInt (trunc seconds))) (ofInt (10 ^ digits)))
      let t := intStr fr
      pure (isoSeconds dt ++ ['.'] ++ (List.replicate (digits - t.length) '0' ++ t) ++ ['Z'], prec, '.' :: F)) := by
  unfold sexDateToISO
  rw [h]
  show (pyNat ((group m 1).getD []) >>= _) = _
  rw [g1, nY, okBind']
  rw [g2, nM, okBind']
  rw [g3, nD, okBind']
  rw [g4]
  dsimp only
  rw [hp, okBind']

theorem core_same {F : Str} {y mo d f : Nat} (intsec : Bool) (p : Num) (hp : p = .int (10 ^ (6 - F.length))) :
    Except.map (fun x : Str × Num × Str => (x.1, x.2.1)) (do
    let seconds : F64 := ⟨false, sig F.length f⟩
    let prec : Num := p
    let digits := secondsDigits intsec false true F.length
    let d0 ← mkDate y mo d
    if digits = 0 then do
      let dt ← addUs d0 ((Flt.round seconds).toNat * 1000000)
      pure (isoSeconds dt ++ ['Z'], prec, '.' :: F)
    else do
      let dt ← addUs d0 (timedeltaUs seconds)
      let fr := Flt.round (mul (sub seconds (ofInt (trunc seconds))) (ofInt (10 ^ digits)))
      let t := intStr fr
      pure (isoSeconds dt ++ ['.'] ++ (List.replicate (digits - t.length) '0' ++ t) ++ ['Z'], prec, '.' :: F)) =
    (isoCore y mo d F.length f intsec true).map (fun x => (x.1, x.2.1)) := by
  unfold isoCore
  dsimp only
  rw [← hp]
  generalize secondsDigits intsec false true F.length = dg
  cases mkDate y mo d with
  | error e => rw [errBind, errBind]
  | ok d0 =>
    rw [okBind', okBind']
    by_cases h0 : dg = 0
    · rw [if_pos h0, if_pos h0]
      generalize addUs d0 _ = x
      cases x with
      | error e => rw [errBind, errBind]
      | ok a => rw [okBind', okBind']; rfl
    · rw [if_neg h0, if_neg h0]
      generalize addUs d0 _ = x
      cases x with
      | error e => rw [errBind, errBind]
      | ok a => rw [okBind', okBind']; rfl

/-- the numbers of a text -/
def Parts (t : Str) (y mo d n f : Nat) : Prop :=
  ∃ Y M D F w, Spec.Unpacking.Digits 4 Y ∧ Spec.Unpacking.Digits 2 M ∧ Spec.Unpacking.Digits 2 D ∧ Spec.Unpacking.Digits n F ∧ t = Y ++ ' ' :: M ++ ' ' :: D ++ '.' :: F ++ w ∧
    value Y = y ∧ value M = mo ∧ value D = d ∧ value F = f

/-- what `sexDateToISO` does with the parts of a text, but for the fraction that it returns -/
theorem read_any {t : Str} {m : Caps} (h : reMatch checkDateRe t = some m) (hl : t.length ≤ 17) (intsec : Bool) :
    ∃ y mo d n f, 1600 ≤ y ∧ y ≤ 9999 ∧ 1 ≤ mo ∧ mo ≤ 12 ∧ 1 ≤ d ∧ d ≤ 31 ∧ 1 ≤ n ∧ n ≤ 6 ∧ f < 10 ^ n ∧ (Spec.monthDays y mo < d → Spec.Decoded.NoSuchDay t) ∧ Parts t y mo d n f ∧
      (sexDateToISO t intsec).map (fun x => (x.1, x.2.1)) = (isoCore y mo d n f intsec true).map (fun x => (x.1, x.2.1)) := by
  obtain ⟨Y, M, D, F, w, ht, g1, g2, g3, g4, y1, y2, y3, m1, m2, m3, m4, d1, d2, d3, d4, f1, f2⟩ := date_full h
  have hn : F.length ≤ 6 := by
    rw [ht] at hl
    simp at hl
    omega
  have nY : Number Y := ⟨by rintro rfl; simp at y2, y1⟩
  have nM : Number M := ⟨by rintro rfl; simp at m2, m1⟩
  have nD : Number D := ⟨by rintro rfl; simp at d2, d1⟩
  have nF : Number F := ⟨by rintro rfl; simp at f2, f1⟩
  have hy := value_lt y1
  have hf := value_lt f1
  rw [y2] at hy
  refine ⟨value Y, value M, value D, F.length, value F, y3, by omega, m3, m4, d3, d4, f2, hn, hf,
    fun hm => ⟨Y, M, D, F, w, ⟨y2, y1⟩, ⟨m2, m1⟩, ⟨d2, d1⟩, nF, ht, y3, m3, m4, hm, d4⟩, ⟨Y, M, D, F, w, ⟨y2, y1⟩, ⟨m2, m1⟩, ⟨d2, d1⟩, ⟨rfl, f1⟩, ht, rfl, rfl, rfl, rfl⟩, ?_⟩
  have hp : parse ('.' :: F) = .ok ⟨false, rnd ((value F : ℚ) / 10 ^ F.length)⟩ := by
    have := parse_any (a := []) (b := F) (by intro c hc; cases hc) f1 (by simp; omega)
    simpa [value] using this
  rw [read_core intsec h (by rw [g1]; rfl) (by rw [g2]; rfl) (by rw [g3]; rfl) (by rw [g4]; rfl) (Packing.pyNat_value nY) (Packing.pyNat_value nM)
    (Packing.pyNat_value nD) hp, mul_sig]
  exact core_same intsec _ (if_pos hn)

/-- a date of Spec.ObsDate that is refused is refused with RuntimeError -/
theorem valid_error {d : Spec.ObsDate} (h : d.Valid) {e : PyErr} (he : checkDate d.column = .error e) : e = .runtimeError := by
  by_cases hl : d.late
  · by_cases h5 : d.digits ≤ 5
    · obtain ⟨w, -, -, hw⟩ := C32_late d h hl h5
      rw [hw] at he; cases he
    · have h6 : d.digits ≤ 6 := h.2.2.2.2.2.2.2.1
      rw [C32_refused d h hl (by omega)] at he
      injection he with he; exact he.symm
  · obtain ⟨w, ms, -, -, -, hw, -⟩ := C32_round_trip d h hl
    rw [hw] at he; cases he

theorem date_error {t : Str} (hl : t.length ≤ 17) {e : PyErr} (h : checkDate t = .error e) : e = .runtimeError ∨ (e = .valueError ∧ Spec.Decoded.NoSuchDay t) := by
  cases hm : reMatch checkDateRe t with
  | none =>
    left
    unfold checkDate sexDateToISO at h
    rw [hm] at h
    injection h with h; exact h.symm
  | some m =>
    obtain ⟨y, mo, d, n, f, hy, hy', hmo, hmo', hd, hd', hn, hn', hf, hns, -, hr⟩ := read_any hm hl false
    rw [← sexDate_read hy hy' hmo hmo' hd hd' hn hn' hf] at hr
    by_cases hday : Spec.monthDays y mo < d
    · right
      refine ⟨?_, hns hday⟩
      rw [iso_noday hy hy' hmo hmo' hday hd' hn hn' hf] at hr
      unfold checkDate at h
      cases hs : sexDateToISO t false with
      | ok v => rw [hs] at hr; cases hr
      | error e' =>
        rw [hs] at hr h
        injection hr with hr
        injection h with h
        rw [← h, hr]
    · left
      have hv : (⟨y, mo, d, n, f⟩ : Spec.ObsDate).Valid := ⟨hy, hy', hmo, hmo', hd, by simpa using hday, hn, hn', hf⟩
      have hve := fun e he => valid_error hv (e := e) he
      generalize (⟨y, mo, d, n, f⟩ : Spec.ObsDate).column = u at hr hve
      unfold checkDate at h hve
      cases hs : sexDateToISO t false with
      | error e' =>
        rw [hs] at hr h
        cases hu : sexDateToISO u false with
        | ok v => rw [hu] at hr; cases hr
        | error e'' =>
          rw [hu] at hr hve
          injection hr with hr
          injection h with h
          rw [← h, hr]
          exact hve e'' rfl
      | ok v =>
        obtain ⟨iso, prec, fr⟩ := v
        rw [hs] at hr h
        cases hu : sexDateToISO u false with
        | error e'' => rw [hu] at hr; cases hr
        | ok v' =>
          obtain ⟨iso', prec', fr'⟩ := v'
          rw [hu] at hr hve
          injection hr with hr
          injection hr with r1 r2
          simp only at r1 r2
          subst r1 r2
          simp only [bind, Except.bind] at h hve
          split at h
          · injection h with h; exact h.symm
          · rename_i hp
            rw [if_neg hp] at hve
            cases hb : isoToSexDate iso prec with
            | error e2 =>
              rw [hb] at h hve
              injection h with h
              rw [← h]
              exact hve e2 rfl
            | ok sx =>
              rw [hb] at h
              simp only at h
              split at h
              · injection h with h; exact h.symm
              · cases h
end Verif.Sex
