import Verif.Lemmas.BackDict
/-
  Lemmas for C39: the columns written for the elements of C38.
-/
namespace Verif.ToMpc80
open Verif Verif.ToPsv Verif.Mpc80 Verif.PackUtil Verif.Spec.Mpc80 Verif.Xml
open Verif.Spec hiding Item Group fileText Group.lines

theorem opt_none {t : Str} (h : t = []) : opt t = none := by simp [opt, h]
theorem opt_some {t : Str} (h : t ≠ []) : opt t = some t := by simp [opt, h]

/-! ### time and angles -/

theorem date_back {d : ObsDate} (h : d.Valid) {w ms : Nat} (hw : w < 86400) (hms : ms < 1000) (hclose : |(w : ℚ) + ms / 1000 - d.seconds| ≤ 1 / 2000) :
    Sex.isoToSexDate (isoTime d.year d.month d.day w ('.' :: fixed 3 ms ++ ['Z'])) (.int (10 ^ (6 - d.digits))) = .ok d.column := by
  have o := Sex.Ok.of h
  rw [Sex.back_frac (strptime_ms (by have := o.hy; omega) o.hy' o.hm o.hm' o.hd o.hd' (by omega) hms)]
  have hm' := o.hm'
  have := o.day31
  have hy := o.hy
  rw [Sex.back (k := d.frac) o.hn o.hn' (by omega) (by omega) (by omega) o.hy' (by omega) (by omega)]
  · rw [Nat.mod_eq_of_lt o.hf]
  · rw [← seconds_days (d := d)]
    have hpow : (10 : ℚ) ^ d.digits ≤ 10 ^ 6 := pow_le_pow_right₀ (by norm_num) o.hn'
    have hpos : (0 : ℚ) < 10 ^ d.digits := by positivity
    have e : ((w : ℚ) + ((ms * 1000 : Nat) : ℚ) / 1000000) / 86400 * 10 ^ d.digits - d.seconds / 86400 * 10 ^ d.digits =
      ((w : ℚ) + (ms : ℚ) / 1000 - d.seconds) * (10 ^ d.digits / 86400) := by push_cast; ring
    rw [e, abs_mul, abs_of_pos (a := (10 : ℚ) ^ d.digits / 86400) (by positivity)]
    calc _ ≤ 1 / 2000 * (10 ^ 6 / 86400) := mul_le_mul hclose (by linarith) (by positivity) (by norm_num)
      _ < _ := by norm_num

theorem time_prec {n : Nat} (h1 : 1 ≤ n) (h2 : n ≤ 6) : ∃ f, Flt.parse (Spec.dec (10 ^ (6 - n))) = .ok f ∧ (Sex.Num.flt f).f = (Sex.Num.int (10 ^ (6 - n))).f := by
  obtain rfl | rfl | rfl | rfl | rfl | rfl : n = 1 ∨ n = 2 ∨ n = 3 ∨ n = 4 ∨ n = 5 ∨ n = 6 := by omega
  all_goals exact ⟨_, by kernel_rfl, rfl⟩

theorem angle_prec {r : Sexagesimal} (h : r.Valid 3) : ∃ f, Flt.parse (precText r) = .ok f ∧ (Sex.Num.flt f).f = (Sex.read r).prec.f := by
  refine ⟨(Sex.read r).prec.f, ?_, rfl⟩
  cases r with
  | seconds h' m s d f =>
    obtain ⟨_, _, _, h4, h5, _⟩ := h
    obtain rfl | rfl | rfl : d = 1 ∨ d = 2 ∨ d = 3 := by omega
    all_goals kernel_rfl
  | wholeSeconds h' m s => kernel_rfl
  | minutes h' m d f =>
    obtain ⟨_, _, h4, h5, _⟩ := h
    obtain rfl | rfl : d = 1 ∨ d = 2 := by omega
    all_goals kernel_rfl
  | wholeMinutes h' m => kernel_rfl

theorem valid23 {r : Sexagesimal} (h : r.Valid 2) : r.Valid 3 := by
  cases r <;> simp only [Sexagesimal.Valid] at h ⊢ <;> omega

/-- the date, right ascension and declination columns -/
theorem angles {o : Optical} (h : o.Valid) {time ra dec : Str} (hr : o.Reading time ra dec) : ∃ pt pr pd,
    Flt.parse (Spec.dec (10 ^ (6 - o.date.digits))) = .ok pt ∧ Flt.parse (precText o.ra) = .ok pr ∧ Flt.parse (precText o.dec) = .ok pd ∧
    Sex.isoToSexDate time (.flt pt) = .ok o.date.column ∧ Sex.decRaToSexRa ra (.flt pr) = .ok (Spec.column 12 o.ra.text) ∧
    Sex.degDeclToSexDecl dec (.flt pd) = .ok (Spec.column 12 ((if o.south then '-' else '+') :: o.dec.text)) := by
  have ok := Sex.Ok.of h.date
  obtain ⟨pt, t1, t2⟩ := time_prec ok.hn ok.hn'
  obtain ⟨pr, r1, r2⟩ := angle_prec h.ra
  obtain ⟨pd, d1, d2⟩ := angle_prec (valid23 h.dec)
  obtain ⟨w, ms, hw, hms, hc, rfl⟩ := hr.time
  obtain ⟨K, rfl, hK⟩ := hr.ra
  obtain ⟨L, rfl, hL⟩ := hr.dec
  refine ⟨pt, pr, pd, t1, r1, d1, ?_, ?_, ?_⟩
  · rw [Sex.date_prec t2]
    exact date_back h.date hw hms (by rw [abs_le]; constructor <;> linarith [hc.1, hc.2])
  · rw [Sex.ra_prec r2]
    refine Sex.ra_back h.ra ?_
    push_cast at hK
    rw [abs_le]
    constructor <;> linarith [hK.1, hK.2]
  · rw [Sex.dec_prec d2]
    have := Sex.dec_back o.south h.dec (K := L) (by
      push_cast at hL
      rw [abs_le]
      constructor <;> linarith [hL.1, hL.2])
    revert this
    cases o.south <;> exact id

/-! ### numbers with a decimal point -/

theorem takeWhile_dot {a b : Str} (ha : '.' ∉ a) : (a ++ '.' :: b).takeWhile (· ≠ '.') = a ∧ (a ++ '.' :: b).dropWhile (· ≠ '.') = '.' :: b := by
  induction a with
  | nil => simp
  | cons c a ih =>
    simp at ha
    have := ih ha.2
    have hc : c ≠ '.' := fun e => ha.1 e.symm
    simp [hc]
    simpa using this

theorem takeWhile_nodot {a : Str} (ha : '.' ∉ a) : a.takeWhile (· ≠ '.') = a ∧ a.dropWhile (· ≠ '.') = [] := by
  induction a with
  | nil => simp
  | cons c a ih =>
    simp at ha
    have := ih ha.2
    have hc : c ≠ '.' := fun e => ha.1 e.symm
    simp [hc]
    simpa using this

theorem take_replicate_app {n m i : Nat} {s : Str} (h : n ≤ s.length + i) (h' : n ≤ s.length + m) : (s ++ List.replicate i ' ').take n = (s ++ List.replicate m ' ').take n := by
  rw [List.take_append, List.take_append, List.take_replicate, List.take_replicate]
  congr 2; omega

/-- a number justified on its decimal point -/
theorem point_column (w k : Nat) {t : Str} (h : t.count '.' ≤ 1) : ∃ u x y, applyPJ t ((w + k : Nat) : Int) .D ((w + 1 : Nat) : Int) = .ok (u, x, y) ∧ u.take (w + k) = pointColumn w k t := by
  by_cases hd : '.' ∈ t
  · obtain ⟨a, b, rfl, ha⟩ := exists_split hd
    have hb : '.' ∉ b := by
      intro hb
      have := List.count_pos_iff.2 hb
      simp at h; omega
    refine ⟨_, _, _, applyPJ_point ha hb _ _ (by omega), ?_⟩
    unfold pointColumn
    rw [(takeWhile_dot ha).1, (takeWhile_dot ha).2, leftpad_eq, List.rightpad]
    simp only [blanks]
    rw [show (((w + 1 : Nat) : Int) - 1 - (a.length : Int)).toNat = w - a.length by omega]
    simp only [← List.append_assoc]
    refine take_replicate_app ?_ ?_ <;> simp <;> omega
  · refine ⟨_, _, _, applyPJ_nopoint hd _ _ (by omega), ?_⟩
    unfold pointColumn
    rw [(takeWhile_nodot hd).1, (takeWhile_nodot hd).2, leftpad_eq, List.rightpad]
    simp only [blanks]
    rw [show (((w + 1 : Nat) : Int) - 1 - (t.length : Int)).toNat = w - t.length by omega, List.nil_append]
    refine take_replicate_app ?_ ?_ <;> simp <;> omega

/-! ### the other columns -/

theorem perm_ne {p : Perm} : p.text ≠ [] := by
  cases p with
  | minor n => exact dec_ne n
  | comet n ty => simp [Perm.text]
  | fragment n ty f => simp [Perm.text]
  | satellite p n => simp [Perm.text]
theorem prov_ne {q : Prov} : q.text ≠ [] := by
  cases q <;> simp [Prov.text]

theorem id_back {o : Optical} (h : o.Valid) {place : List (Str × Str)} {time ra dec : Str} {d : Dict} (hd : Holds o place time ra dec d) : idColumns d = .ok o.desig.columns := by
  unfold idColumns
  rw [hd.artSat, hd.permID, hd.provID, hd.trkSub]
  have hp := pack_valid h.desig
  have e : (⟨opt (o.desig.permText.getD []), opt (o.desig.provText.getD []), opt (o.desig.trkText.getD [])⟩ : IDs) = ades o.desig := by
    have hv := h.desig
    cases hx : o.desig with
    | perm p => simp [ades, Designation.permText, Designation.provText, Designation.trkText, opt, perm_ne]
    | prov p => simp [ades, Designation.permText, Designation.provText, Designation.trkText, opt, prov_ne]
    | both p q => simp [ades, Designation.permText, Designation.provText, Designation.trkText, opt, prov_ne, perm_ne]
    | tracklet t =>
      rw [hx] at hv
      have : t ≠ [] := by rintro rfl; simp [Designation.Valid] at hv
      simp [ades, Designation.permText, Designation.provText, Designation.trkText, opt, this]
  simp only [e, hp]

theorem trim_one {c : Char} : trim [c] = if c = ' ' then [] else [c] := by
  by_cases h : c = ' ' <;> simp [trim, h]

theorem disc_back {o : Optical} {place : List (Str × Str)} {time ra dec : Str} {d : Dict} (hd : Holds o place time ra dec d) : hasKeyOrVal d (c! "disc") [' '] = [o.disc] := by
  unfold hasKeyOrVal
  rw [hd.disc, trim_one]
  by_cases h : o.disc = ' ' <;> simp [h, opt]

theorem mag_back {o : Optical} (hm : o.mag.count '.' ≤ 1) {place : List (Str × Str)} {time ra dec : Str} {d : Dict} (hd : Holds o place time ra dec d) :
    ∃ u x y, applyPJ (hasKeyOrVal d (c! "mag") []) 5 .D 3 = .ok (u, x, y) ∧ u.take 5 = pointColumn 2 3 (trim o.mag) := by
  have e : hasKeyOrVal d (c! "mag") [] = trim o.mag := by
    unfold hasKeyOrVal
    rw [hd.mag]
    by_cases h : trim o.mag = [] <;> simp [h, opt]
  rw [e]
  refine point_column 2 3 (Nat.le_trans (List.Sublist.count_le _ ?_) hm)
  unfold trim
  have h1 := List.dropWhile_sublist (fun x : Char => decide (x = ' ')) (l := (o.mag.dropWhile (fun x => decide (x = ' '))).reverse)
  have h2 := h1.reverse
  rw [List.reverse_reverse] at h2
  exact h2.trans (List.dropWhile_sublist _)

theorem band_back {o : Optical} {place : List (Str × Str)} {time ra dec : Str} {d : Dict} (hd : Holds o place time ra dec d) :
    bandColumn (hasKeyOrVal d (c! "band") [' ']) = [normalBand o.mag o.band] := by
  unfold hasKeyOrVal
  rw [hd.band]
  unfold bandText normalBand
  by_cases h1 : trim o.mag = []
  · rw [if_pos h1, if_pos h1]; rfl
  · rw [if_neg h1, if_neg h1]
    by_cases h2 : o.band = ' '
    · rw [if_pos h2, if_pos h2]; decide
    · rw [if_neg h2, if_neg h2]
      simp only [opt, List.cons_ne_self, if_false, Option.getD_some]
      have : dictGet bandconv [o.band] = none := by
        simp [dictGet, bandconv]
      simp [bandColumn, this]

theorem cat_back (c : Char) : catColumn (catName c) = .ok (normalCat c) := by
  unfold catName normalCat
  cases h : dictGet catCodes c with
  | none =>
    have h' : c ∉ catCodes.map Prod.fst := by
      simp only [dictGet, Option.map_eq_none_iff, List.find?_eq_none, List.mem_reverse] at h
      intro hm
      obtain ⟨x, hx, e⟩ := List.mem_map.1 hm
      exact h x hx (by simp [e])
    rw [if_neg h']
    decide +kernel
  | some v =>
    have hr := (C16_catalogues c v).1 h
    have hm : c ∈ catCodes.map Prod.fst := by
      simp only [dictGet, Option.map_eq_some_iff] at h
      obtain ⟨x, hx, -⟩ := h
      have hm := List.mem_of_find?_eq_some hx
      have he := List.find?_some hx
      simp at hm he
      exact List.mem_map.2 ⟨x, hm, he⟩
    have hs : strip v = v := by have := (cat_text c).1; rwa [catName, h] at this
    rw [if_pos hm]
    simp only [Option.getD_some, catColumn, hs, hr, Option.isNone_some, Bool.false_eq_true, if_false, Psv.getItem]

theorem trim_length (t : Str) : (trim t).length ≤ t.length := by
  unfold trim
  rw [List.length_reverse]
  refine Nat.le_trans (List.dropWhile_sublist _).length_le ?_
  rw [List.length_reverse]
  exact (List.dropWhile_sublist _).length_le

theorem packRef_other {t : Str} (hl : t.length ≤ 5) (h1 : t.take 3 ≠ c! "MPC") (h2 : t.take 3 ≠ c! "MPS") : packRef t = .ok (ljust 5 t) := by
  have e : slice t 0 3 = t.take 3 := by simp [slice]
  simp only [packRef, e, if_neg h1, if_neg h2, bind, Except.bind, pure, Except.pure]
  rw [show t.length - 5 = 0 by omega, List.drop_zero]

theorem ref_back {o : Optical} (h : o.Valid) (hr : o.ref.Restorable) {place : List (Str × Str)} {time ra dec : Str} {d : Dict} (hd : Holds o place time ra dec d) :
    packRef (hasKeyOrVal d (c! "ref") [' ']) = .ok o.ref.normal.columns := by
  unfold hasKeyOrVal
  rw [hd.ref]
  have hv := h.ref
  cases hx : o.ref with
  | page r =>
    rw [hx] at hr hv
    have hne : r.text ≠ [] := by cases r <;> simp [Ref.text]
    simp only [RefCols.text, opt, hne, if_false, Option.getD_some, RefCols.normal, RefCols.columns]
    exact C13_pack (by cases r <;> exact hr)
  | other t =>
    rw [hx] at hr hv
    simp only [RefCols.text, RefCols.normal, RefCols.columns]
    by_cases h0 : trim t = []
    · rw [h0]; decide +kernel
    · simp only [opt, h0, if_false, Option.getD_some]
      rw [packRef_other (by have := trim_length t; have := hv.1; omega) hr.1 hr.2.1]
      rfl

theorem note_back {o : Optical} (h : o.Valid) {place : List (Str × Str)} {time ra dec : Str} {d : Dict} (hd : Holds o place time ra dec d) :
    ∃ n, charAt (hasKeyOrVal d (c! "notes") [' ']) 0 = .ok n ∧
      notesColumn d n = .ok [o.note] := by
  unfold hasKeyOrVal notesColumn
  rw [hd.notes, hd.prog]
  have hn := h.note
  by_cases hu : o.usesPrograms
  · rw [if_pos hu] at hn
    refine ⟨' ', by rw [if_pos hu]; rfl, ?_⟩
    by_cases hb : o.note = ' '
    · rw [if_neg (by simp [hb])]; simp [opt, hb]
    · rw [if_pos ⟨hu, hb⟩]
      have hm := hn.resolve_left hb
      have hne : (progText o.note).isEmpty = false := by simp [progText]
      have h2 : unpackProgID (progText o.note) = .ok o.note := by
        have q : programLetters.all (fun c => decide (unpackProgID (progText c) = .ok c)) = true := by decide +kernel
        simpa using all_mem q hm
      have : progText o.note ≠ [] := by simp [progText]
      simp only [opt, this, if_false, hne, Bool.false_eq_true, h2, bind, Except.bind, pure, Except.pure]
  · rw [if_neg hu, trim_one, if_neg (show ¬ (o.usesPrograms ∧ o.note ≠ ' ') from fun h => hu h.1)]
    refine ⟨o.note, ?_, rfl⟩
    by_cases hb : o.note = ' ' <;> simp [opt, hb, charAt]

theorem modes_back : ∀ c ∈ c! " PeCBTMcEOHNn", Psv.getItem reverseCodeDict (modeOf c) = .ok c := by decide +kernel

/-- the code column of an observation from the ground -/
theorem code_ground {o : Optical} (h : o.Valid) (h1 : o.code ≠ 'S') (h2 : o.code ≠ 'V') {time ra dec : Str} {d : Dict} (hd : Holds o [] time ra dec d) : codeColumn d = .ok [o.code] := by
  have hp : dictGet d (c! "pos1") = none := by rw [hd.place _ (by simp)]; rfl
  unfold codeColumn
  rw [hd.deprecated]
  by_cases hx : o.code = 'X'
  · rw [if_pos hx, hx]; rfl
  · rw [if_neg hx]
    simp only [opt, if_true, codeColumn.positionCode, hp, Option.isSome_none, Bool.false_eq_true, if_false, hd.subFrm]
    by_cases ha : o.code = 'A'
    · simp [ha]
    · rw [if_neg ha]
      have hm : o.code ∈ c! " PeCBTMcEOHNn" := by
        have := h.code
        revert this ha h1 h2 hx
        generalize o.code = c
        have : ∀ c ∈ c! "A PeCBTMcEOHNnXSV", c ≠ 'S' → c ≠ 'V' → c ≠ 'X' → c ≠ 'A' → c ∈ c! " PeCBTMcEOHNn" := by decide
        exact fun a b c d e => this _ e a b c d
      simp only [if_true, Option.isSome_none, Bool.false_eq_true, if_false, show Psv.getItem d (c! "mode") = .ok (modeOf o.code) by simp [Psv.getItem, hd.mode], bind, Except.bind, modes_back _ hm]
      rfl

/-- the code column of an observation from a spacecraft -/
theorem code_sat {o : Optical} (hc : o.code = 'S') {s : Spacecraft} {time ra dec : Str} {d : Dict} (hd : Holds o s.values time ra dec d) : codeColumn d = .ok [o.code] := by
  have hp : dictGet d (c! "pos1") = some s.x.text := by rw [hd.place _ (by simp)]; rfl
  have hs : Psv.getItem d (c! "sys") = .ok (if s.au then c! "ICRF_AU" else c! "ICRF_KM") := by rw [Psv.getItem, hd.place _ (by simp)]; rfl
  unfold codeColumn
  rw [hd.deprecated, hc]
  simp only [opt, if_true, codeColumn.positionCode, hp, Option.isSome_some, hs, bind, Except.bind]
  cases s.au <;> rfl

/-- the code column of an observation by a roving observer -/
theorem code_rover {o : Optical} (hc : o.code = 'V') {r : Rover} (hl : trim r.lon ≠ []) {time ra dec : Str} {d : Dict} (hd : Holds o r.values time ra dec d) : codeColumn d = .ok [o.code] := by
  have hp : dictGet d (c! "pos1") = some (trim r.lon) := by
    rw [hd.place _ (by simp)]
    unfold Rover.values
    simp [get_append, get_cons, get_val, opt, hl]
  have hs : Psv.getItem d (c! "sys") = .ok (c! "WGS84") := by
    rw [Psv.getItem, hd.place _ (by simp)]
    unfold Rover.values
    simp [get_append, get_cons, get_val]
  unfold codeColumn
  rw [hd.deprecated, hc]
  simp only [opt, if_true, codeColumn.positionCode, hp, Option.isSome_some, hs, bind, Except.bind]
  rfl

/-! ### the lines -/

/-- what the two lines share -/
def sharedOf (o : Optical) : Shared := ⟨o.desig.columns, [o.disc], [o.note], o.date.column, normalCat o.cat, o.ref.normal.columns, o.stn⟩

theorem item_of {β : Type} {d : List (Str × β)} {k : Str} {v : β} (h : dictGet d k = some v) : Psv.getItem d k = .ok v := by simp [Psv.getItem, h]

theorem angle_back {o : Optical} (hs : o.stn ≠ c! "275" ∧ o.stn ≠ c! "244") {place : List (Str × Str)} {time ra dec : Str} {d : Dict} (hd : Holds o place time ra dec d) {pr pd : Sex.Num} {x y : Str}
    (h1 : Sex.decRaToSexRa ra pr = .ok x) (h2 : Sex.degDeclToSexDecl dec pd = .ok y) : angleColumns d pr pd = .ok (x, y) := by
  unfold angleColumns
  rw [item_of hd.stn, item_of hd.ra, item_of hd.dec]
  simp only [bind, Except.bind, if_neg hs.1, if_neg hs.2, h1, h2]
  rfl

theorem first_back {o : Optical} (h : o.Valid) (hr : o.Restorable) {place : List (Str × Str)} {time ra dec : Str} {d : Dict} (hrd : o.Reading time ra dec) (hd : Holds o place time ra dec d)
    (hc : codeColumn d = .ok [o.code]) (op : Opts) : opticalFirst op d = .ok (sharedOf o, o.normal.line) := by
  obtain ⟨pt, pr, pd, a1, a2, a3, a4, a5, a6⟩ := angles h hrd
  obtain ⟨n, n1, n2⟩ := note_back h hd
  obtain ⟨u, x, y, m1, m2⟩ := mag_back hr.mag hd
  have k1 : hasKeyOrVal d (c! "precTime") op.precTime = Spec.dec (10 ^ (6 - o.date.digits)) := by rw [hasKeyOrVal, hd.precTime]; rfl
  have k2 : hasKeyOrVal d (c! "precRA") op.precRA = precText o.ra := by rw [hasKeyOrVal, hd.precRA]; rfl
  have k3 : hasKeyOrVal d (c! "precDec") op.precDec = precText o.dec := by rw [hasKeyOrVal, hd.precDec]; rfl
  unfold opticalFirst
  rw [id_back h hd, Sex.okBind]
  rw [n1, Sex.okBind, k1, k2, k3, a1, Sex.okBind, a2, Sex.okBind, a3, Sex.okBind, item_of hd.obsTime, Sex.okBind, a4, Sex.okBind]
  rw [angle_back hr.stn hd a5 a6, Sex.okBind]
  simp only
  rw [m1, Sex.okBind]
  simp only
  rw [item_of hd.astCat, Sex.okBind, cat_back, Sex.okBind, ref_back h hr.ref hd, Sex.okBind, n2, Sex.okBind, hc, Sex.okBind, item_of hd.stn, Sex.okBind, m2, band_back hd, disc_back hd]
  simp only [pure, Except.pure, sharedOf, Optical.line, Optical.normal, List.append_assoc]
  rfl

end Verif.ToMpc80
