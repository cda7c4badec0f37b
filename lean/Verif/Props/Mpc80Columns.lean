import Verif.Spec.Mpc80
import Verif.Lemmas.Mpc80Header
/-
  C27: the fields of a decoded line are its documented columns.
-/
namespace Verif
open Verif.Mpc80 Verif.PackUtil Verif.Spec.Mpc80

theorem cols_slice (line : Str) {a b : Nat} (h : 1 ≤ a) : cols line a b = slice line (a - 1) b := by
  unfold cols slice; congr 1; omega

private theorem unslice (s : Str) (a b : Nat) : slice s a b = cols s (a + 1) b := (cols_slice (a := a + 1) s (by omega)).symm

theorem astCat_col {s : Str} {c : Char} {cs : Str} (h : slice s 71 77 = c :: cs) : slice s 71 72 = [c] := by
  have := slice_slice s (a := 71) (b := 77) (k := 1) (by omega)
  rw [h] at this
  rw [← this]; rfl

/-- what is known of a decoded data line: `ret` its columns, `item` what the common checks make of them -/
theorem decode_data {line : Str} {item : Item} (h : decode80ColumnDataLine line = .ok item) (h0 : line ≠ []) (hh : item.get? (c! "headerKeyword") = none) :
    line.length = 80 ∧ reMatch headerRegex line = none ∧ ∃ ret, decodeColumns line = .ok ret ∧ decodeChecks ret = .ok item := by
  rcases decode_ok.1 h with h | ⟨_, _, m, _, rfl⟩ | h
  · exact absurd h.1 h0
  · simp [get?_put] at hh
  · exact h

macro "fields" : tactic => `(tactic| (simp [checked, normalItem, normalColumns, radar1Item, radar2Item, satItem, roverItem, commonItem, get?_put, get?_set, unslice]))

/-- C27: for every line the decoder accepts as data — any 80 characters — the kind of line is given by column 15 and every field
    kept as it stands is exactly the documented range of columns. -/
theorem C27_columns {line : Str} {item : Item} (h : decode80ColumnDataLine line = .ok item) (h0 : line ≠ []) (hh : item.get? (c! "headerKeyword") = none) :
    line.length = 80 ∧ ∃ c kind, cols line 15 15 = [c] ∧ kindOf c = some kind ∧
      ∀ f ∈ commonFields ++ ownFields kind, item.get? f.name = some (.str (cols line f.first f.last)) := by
  obtain ⟨h80, hm, ret, hr, hc⟩ := decode_data h h0 hh
  refine ⟨h80, ?_⟩
  obtain ⟨d, t, p, code, stn, notes, c, cs, id, ids, h1, h2, h3, h4, h5, g1, g2, h6, h8, h9, rfl⟩ := decodeChecks_ok.1 hc
  obtain ⟨x, hx⟩ : ∃ x, line[14]? = some x := ⟨line[14], by simp [h80]⟩
  have h15 : cols line 15 15 = [x] := by rw [cols_slice _ (by omega)]; exact one_col hx
  rcases (decodeColumns_ok h80).1 hr with ⟨ho, hr⟩ | ⟨ho, hr⟩ | ⟨ho, rfl⟩ | ⟨ho, hr⟩ | ⟨ho, rfl⟩
  · obtain ⟨t', p', ra, pra, dec, pdec, _, _, _, rfl⟩ := decodeNormal_ok.1 hr
    have hp : cols line 72 72 = [c] := by
      rw [cols_slice _ (by omega)]
      refine astCat_col (cs := cs) ?_
      simpa [normalItem, normalColumns, commonItem, get?_put, get?_set] using h6
    refine ⟨x, .optical, h15, ?_, ?_⟩
    · have := normal_code ho hx
      simp at this
      rcases this with rfl | rfl | rfl | rfl | rfl | rfl | rfl | rfl | rfl | rfl | rfl | rfl | rfl | rfl | rfl | rfl | rfl | rfl <;> decide
    · simp only [commonFields, ownFields, List.cons_append, List.nil_append, List.forall_mem_cons]
      refine ⟨?_, ?_, ?_, ?_, ?_, ?_, ?_, ?_, ?_, ?_, ?_, ?_, by simp⟩ <;> fields
      exact hp.symm
  · obtain ⟨shift, _, rfl⟩ := decodeRadar1_ok.1 hr
    have hp : cols line 72 72 = [c] := by
      rw [cols_slice _ (by omega)]
      refine astCat_col (cs := cs) ?_
      simpa [radar1Item, commonItem, get?_put, get?_set] using h6
    refine ⟨x, .radarFirst, h15, by rw [radar1_code ho hx]; decide, ?_⟩
    simp only [commonFields, ownFields, List.cons_append, List.nil_append, List.forall_mem_cons]
    refine ⟨?_, ?_, ?_, ?_, ?_, ?_, ?_, ?_, ?_, by simp⟩ <;> fields
    exact hp.symm
  · have hp : cols line 72 72 = [c] := by
      rw [cols_slice _ (by omega)]
      refine astCat_col (cs := cs) ?_
      simpa [radar2Item, commonItem, get?_put, get?_set] using h6
    refine ⟨x, .radarSecond, h15, by rw [radar2_code ho hx]; decide, ?_⟩
    simp only [commonFields, ownFields, List.cons_append, List.nil_append, List.forall_mem_cons]
    refine ⟨?_, ?_, ?_, ?_, ?_, ?_, ?_, ?_, ?_, ?_, ?_, by simp⟩ <;> fields
    exact hp.symm
  · obtain ⟨p1, p2, p3, _, _, _, _, _, _, rfl⟩ := decodeSat_ok.1 hr
    have hp : cols line 72 72 = [c] := by
      rw [cols_slice _ (by omega)]
      refine astCat_col (cs := cs) ?_
      simpa [satItem, commonItem, get?_put, get?_set] using h6
    refine ⟨x, .satelliteSecond, h15, by rw [sat_code ho hx]; decide, ?_⟩
    simp only [commonFields, ownFields, List.cons_append, List.nil_append, List.forall_mem_cons]
    refine ⟨?_, ?_, ?_, ?_, ?_, ?_, ?_, ?_, ?_, by simp⟩ <;> fields
    exact hp.symm
  · have hp : cols line 72 72 = [c] := by
      rw [cols_slice _ (by omega)]
      refine astCat_col (cs := cs) ?_
      simpa [roverItem, commonItem, get?_put, get?_set] using h6
    refine ⟨x, .roverSecond, h15, by rw [rover_code ho hx]; decide, ?_⟩
    simp only [commonFields, ownFields, List.cons_append, List.nil_append, List.forall_mem_cons]
    refine ⟨?_, ?_, ?_, ?_, ?_, ?_, ?_, ?_, ?_, ?_, ?_, by simp⟩ <;> fields
    exact hp.symm


/-- C27: the values computed from the columns common to all data lines: the time from columns 16–32 (C32), the designation from columns
    1–12 (C05–C08). -/
theorem C27_time_and_designation {line : Str} {item : Item} (h : decode80ColumnDataLine line = .ok item) (h0 : line ≠ [])
    (hh : item.get? (c! "headerKeyword") = none) :
    (∃ t p, Sex.checkDate (cols line 16 32) (decide (cols line 15 15 = c! "R" ∨ cols line 15 15 = c! "r")) = .ok (t, p) ∧
      item.get? (c! "obsTime") = some (.str t) ∧ item.get? (c! "precTime") = some (.num p)) ∧
    ∃ ids, unpackPackedID (cols line 1 12) = .ok ids ∧ item.get? (c! "permID") = some (ofOpt ids.permID) ∧
      item.get? (c! "provID") = some (ofOpt ids.provID) ∧ item.get? (c! "trkSub") = some (ofOpt ids.trkSub) := by
  obtain ⟨h80, hm, ret, hr, hc⟩ := decode_data h h0 hh
  obtain ⟨d, t, p, code, stn, notes, c, cs, id, ids, h1, h2, h3, h4, h5, g1, g2, h6, h8, h9, rfl⟩ := decodeChecks_ok.1 hc
  obtain ⟨x, hx⟩ : ∃ x, line[14]? = some x := ⟨line[14], by simp [h80]⟩
  have h15 : cols line 15 15 = [x] := by rw [cols_slice _ (by omega)]; exact one_col hx
  have key : ret.get? (c! "date") = some (.str (cols line 16 32)) ∧ ret.get? (c! "totalid") = some (.str (cols line 1 12)) ∧
      (ret.get? (c! "trx")).isSome = decide (cols line 15 15 = c! "R" ∨ cols line 15 15 = c! "r") := by
    rw [h15]
    rcases (decodeColumns_ok h80).1 hr with ⟨ho, hr⟩ | ⟨ho, hr⟩ | ⟨ho, rfl⟩ | ⟨ho, hr⟩ | ⟨ho, rfl⟩
    · obtain ⟨t', p', ra, pra, dec, pdec, _, _, _, rfl⟩ := decodeNormal_ok.1 hr
      have hc := normal_code ho hx
      have hc1 : x ≠ 'R' := by rintro rfl; simp at hc
      have hc2 : x ≠ 'r' := by rintro rfl; simp at hc
      simp [hc1, hc2, normalItem, normalColumns, commonItem, get?_put, get?_set, unslice, get?_nil]
    · obtain ⟨shift, _, rfl⟩ := decodeRadar1_ok.1 hr
      rw [radar1_code ho hx]
      simp [radar1Item, commonItem, get?_put, get?_set, unslice]
    · rw [radar2_code ho hx]
      simp [radar2Item, commonItem, get?_put, get?_set, unslice]
    · obtain ⟨p1, p2, p3, _, _, _, _, _, _, rfl⟩ := decodeSat_ok.1 hr
      rw [sat_code ho hx]
      simp [satItem, commonItem, get?_put, get?_set, unslice, get?_nil]
    · rw [rover_code ho hx]
      simp [roverItem, commonItem, get?_put, get?_set, unslice, get?_nil]
  obtain ⟨k1, k2, k3⟩ := key
  rw [k1] at h1; rw [k2] at h8; rw [k3] at h2
  simp only [Option.some.injEq, Val.str.injEq] at h1 h8
  subst h1 h8
  exact ⟨⟨t, p, h2, by simp [checked, get?_put, get?_set], by simp [checked, get?_put, get?_set]⟩, ids, h9, by simp [checked, get?_put, get?_set],
    by simp [checked, get?_put, get?_set], by simp [checked, get?_put, get?_set]⟩

/-- C27: the right ascension and declination of an optical line come from columns 33–44 and 45–56 (C30, C31). -/
theorem C27_optical {line : Str} {item : Item} (h : decode80ColumnDataLine line = .ok item) (hh : item.get? (c! "headerKeyword") = none)
    {c : Char} (hc : cols line 15 15 = [c]) (hk : kindOf c = some .optical) :
    ∃ ra pra dec pdec, Sex.checkRa (cols line 33 44) = .ok (ra, pra) ∧ Sex.checkDec (cols line 45 56) = .ok (dec, pdec) ∧
      item.get? (c! "ra") = some (.str ra) ∧ item.get? (c! "precRA") = some (.num pra) ∧
      item.get? (c! "dec") = some (.str dec) ∧ item.get? (c! "precDec") = some (.num pdec) := by
  obtain ⟨h80, hm, ret, hr, hc'⟩ := decode_data h (by rintro rfl; simp [cols] at hc) hh
  obtain ⟨d, t, p, code, stn, notes, c', cs, id, ids, h1, h2, h3, h4, h5, g1, g2, h6, h8, h9, rfl⟩ := decodeChecks_ok.1 hc'
  obtain ⟨x, hx⟩ : ∃ x, line[14]? = some x := ⟨line[14], by simp [h80]⟩
  have h15 : cols line 15 15 = [x] := by rw [cols_slice _ (by omega)]; exact one_col hx
  rw [h15] at hc
  simp only [List.cons.injEq, and_true] at hc
  subst hc
  rcases (decodeColumns_ok h80).1 hr with ⟨ho, hr⟩ | ⟨ho, hr⟩ | ⟨ho, rfl⟩ | ⟨ho, hr⟩ | ⟨ho, rfl⟩
  · obtain ⟨t', p', ra, pra, dec, pdec, k1, k2, k3, rfl⟩ := decodeNormal_ok.1 hr
    rw [unslice] at k2 k3
    refine ⟨ra, pra, dec, pdec, k2, k3, ?_, ?_, ?_, ?_⟩ <;> simp [checked, normalItem, get?_put, get?_set]
  · rw [radar1_code ho hx] at hk; exact absurd hk (by decide)
  · rw [radar2_code ho hx] at hk; exact absurd hk (by decide)
  · rw [sat_code ho hx] at hk; exact absurd hk (by decide)
  · rw [rover_code ho hx] at hk; exact absurd hk (by decide)

/-- C27: the numbers of a radar first line: the delay from columns 33–47 with the point after column 37, the Doppler shift from columns
    48–62 with the point after column 58, the frequency from columns 63–68 with the point after column 67. -/
theorem C27_radar_first {line : Str} {item : Item} (h : decode80ColumnDataLine line = .ok item) (hh : item.get? (c! "headerKeyword") = none)
    (hc : cols line 15 15 = c! "R") :
    item.get? (c! "delay") = some (.str (if strip (cols line 33 47) = [] then [] else pointed line 33 37 47)) ∧
    (if strip (cols line 48 62) = [] then item.get? (c! "shift") = some (.str [])
     else ∃ v, packSigned (pointed line 48 58 62) = .ok v ∧ item.get? (c! "shift") = some (.str v)) ∧
    item.get? (c! "frq") = some (.str (pointed line 63 67 68)) := by
  obtain ⟨h80, hm, ret, hr, hc'⟩ := decode_data h (by rintro rfl; simp [cols] at hc) hh
  obtain ⟨d, t, p, code, stn, notes, c', cs, id, ids, h1, h2, h3, h4, h5, g1, g2, h6, h8, h9, rfl⟩ := decodeChecks_ok.1 hc'
  obtain ⟨x, hx⟩ : ∃ x, line[14]? = some x := ⟨line[14], by simp [h80]⟩
  have h15 : cols line 15 15 = [x] := by rw [cols_slice _ (by omega)]; exact one_col hx
  rw [h15] at hc
  simp only [List.cons.injEq, and_true] at hc
  subst hc
  rcases (decodeColumns_ok h80).1 hr with ⟨ho, hr⟩ | ⟨ho, hr⟩ | ⟨ho, rfl⟩ | ⟨ho, hr⟩ | ⟨ho, rfl⟩
  · have := normal_code ho hx; simp at this
  · obtain ⟨shift, k, rfl⟩ := decodeRadar1_ok.1 hr
    simp only [unslice] at k
    simp only [checked, radar1Item, get?_put, get?_set, unslice, pointed]
    refine ⟨by simp, ?_, by simp⟩
    by_cases hb : strip (cols line 48 62) = []
    · rw [if_neg (by simpa using hb)] at k
      injection k with k
      simp [hb, ← k]
    · rw [if_pos (by simpa using hb)] at k
      rw [if_neg hb]
      exact ⟨shift, k, by simp⟩
  · have := radar2_code ho hx; simp at this
  · have := sat_code ho hx; simp at this
  · have := rover_code ho hx; simp at this

/-- C27: the numbers of a radar second line: the uncertainties in columns 34–47 (point after column 43) and 48–62 (point after column 58). -/
theorem C27_radar_second {line : Str} {item : Item} (h : decode80ColumnDataLine line = .ok item) (hh : item.get? (c! "headerKeyword") = none)
    (hc : cols line 15 15 = c! "r") :
    item.get? (c! "delay uncertainty") = some (.str (if strip (cols line 34 47) = [] then [] else pointed line 34 43 47)) ∧
    item.get? (c! "shift uncertainty") = some (.str (if strip (cols line 48 62) = [] then [] else pointed line 48 58 62)) := by
  obtain ⟨h80, hm, ret, hr, hc'⟩ := decode_data h (by rintro rfl; simp [cols] at hc) hh
  obtain ⟨d, t, p, code, stn, notes, c', cs, id, ids, h1, h2, h3, h4, h5, g1, g2, h6, h8, h9, rfl⟩ := decodeChecks_ok.1 hc'
  obtain ⟨x, hx⟩ : ∃ x, line[14]? = some x := ⟨line[14], by simp [h80]⟩
  have h15 : cols line 15 15 = [x] := by rw [cols_slice _ (by omega)]; exact one_col hx
  rw [h15] at hc
  simp only [List.cons.injEq, and_true] at hc
  subst hc
  rcases (decodeColumns_ok h80).1 hr with ⟨ho, hr⟩ | ⟨ho, hr⟩ | ⟨ho, rfl⟩ | ⟨ho, hr⟩ | ⟨ho, rfl⟩
  · have := normal_code ho hx; simp at this
  · have := radar1_code ho hx; simp at this
  · simp only [checked, radar2Item, get?_put, get?_set, unslice, pointed]
    exact ⟨by simp, by simp⟩
  · have := sat_code ho hx; simp at this
  · have := rover_code ho hx; simp at this

/-- C27: the coordinates of a satellite second line come from columns 35–45, 47–57 and 59–69; column 33 gives the unit. -/
theorem C27_satellite {line : Str} {item : Item} (h : decode80ColumnDataLine line = .ok item) (hh : item.get? (c! "headerKeyword") = none)
    (hc : cols line 15 15 = c! "s") :
    (∃ p1 p2 p3, packSigned (cols line 35 45) = .ok p1 ∧ packSigned (cols line 47 57) = .ok p2 ∧ packSigned (cols line 59 69) = .ok p3 ∧
      item.get? (c! "pos1") = some (.str p1) ∧ item.get? (c! "pos2") = some (.str p2) ∧ item.get? (c! "pos3") = some (.str p3)) ∧
    item.get? (c! "ctr") = some (.str (c! "399")) ∧
    ((cols line 33 33 = c! "1" ∧ item.get? (c! "sys") = some (.str (c! "ICRF_KM"))) ∨
     (cols line 33 33 = c! "2" ∧ item.get? (c! "sys") = some (.str (c! "ICRF_AU")))) := by
  obtain ⟨h80, hm, ret, hr, hc'⟩ := decode_data h (by rintro rfl; simp [cols] at hc) hh
  obtain ⟨d, t, p, code, stn, notes, c', cs, id, ids, h1, h2, h3, h4, h5, g1, g2, h6, h8, h9, rfl⟩ := decodeChecks_ok.1 hc'
  obtain ⟨x, hx⟩ : ∃ x, line[14]? = some x := ⟨line[14], by simp [h80]⟩
  obtain ⟨y, hy⟩ : ∃ y, line[32]? = some y := ⟨line[32], by simp [h80]⟩
  have h15 : cols line 15 15 = [x] := by rw [cols_slice _ (by omega)]; exact one_col hx
  have h33 : cols line 33 33 = [y] := by rw [cols_slice _ (by omega)]; exact one_col hy
  rw [h15] at hc
  simp only [List.cons.injEq, and_true] at hc
  subst hc
  rcases (decodeColumns_ok h80).1 hr with ⟨ho, hr⟩ | ⟨ho, hr⟩ | ⟨ho, rfl⟩ | ⟨ho, hr⟩ | ⟨ho, rfl⟩
  · have := normal_code ho hx; simp at this
  · have := radar1_code ho hx; simp at this
  · have := radar2_code ho hx; simp at this
  · obtain ⟨p1, p2, p3, k1, k2, k3, _, _, _, rfl⟩ := decodeSat_ok.1 hr
    rw [unslice] at k1 k2 k3
    refine ⟨⟨p1, p2, p3, k1, k2, k3, ?_, ?_, ?_⟩, ?_, ?_⟩
    · simp [checked, satItem, get?_put, get?_set]
    · simp [checked, satItem, get?_put, get?_set]
    · simp [checked, satItem, get?_put, get?_set]
    · simp [checked, satItem, get?_put, get?_set]
    · have ho' := ((common_ok _ _ _).1 ho).2.2.2.2.2.2.2.2
      simp only [Layout.ok] at ho'
      have ho' := ho'.1
      simp only [Field.width, subsWidth, Sub.width, subsOk, Sub.ok, List.take_take] at ho'
      have e : (line.drop 32).take 1 = [y] := by rw [← h33]; rfl
      have hy2 := (oneOf_iff _ _).1 (ho'.1 y (by show y ∈ (line.drop 32).take 1; rw [e]; simp))
      simp only [checked, satItem, get?_put, get?_set, unslice, h33]
      simp at hy2
      rcases hy2 with rfl | rfl
      · exact Or.inl ⟨by simp, by simp⟩
      · exact Or.inr ⟨by simp, by simp⟩
  · have := rover_code ho hx; simp at this

/-- C27: a rover second line has its coordinates in WGS84 as they stand (columns 35–44, 46–55, 57–61 by `C27_columns`). -/
theorem C27_rover {line : Str} {item : Item} (h : decode80ColumnDataLine line = .ok item) (hh : item.get? (c! "headerKeyword") = none)
    (hc : cols line 15 15 = c! "v") :
    item.get? (c! "ctr") = some (.str (c! "399")) ∧ item.get? (c! "sys") = some (.str (c! "WGS84")) := by
  obtain ⟨h80, hm, ret, hr, hc'⟩ := decode_data h (by rintro rfl; simp [cols] at hc) hh
  obtain ⟨d, t, p, code, stn, notes, c', cs, id, ids, h1, h2, h3, h4, h5, g1, g2, h6, h8, h9, rfl⟩ := decodeChecks_ok.1 hc'
  obtain ⟨x, hx⟩ : ∃ x, line[14]? = some x := ⟨line[14], by simp [h80]⟩
  have h15 : cols line 15 15 = [x] := by rw [cols_slice _ (by omega)]; exact one_col hx
  rw [h15] at hc
  simp only [List.cons.injEq, and_true] at hc
  subst hc
  rcases (decodeColumns_ok h80).1 hr with ⟨ho, hr⟩ | ⟨ho, hr⟩ | ⟨ho, rfl⟩ | ⟨ho, hr⟩ | ⟨ho, rfl⟩
  · have := normal_code ho hx; simp at this
  · have := radar1_code ho hx; simp at this
  · have := radar2_code ho hx; simp at this
  · have := sat_code ho hx; simp at this
  · exact ⟨by simp [checked, roverItem, get?_put, get?_set], by simp [checked, roverItem, get?_put, get?_set]⟩


theorem no_header {line : Str} (h80 : line.length = 80) {ret item : Item} (hr : decodeColumns line = .ok ret) (hc : decodeChecks ret = .ok item) :
    item.get? (c! "headerKeyword") = none := by
  obtain ⟨d, t, p, code, stn, notes, c', cs, id, ids, _, _, _, _, _, _, _, _, _, _, rfl⟩ := decodeChecks_ok.1 hc
  rcases (decodeColumns_ok h80).1 hr with ⟨ho, hr⟩ | ⟨ho, hr⟩ | ⟨ho, rfl⟩ | ⟨ho, hr⟩ | ⟨ho, rfl⟩
  · obtain ⟨t', p', ra, pra, dec, pdec, _, _, _, rfl⟩ := decodeNormal_ok.1 hr
    simp [checked, normalItem, normalColumns, commonItem, get?_put, get?_set, get?_nil]
  · obtain ⟨shift, _, rfl⟩ := decodeRadar1_ok.1 hr
    simp [checked, radar1Item, commonItem, get?_put, get?_set, get?_nil]
  · simp [checked, radar2Item, commonItem, get?_put, get?_set, get?_nil]
  · obtain ⟨p1, p2, p3, _, _, _, _, _, _, rfl⟩ := decodeSat_ok.1 hr
    simp [checked, satItem, commonItem, get?_put, get?_set, get?_nil]
  · simp [checked, roverItem, commonItem, get?_put, get?_set, get?_nil]

/-- C27: a header line is one whose first three columns are a header keyword and whose fourth is blank; the keyword is those three columns and
    the value all that follows column 4, whatever it is. -/
theorem C27_header {line : Str} (hn : '\n' ∉ line) (hl : line.length ≤ 80) (hk : cols line 1 3 ∈ headerKeys) (h4 : cols line 4 4 = c! " ") :
    ∃ item, decode80ColumnDataLine line = .ok item ∧ item.get? (c! "headerKeyword") = some (.str (cols line 1 3)) ∧
      item.get? (c! "headerValue") = some (.str (line.drop 4)) ∧ item.get? (c! "code") = some (.str (c! "0")) := by
  have h3 : line[3]? = some ' ' := by
    have := congrArg (·[0]?) h4
    simpa [cols, List.getElem?_take] using this
  have hm := header_match (w := line) (t := []) hn (Or.inl rfl)
  rw [List.append_nil, if_pos ⟨by simpa [cols] using hk, h3⟩] at hm
  refine ⟨_, decode_ok.2 (Or.inr (Or.inl ⟨?_, hl, _, hm, rfl⟩)), ?_, ?_, ?_⟩
  · rintro rfl; simp at h3
  · simp [get?_put, g, group, cols]
  · simp [get?_put, g, group]
  · simp [get?_put]

/-- C27: and no other line is taken as a header. -/
theorem C27_header_only {line : Str} {item : Item} (hn : '\n' ∉ line) (h : decode80ColumnDataLine line = .ok item)
    (hh : item.get? (c! "headerKeyword") ≠ none) : cols line 1 3 ∈ headerKeys ∧ cols line 4 4 = c! " " := by
  rcases decode_ok.1 h with ⟨rfl, rfl⟩ | ⟨_, _, m, hm, rfl⟩ | ⟨h80, _, ret, hr, hc⟩
  · simp [get?_nil] at hh
  · have e := header_match (w := line) (t := []) hn (Or.inl rfl)
    rw [List.append_nil, hm] at e
    split at e
    · rename_i k
      refine ⟨by simpa [cols] using k.1, ?_⟩
      rw [cols_slice _ (by omega)]
      exact one_col k.2
    · simp at e
  · exact absurd (no_header h80 hr hc) hh

/-- C27: no other data line than one of 80 columns is accepted. -/
theorem C27_width {line : Str} {item : Item} (hn : '\n' ∉ line) (h : decode80ColumnDataLine line = .ok item) :
    line = [] ∨ line.length = 80 ∨ (cols line 1 3 ∈ headerKeys ∧ cols line 4 4 = c! " " ∧ line.length ≤ 80) := by
  rcases decode_ok.1 h with ⟨rfl, _⟩ | ⟨_, hl, m, hm, rfl⟩ | ⟨h80, _⟩
  · exact Or.inl rfl
  · have := C27_header_only hn h (by simp [get?_put])
    exact Or.inr (Or.inr ⟨this.1, this.2, hl⟩)
  · exact Or.inr (Or.inl h80)

/-! ### the hypotheses are met -/

/-- an accepted data line -/
def acceptedData (line : Str) : Bool :=
  match decode80ColumnDataLine line with
  | .ok item => (item.get? (c! "headerKeyword")).isNone
  | .error _ => false

theorem acceptedData_spec {line : Str} (h : acceptedData line = true) :
    ∃ item, decode80ColumnDataLine line = .ok item ∧ item.get? (c! "headerKeyword") = none := by
  unfold acceptedData at h
  split at h
  · rename_i item hd; exact ⟨item, hd, by simpa using h⟩
  · simp at h

/-- COD J38 -/
example : ∃ item, decode80ColumnDataLine (c! "COD J38") = .ok item ∧ item.get? (c! "headerValue") = some (.str (c! "J38")) := by
  obtain ⟨i, h, _, h2, _⟩ := C27_header (line := c! "COD J38") (by decide) (by decide) (by decide) (by decide)
  exact ⟨i, h, h2⟩
/-- tests/input/85_test.obs, K20Q04A_test.obs -/
example : acceptedData (c! "00085         C2023 03 05.99841 09 14 47.01 +01 24 38.9          12.4 GV     J38") = true := by decide +kernel
example : acceptedData (c! "     K20Q04A KC2020 08 19.21988321 33 06.41 +11 58 10.3          22.2 Vu~44BVH21") = true := by decide +kernel
/-- attic/old_tests/mpc80data/radarsample -/
example : acceptedData (c! "00433         R1975 01 22.187500  150885360    -         13     430 251 AJ102251") = true := by decide +kernel
example : acceptedData (c! "00433         r1975 01 22.187500S        15              20         251 AJ102251") = true := by decide +kernel
example : acceptedData (c! "     K20Q04A  s2020 08 19.2198831 + 1234.5678 - 2345.6789 + 3456.7890        C51") = true := by decide +kernel
example : acceptedData (c! "     K20Q04A  v2020 08 19.2198831  123.45678 -12.345678  1234                247") = true := by decide +kernel

end Verif
