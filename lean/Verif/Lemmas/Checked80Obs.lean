import Verif.Lemmas.Checked80Words
import Verif.Lemmas.BackRun
import Verif.Lemmas.Radar
/-!
  Lemmas.Checked80Obs : when the elements of observations are valid.
-/
namespace Verif.Checked
open Verif.Xml Verif.Spec Verif.Check Verif.Xsd Verif.Fields Verif.Submission Verif.PackUtil Verif.Mpc80
open Verif.Spec.Mpc80 (leafOf nodeOf val Optical Obs Radar RefCols modeOf catName precText progText bandText)

theorem all_val {n t : Str} {P : Str × Str → Prop} : (∀ x ∈ val n t, P x) ↔ (t ≠ [] → P (n, t)) := by
  by_cases h : t = []
  · simp [val, h]
  · simp [val, h]

theorem ref_text {r : RefCols} (h : r.Valid) (hne : r.text ≠ []) : r.text.length ≤ 16 ∧ ∃ c ∈ r.text, Spec.Xsd.white c = false := by
  cases r with
  | page r =>
    cases r with
    | mpc n =>
      have hn : n < 110000 + 62 ^ 4 := h
      have := dec_le (n := n) (k := 8) (by decide) (by omega)
      exact ⟨by simp only [RefCols.text, Ref.text, List.length_append, List.length_cons, List.length_nil]; omega, 'M', by simp [RefCols.text, Ref.text], by decide⟩
    | mps n =>
      have hn : n < 260000 + 62 ^ 4 := h
      have := dec_le (n := n) (k := 8) (by decide) (by omega)
      exact ⟨by simp only [RefCols.text, Ref.text, List.length_append, List.length_cons, List.length_nil]; omega, 'M', by simp [RefCols.text, Ref.text], by decide⟩
  | other t =>
    obtain ⟨h1, -, h3⟩ := h
    have := (ToMpc80.trim_sublist t).length_le
    exact ⟨by show (Spec.Mpc80.trim t).length ≤ 16; omega, trim_solid h3 hne⟩

theorem trim_one {c : Char} (h : Spec.Mpc80.trim [c] ≠ []) : Spec.Mpc80.trim [c] = [c] ∧ c ≠ ' ' := by
  by_cases hc : c = ' '
  · subst hc; exact absurd rfl h
  · exact ⟨by simp [Spec.Mpc80.trim, hc], hc⟩

theorem id_fields {d : Designation} (h : d.Valid) (hu : '_' ∉ d.columns) : ∀ x ∈ idVals d, Field x.1 x.2 := by
  cases d with
  | perm p => simpa [idVals, Designation.permText, Designation.provText, Designation.trkText, val_nil, val_some (perm_ne p)] using perm_field h
  | prov q =>
    have : '_' ∉ q.cols.drop 1 := by intro hm; exact hu (by simp only [Designation.columns, List.mem_append]; exact .inr (List.mem_of_mem_drop hm))
    simpa [idVals, Designation.permText, Designation.provText, Designation.trkText, val_nil, val_some (prov_ne q)] using prov_field h this
  | both p q =>
    obtain ⟨h1, h2, h3⟩ := h
    have : '_' ∉ q.cols.drop 1 := by intro hm; exact hu (by simp only [Designation.columns, List.mem_append]; exact .inr hm)
    simp [idVals, Designation.permText, Designation.provText, Designation.trkText, val_nil, val_some (prov_ne q), val_some (perm_ne p)]
    exact ⟨perm_field h1, prov_field h2 this⟩
  | tracklet t => simpa [idVals, Designation.permText, Designation.provText, Designation.trkText, val_nil, val_some (trk_ne h)] using trk_field h

/-! ### optical observations -/

theorem optical_fields {o : Optical} (h : o.Valid) {place : List (Str × Str)} {time ra dec : Str} (hr : o.Reading time ra dec) :
    (∀ x ∈ o.values place time ra dec, Field x.1 x.2) ↔ o.Sound ∧ ∀ x ∈ place, Field x.1 x.2 := by
  obtain ⟨w, ms, hw, hms, -, et⟩ := hr.time
  obtain ⟨K, er, r1, r2⟩ := hr.ra
  obtain ⟨D, ed, d1, d2⟩ := hr.dec
  obtain ⟨y1, y2, m1, m2, dd1, dd2, g1, g2, -⟩ := h.date
  have hra : Field (c! "ra") ra ↔ o.ra.amount < 24 * 3600 := by
    obtain ⟨-, n1, n6⟩ := unit_ra h.ra
    rw [er, ra_field n1 (by omega), ra_bound h.ra r1 r2]
  have hdec : Field (c! "dec") dec ↔ o.dec.amount ≤ 90 * 3600 := by
    obtain ⟨-, n1, n6⟩ := unit_dec h.dec
    rw [ed, dec_field n1 (by omega), dec_bound h.dec d1 d2]
  have htime : Field (c! "obsTime") time := by
    rw [et]
    refine iso_field (f := '.' :: fixed 3 ms) y1 y2 m1 m2 dd1 dd2 hw (.inr ⟨fixed 3 ms, ?_, ?_, fixed_mem 3 ms, rfl⟩) <;>
    · have : (fixed 3 ms).length = 3 := fixed_length (by decide) (by omega)
      omega
  have hid : ∀ x ∈ idVals o.desig, Field x.1 x.2 := id_fields h.desig h.noExt.1
  simp only [idVals, List.forall_mem_append, all_val] at hid
  simp only [Optical.values, List.forall_mem_append, all_val, List.forall_mem_cons, List.not_mem_nil, false_imp_iff, implies_true, and_true]
  constructor
  · rintro ⟨⟨⟨⟨⟨⟨⟨⟨⟨⟨⟨⟨-, -, stn⟩, pl⟩, -⟩, -, ra', dec', cat⟩, mag⟩, band⟩, ref⟩, -⟩, -⟩, -⟩, -⟩, -⟩
    refine ⟨⟨(stn_field h.stn.1 (by decide)).1 stn, hra.1 ra', hdec.1 dec', ?_, (cat_field _).1 cat, ?_⟩, pl⟩
    · by_cases hm : Spec.Mpc80.trim o.mag = []
      · exact .inl hm
      · refine .inr ⟨(mag_field h.mag.2).1 (mag hm), ?_⟩
        by_cases hb : o.band = ' '
        · exact .inl hb
        · have e : bandText o.mag o.band = [o.band] := by simp [bandText, hm, hb]
          rw [e] at band
          exact .inr (band_field.1 (band (by simp)))
    · by_cases hn : o.ref.text = []
      · simp [hn]
      · obtain ⟨l1, l2⟩ := ref_text h.ref hn
        exact (ref_field l1 l2).1 (ref hn)
  · rintro ⟨s, pl⟩
    refine ⟨⟨⟨⟨⟨⟨⟨⟨⟨⟨⟨⟨hid, mode_field _, (stn_field h.stn.1 (by decide)).2 s.stn⟩, pl⟩, ?_⟩, htime, hra.2 s.ra, hdec.2 s.dec, (cat_field _).2 s.cat⟩, ?_⟩, ?_⟩, ?_⟩, ?_⟩, ?_⟩, fmt_field, precTime_field g1 g2,
      prec_field (by decide) _, prec_field (by decide) _⟩, ?_⟩, ?_⟩
    · by_cases hu : o.usesPrograms ∧ o.note ≠ ' '
      · rw [if_pos hu]
        intro _
        have := h.note
        rw [if_pos hu.1] at this
        exact prog_field (this.resolve_left hu.2)
      · rw [if_neg hu]; intro h; exact absurd rfl h
    · intro hm
      exact (mag_field h.mag.2).2 (s.mag.resolve_left hm).1
    · intro hb
      by_cases hm : Spec.Mpc80.trim o.mag = []
      · simp [bandText, hm] at hb
      · by_cases hc : o.band = ' '
        · have e : bandText o.mag o.band = c! "UNK" := by simp [bandText, hm, hc]
          rw [e]; exact unk_field
        · have e : bandText o.mag o.band = [o.band] := by simp [bandText, hm, hc]
          rw [e]
          exact band_field.2 ((s.mag.resolve_left hm).2.resolve_left hc)
    · intro hn
      obtain ⟨l1, l2⟩ := ref_text h.ref hn
      exact (ref_field l1 l2).2 s.ref
    · intro hn
      obtain ⟨e, hb⟩ := trim_one hn
      rw [e]; exact disc_field h.disc hb
    · intro hn
      by_cases hc : o.code = 'A'
      · rw [if_pos hc]; exact frm_field
      · rw [if_neg hc] at hn; exact absurd rfl hn
    · intro hn
      by_cases hu : o.usesPrograms
      · rw [if_pos hu] at hn; exact absurd rfl hn
      · rw [if_neg hu] at hn ⊢
        obtain ⟨e, hb⟩ := trim_one hn
        have := h.note
        rw [if_neg hu] at this
        rw [e]; exact note_field this hb
    · intro hn
      by_cases hc : o.code = 'X'
      · rw [if_pos hc]; exact dep_field
      · rw [if_neg hc] at hn; exact absurd rfl hn

theorem optical_plain : plainType (c! "OpticalType") = true := by decide +kernel
theorem optical_only : fieldsOnly (c! "OpticalType") [c! "localUse"] = true := by decide +kernel
theorem sys_pos : ∀ n ∈ [c! "pos1", c! "pos2", c! "pos3"], Xsd.pairs S (· = c! "sys") (· = n) 80 (.seq (contentOf (c! "OpticalType"))) = true := by decide +kernel

theorem names_local {o : Optical} {place : List (Str × Str)} (hp : ToMpc80.PlaceNames place) {time ra dec : Str} {x : Str × Str} (hx : x ∈ o.values place time ra dec) : x.1 ∉ [c! "localUse"] := by
  have : x.1 ∈ ToMpc80.valueNames := (ToMpc80.values_sub hp (time := time) (ra := ra) (dec := dec)).subset (List.mem_map.2 ⟨x, hx, rfl⟩)
  have k : ∀ n ∈ ToMpc80.valueNames, n ∉ [c! "localUse"] := by decide +kernel
  exact k _ this

theorem mem_val {n t : Str} {x : Str × Str} (h : x ∈ val n t) : x.1 = n := by
  by_cases ht : t = []
  · simp [val, ht] at h
  · simp [val, ht] at h; simp [h]

theorem pos_place {o : Optical} {place : List (Str × Str)} {time ra dec : Str} {x : Str × Str} (hx : x ∈ o.values place time ra dec) (hn : x.1 ∈ [c! "pos1", c! "pos2", c! "pos3"]) : x ∈ place := by
  have go : ∀ l : List Str, x.1 ∈ l → (∀ n ∈ l, n ∉ [c! "pos1", c! "pos2", c! "pos3"]) → x ∈ place := fun l h k => absurd hn (k _ h)
  have one : ∀ n t : Str, x ∈ val n t → n ∉ [c! "pos1", c! "pos2", c! "pos3"] → x ∈ place := fun n t h k => absurd hn (by rw [mem_val h]; exact k)
  simp only [Optical.values, List.mem_append] at hx
  rcases hx with ((((((((((((((h | h) | h) | h) | h) | h) | h) | h) | h) | h) | h) | h) | h) | h) | h)
  case inl.inl.inl.inl.inl.inl.inl.inl.inl.inl.inr => exact h
  all_goals first | exact one _ _ h (by decide) | skip
  · exact go [c! "mode", c! "stn"] (List.mem_map_of_mem (f := Prod.fst) h) (by decide)
  · exact go [c! "obsTime", c! "ra", c! "dec", c! "astCat"] (List.mem_map_of_mem (f := Prod.fst) h) (by decide)
  · exact go [c! "subFmt", c! "precTime", c! "precRA", c! "precDec"] (List.mem_map_of_mem (f := Prod.fst) h) (by decide)

theorem elem_tags {o : Optical} {place : List (Str × Str)} {time ra dec : Str} : (o.elem place time ra dec).kids.map Elem.tag = (o.values place time ra dec).map (·.1) := by
  show (((o.values place time ra dec).map fun x => leafOf x.1 x.2).map Elem.tag) = _
  rw [List.map_map]; rfl

theorem optical_only_if {o : Optical} (h : o.Valid) {place : List (Str × Str)} (hg : ToMpc80.Good place) (hp : ToMpc80.PlaceNames place) {time ra dec : Str} (hr : o.Reading time ra dec)
    (hv : Valid xsd S (.typed (c! "OpticalType") (o.elem place time ra dec))) :
    o.Sound ∧ (∀ x ∈ place, Field x.1 x.2) ∧ (c! "sys" ∈ place.map (·.1) → ∀ n ∈ [c! "pos1", c! "pos2", c! "pos3"], n ∈ place.map (·.1)) := by
  have hgood := ToMpc80.values_good h hg hr
  have hf : ∀ x ∈ o.values place time ra dec, Field x.1 x.2 := fun x hx => record_field optical_plain optical_only hv hx (hgood x hx).1 (names_local hp hx)
  obtain ⟨h1, h2⟩ := (optical_fields h hr).1 hf
  refine ⟨h1, h2, fun hs n hn => ?_⟩
  have hs' : c! "sys" ∈ (o.values place time ra dec).map (·.1) := by
    obtain ⟨x, hx, e⟩ := List.mem_map.1 hs
    refine List.mem_map.2 ⟨x, ?_, e⟩
    simp only [Optical.values, List.mem_append, hx, true_or, or_true]
  have := node_pairs optical_plain hv (sys_pos n hn) (by rw [elem_tags]; exact hs')
  rw [elem_tags] at this
  obtain ⟨x, hx, e⟩ := List.mem_map.1 this
  exact List.mem_map.2 ⟨x, pos_place hx (by rw [e]; exact hn), e⟩

theorem optical_if {o : Optical} (h : o.Valid) {place : List (Str × Str)} (hg : ToMpc80.Good place) {time ra dec : Str} (hr : o.Reading time ra dec)
    (h1 : o.Sound) (h2 : ∀ x ∈ place, Field x.1 x.2) (h3 : place = [] ∨ place.map (·.1) = [c! "sys", c! "ctr", c! "pos1", c! "pos2", c! "pos3"]) :
    Valid xsd S (.typed (c! "OpticalType") (o.elem place time ra dec)) :=
  record_of optical_plain (optical_word h.desig h3) fun x hx => ⟨(ToMpc80.values_good h hg hr x hx).1, (optical_fields h hr).2 ⟨h1, h2⟩ x hx⟩

theorem signed_ne {k : Nat} {t : Str} (h : Signed k t) : t ≠ [] := by
  obtain ⟨n, -, e, hn, -⟩ := h
  intro e'
  rw [e'] at e
  have := congrArg List.length e
  simp only [Numeral.text, List.length_append, List.length_nil] at this
  exact hn (List.length_eq_zero_iff.1 (by omega))

theorem pos_field {n : Str} (hn : n ∈ [c! "pos1", c! "pos2", c! "pos3"]) {t : Str} (h : Spec.Mpc80.Plain t) : Field n (Spec.Mpc80.trim t) ↔ Signed 13 (Spec.Mpc80.trim t) := by
  have : Field n (Spec.Mpc80.trim t) ↔ Signed 13 (Spec.Xsd.trim (Spec.Mpc80.trim t)) := by
    simp only [List.mem_cons, List.not_mem_nil, or_false] at hn
    rcases hn with rfl | rfl | rfl <;> exact general_field (P := fun v => Signed 13 (Spec.Xsd.trim v)) (by in_list fieldValue) (by decide)
  rw [this, xtrim_plain h]

theorem obs_iff {b : Obs} (h : b.Valid) {e : Elem} (he : b.Element e) : Valid xsd S (.typed (c! "OpticalType") e) ↔ b.Sound := by
  obtain ⟨time, ra, dec, hr, rfl⟩ := he
  obtain ⟨hg, hp⟩ := ToMpc80.place_good h
  cases b with
  | ground o =>
    obtain ⟨h1, -, -⟩ := h
    exact ⟨fun hv => (optical_only_if h1 hg hp hr hv).1, fun hs => optical_if h1 hg hr hs (by simp [Obs.place]) (.inl rfl)⟩
  | spacecraft o s =>
    obtain ⟨h1, -, h3⟩ := h
    refine ⟨fun hv => (optical_only_if h1 hg hp hr hv).1, fun hs => optical_if h1 hg hr hs ?_ (.inr rfl)⟩
    have w1 : 1 ≤ s.places := by unfold Spec.Mpc80.Spacecraft.places; split <;> omega
    have w2 : s.places ≤ 8 := by unfold Spec.Mpc80.Spacecraft.places; split <;> omega
    have hsys : Field (c! "sys") (if s.au then c! "ICRF_AU" else c! "ICRF_KM") := by
      cases s.au
      · exact sys_field (by decide)
      · exact sys_field (by decide)
    show ∀ x ∈ s.values, _
    simp only [Spec.Mpc80.Spacecraft.values, List.forall_mem_cons, List.not_mem_nil, false_imp_iff, implies_true, and_true]
    exact ⟨hsys, sys_field (by decide), coord_field (by decide) w1 w2 h3.x, coord_field (by decide) w1 w2 h3.y, coord_field (by decide) w1 w2 h3.z⟩
  | rover o r =>
    obtain ⟨h1, -, -, h3⟩ := h
    have p1 := Mpc80.number_plain h3.lon.2
    have p2 := Mpc80.number_plain h3.lat.2
    have p3 := Mpc80.number_plain h3.alt.2.1
    have f1 := pos_field (n := c! "pos1") (by decide) p1
    have f2 := pos_field (n := c! "pos2") (by decide) p2
    have f3 := pos_field (n := c! "pos3") (by decide) p3
    constructor
    · intro hv
      obtain ⟨k1, k2, k3⟩ := optical_only_if h1 hg hp hr hv
      have k3 := k3 (List.mem_map.2 ⟨(c! "sys", c! "WGS84"), by show _ ∈ r.values; simp [Spec.Mpc80.Rover.values], rfl⟩)
      have hx : ∀ x ∈ r.values, Field x.1 x.2 := k2
      simp only [Spec.Mpc80.Rover.values, List.forall_mem_append, all_val] at hx
      have hm : ∀ n ∈ [c! "pos1", c! "pos2", c! "pos3"], n ∈ r.values.map (·.1) := k3
      have n1 : Spec.Mpc80.trim r.lon ≠ [] := by
        intro e
        obtain ⟨x, hx, hn⟩ := List.mem_map.1 (hm (c! "pos1") (by decide))
        simp only [Spec.Mpc80.Rover.values, e, val_nil, List.append_nil, List.mem_append, List.mem_cons, List.not_mem_nil, or_false] at hx
        rcases hx with ((rfl | rfl) | h) | h
        · exact absurd hn (by decide)
        · exact absurd hn (by decide)
        · rw [mem_val h] at hn; exact absurd hn (by decide)
        · rw [mem_val h] at hn; exact absurd hn (by decide)
      have n2 : Spec.Mpc80.trim r.lat ≠ [] := by
        intro e
        obtain ⟨x, hx, hn⟩ := List.mem_map.1 (hm (c! "pos2") (by decide))
        simp only [Spec.Mpc80.Rover.values, e, val_nil, List.append_nil, List.mem_append, List.mem_cons, List.not_mem_nil, or_false] at hx
        rcases hx with ((rfl | rfl) | h) | h
        · exact absurd hn (by decide)
        · exact absurd hn (by decide)
        · rw [mem_val h] at hn; exact absurd hn (by decide)
        · rw [mem_val h] at hn; exact absurd hn (by decide)
      exact ⟨k1, f1.1 (hx.1.1.2 n1), f2.1 (hx.1.2 n2), f3.1 (hx.2 h3.alt.2.2)⟩
    · rintro ⟨k1, k2, k3, k4⟩
      refine optical_if h1 hg hr k1 ?_ (.inr ?_)
      · show ∀ x ∈ r.values, _
        simp only [Spec.Mpc80.Rover.values, List.forall_mem_append, all_val, List.forall_mem_cons, List.not_mem_nil, false_imp_iff, implies_true, and_true]
        exact ⟨⟨⟨⟨sys_field (by decide), sys_field (by decide)⟩, fun _ => f1.2 k2⟩, fun _ => f2.2 k3⟩, fun _ => f3.2 k4⟩
      · show r.values.map _ = _
        simp only [Spec.Mpc80.Rover.values, val_some (signed_ne k2), val_some (signed_ne k3), val_some (signed_ne k4)]
        rfl

end Verif.Checked
