import Verif.Lemmas.Submit80Doc
/-!
  C51: submissions that are valid for the schema, written in 80 columns.

  The specification is `Spec.Submit80` (what is needed beyond validity), with `Spec.Sent` (the lines for an observation), `Spec.Written80` (documents) and
  `Spec.Widths`.  Validity is that of XML Schema for the submission schema of the master file (`Spec.Schema`, `Spec.SimpleTypes`).
-/
namespace Verif
open Verif.Xml Verif.Master Verif.PackUtil Verif.Spec Verif.Spec.Mpc80 Verif.ToPsv Verif.ToMpc80 Verif.Psv Verif.Submission Verif.Fields Verif.Submit80

/-- the precision of declinations, in seconds -/
def decPrecision (lowPrec : Bool) : Rat := if lowPrec then 1 / 10 else 1 / 100

theorem decPrecision_unit (l : Bool) : decPrecision l = (decUnit l).value := by cases l <;> decide +kernel

theorem ok_tag {t : Str} {e : Elem} (h : Ok t e) (u : Str) (hu : e.tag = u) : Ok u e := by
  have := h.tag
  rw [hu] at this
  subst this
  exact h

/-- **C51.** In a valid submission every optical observation that is convertible is written: there is an observation in the sense of C44 that it holds, and the lines are those for it. -/
theorem C51_line (noHeader lowPrec : Bool) {doc e : Elem} (hr : doc.tag = c! "ades") (hv : ValidDocument xsd submitSchema doc) (he : e ∈ observations doc) (ht : e.tag = c! "optical")
    (hc : Convertible (decPrecision lowPrec) e) :
    let op := cmdOpts noHeader lowPrec
    ∃ (a : Sent) (o : Optical), a.In op.precTime op.precRA op.precDec e ∧ a.Line o ∧ alone op e = ⟨(a.obs o).lines, [], none⟩ := by
  obtain ⟨t, h⟩ := ok_of hr hv he
  obtain ⟨a, h1, h2⟩ := sent_of noHeader lowPrec (decPrecision_unit lowPrec) (ok_tag h _ ht) hc
  obtain ⟨o, h3, h4⟩ := C44_line _ h1 h2
  exact ⟨a, o, h2, h3, h4⟩

/-- **C51.** A valid submission of which every observation is an offset or an optical one that is convertible is written to its end: no exception, the header lines of each block (unless they are not
    wanted) and after them the lines of its observations (C51_line), nothing else. -/
theorem C51_document (noHeader lowPrec : Bool) {doc : Elem} (hr : doc.tag = c! "ades") (hv : ValidDocument xsd submitSchema doc)
    (hc : ∀ e ∈ observations doc, e.tag = c! "offset" ∨ e.tag = c! "optical" ∧ Convertible (decPrecision lowPrec) e) :
    let r := xmltompc80col (cmdOpts noHeader lowPrec) adesTables doc
    r.raised = none ∧ r.lines = doc.kids.flatMap fun c =>
      (if noHeader then [] else (contextsOf c).flatMap headerLines) ++ (observationsOf c).flatMap fun e => (alone (cmdOpts noHeader lowPrec) e).lines := by
  have hb := blocks_of hr hv
  have := C40_complete (cmdOpts noHeader lowPrec) doc hr (fun c hc => .inl (hb c hc)) (by
    intro e he
    rcases hc e he with h | ⟨h1, h2⟩
    · rw [C40_unsupported _ e (.inl h)]
    · obtain ⟨a, o, -, -, h4⟩ := C51_line noHeader lowPrec hr hv he h1 h2
      rw [h4])
  refine ⟨this.1, this.2.trans ?_⟩
  rw [List.flatMap_def, List.flatMap_def]
  congr 1
  refine List.map_congr_left fun c hcm => ?_
  rw [if_pos (show c.tag = c! "obsBlock" from (hb c hcm).tag), (cmdOpts_std noHeader lowPrec).2]

/-- **C51.** No radar observation of a valid submission can be written: its conversion ends with an exception and writes nothing (the program wants a reference, and submissions have none). -/
theorem C51_radar (op : Opts) {doc e : Elem} (hr : doc.tag = c! "ades") (hv : ValidDocument xsd submitSchema doc) (he : e ∈ observations doc) (ht : e.tag = c! "radar") : Stops op e := by
  obtain ⟨t, h⟩ := ok_of hr hv he
  have h := ok_tag h _ ht
  have ha : fieldOf e (c! "ref") = none := field_absent h (by decide +kernel)
  have r : Raises (radarLines (ToPsv.subDict e)) := by
    cases hx : radarLines (ToPsv.subDict e) with
    | error x => exact ⟨x, rfl⟩
    | ok y =>
      exfalso
      unfold radarLines at hx
      obtain ⟨_, -, hx⟩ := bind_inv hx
      obtain ⟨_, -, hx⟩ := bind_inv hx
      obtain ⟨_, -, hx⟩ := bind_inv hx
      obtain ⟨_, -, hx⟩ := bind_inv hx
      obtain ⟨_, -, hx⟩ := bind_inv hx
      obtain ⟨_, -, hx⟩ := bind_inv hx
      obtain ⟨_, -, hx⟩ := bind_inv hx
      obtain ⟨_, -, hx⟩ := bind_inv hx
      obtain ⟨_, -, hx⟩ := bind_inv hx
      obtain ⟨_, -, hx⟩ := bind_inv hx
      obtain ⟨v, hg, -⟩ := bind_inv hx
      have := getItem_inv hg
      rw [field_get, ha] at this
      cases this
  obtain ⟨x, hx⟩ := r
  refine ⟨x, ?_⟩
  rw [alone_record (by rw [ht]; decide)]
  unfold recordOut printData
  have n : ¬ (e.tag = c! "optical" ∨ e.tag = c! "occultation") := by rw [ht]; decide
  rw [if_neg n, if_pos ht]
  unfold printRadarLine
  rw [hx]
  rfl

/-- **C51.** Leap seconds and 24 o'clock are valid, but cannot be written (with or without decimals, in ASCII). -/
theorem C51_times (op : Opts) {doc e : Elem} (hr : doc.tag = c! "ades") (hv : ValidDocument xsd submitSchema doc) (he : e ∈ observations doc) (ht : e.tag ≠ c! "offset")
    {v : Str} (hf : fieldOf e (c! "obsTime") = some v) (ha : AsciiText v) (hp : v.length = 20 ∨ (v.drop 19).head? = some '.') (hy : 1000 ≤ digitsNat (v.take 4)) (hx : (v.drop 11).take 2 = c! "24" ∨ (v.drop 17).take 2 = c! "60") : Stops op e := by
  obtain ⟨t, h⟩ := ok_of hr hv he
  have hk : e.tag = c! "optical" ∨ e.tag = c! "occultation" ∨ e.tag = c! "radar" := by
    have := h.kind
    rw [← h.tag] at this
    simp only [show psvKinds = [c! "optical", c! "offset", c! "occultation", c! "radar"] from rfl, List.mem_cons, List.not_mem_nil, or_false] at this
    rcases this with h | h | h | h
    · exact .inl h
    · exact absurd h ht
    · exact .inr (.inl h)
    · exact .inr (.inr h)
  rcases time_value h hf ha with ho | ho
  · obtain ⟨y, mo, d, hh, mi, s, f, y1, y2, m1, m2, d1, d2, hf', hd, rfl⟩ := ho
    have hd2 : d ≤ 31 := le_trans d2 Sex.monthDays_le
    have l4 : (fixed 4 y).length = 4 := fixed_length (by omega) (by omega)
    have lmo : (fixed 2 mo).length = 2 := fixed_length (by omega) (by omega)
    have ld : (fixed 2 d).length = 2 := fixed_length (by omega) (by omega)
    have lh : (fixed 2 hh).length = 2 := fixed_length (by omega) (by omega)
    have lm : (fixed 2 mi).length = 2 := fixed_length (by omega) (by omega)
    have ls : (fixed 2 s).length = 2 := fixed_length (by omega) (by omega)
    have e4 : ∀ x : Str, (fixed 4 y ++ x).take 4 = fixed 4 y := fun x => by rw [List.take_append_of_le_length (by omega), List.take_of_length_le (by omega)]
    have hy' := hy
    simp only [List.append_assoc] at hy'
    rw [e4, digitsNat_fixed] at hy'
    have a1 : ((fixed 4 y ++ '-' :: fixed 2 mo ++ '-' :: fixed 2 d ++ 'T' :: fixed 2 hh ++ ':' :: fixed 2 mi ++ ':' :: fixed 2 s ++ f ++ ['Z']).drop 11).take 2 = fixed 2 hh := by
      have e : fixed 4 y ++ '-' :: fixed 2 mo ++ '-' :: fixed 2 d ++ 'T' :: fixed 2 hh ++ ':' :: fixed 2 mi ++ ':' :: fixed 2 s ++ f ++ ['Z']
        = (fixed 4 y ++ '-' :: fixed 2 mo ++ '-' :: fixed 2 d ++ ['T']) ++ (fixed 2 hh ++ (':' :: fixed 2 mi ++ ':' :: fixed 2 s ++ f ++ ['Z'])) := by simp
      have l : (fixed 4 y ++ '-' :: fixed 2 mo ++ '-' :: fixed 2 d ++ ['T']).length = 11 := by simp [l4, lmo, ld]
      rw [e, ← l, List.drop_left, List.take_append_of_le_length (by omega), List.take_of_length_le (by omega)]
    have a2 : ((fixed 4 y ++ '-' :: fixed 2 mo ++ '-' :: fixed 2 d ++ 'T' :: fixed 2 hh ++ ':' :: fixed 2 mi ++ ':' :: fixed 2 s ++ f ++ ['Z']).drop 17).take 2 = fixed 2 s := by
      have e : fixed 4 y ++ '-' :: fixed 2 mo ++ '-' :: fixed 2 d ++ 'T' :: fixed 2 hh ++ ':' :: fixed 2 mi ++ ':' :: fixed 2 s ++ f ++ ['Z']
        = (fixed 4 y ++ '-' :: fixed 2 mo ++ '-' :: fixed 2 d ++ 'T' :: fixed 2 hh ++ ':' :: fixed 2 mi ++ [':']) ++ (fixed 2 s ++ (f ++ ['Z'])) := by simp
      have l : (fixed 4 y ++ '-' :: fixed 2 mo ++ '-' :: fixed 2 d ++ 'T' :: fixed 2 hh ++ ':' :: fixed 2 mi ++ [':']).length = 17 := by simp [l4, lmo, ld, lh, lm]
      rw [e, ← l, List.drop_left, List.take_append_of_le_length (by omega), List.take_of_length_le (by omega)]
    rw [a1, a2] at hx
    have hx' : hh = 24 ∨ s = 60 := by
      rcases hx with hx | hx
      · left; have := congrArg digitsNat hx; rw [digitsNat_fixed] at this; exact this
      · right; have := congrArg digitsNat hx; rw [digitsNat_fixed] at this; exact this
    obtain ⟨z, hz⟩ : ∃ z, IsoEnd (f ++ ['Z']) z := by
      rcases hf' with rfl | ⟨ds, -, -, hds, rfl⟩
      · exact ⟨_, .whole⟩
      · exact ⟨_, .fraction hds⟩
    refine C48_refused op hk (.inr ⟨y, mo, d, hh, mi, s, f ++ ['Z'], z, ?_, hy', y2, by omega, by omega, by omega, by omega, by omega, hz, ?_⟩)
    · rw [hf]; unfold isoText; rw [dec_fixed hy' y2]; simp
    · rintro ⟨⟨-, -, -, -, q1, q2, q3⟩, -⟩
      omega
  · obtain ⟨y, m, f, y2, hm, hff, rfl⟩ := ho
    obtain ⟨mo, d, hm1, hm2, hm3, hmy⟩ : ∃ mo d, m = '-' :: fixed 2 mo ++ '-' :: fixed 2 d ∧ mo < 100 ∧ d < 100 ∧ 1000 ≤ y := by
      rcases hm with ⟨rfl, h⟩ | ⟨rfl, h⟩
      · refine ⟨6, 30, by decide, by omega, by omega, ?_⟩
        rcases h with h | h
        · exact (show ∀ y ∈ leapJune, 1000 ≤ y by decide) y h
        · omega
      · refine ⟨12, 31, by decide, by omega, by omega, ?_⟩
        rcases h with h | h
        · exact (show ∀ y ∈ leapDecember, 1000 ≤ y by decide) y h
        · omega
    obtain ⟨z, hz⟩ : ∃ z, IsoEnd (f ++ ['Z']) z := by
      rcases hff with rfl | ⟨p, ds, hne, hds, rfl, -⟩
      · exact ⟨_, .whole⟩
      · have l4 : (fixed 4 y).length = 4 := fixed_length (by omega) (by omega)
        have lm : m.length = 6 := by rcases hm with ⟨rfl, -⟩ | ⟨rfl, -⟩ <;> rfl
        have l : (fixed 4 y ++ m ++ c! "T23:59:60").length = 19 := by simp [l4, lm]
        have : p = '.' := by
          rcases hp with hp | hp
          · exfalso
            have : 0 < ds.length := List.length_pos_iff.2 hne
            rw [List.append_assoc, List.length_append, l] at hp
            simp only [List.length_append, List.length_cons, List.length_nil] at hp
            omega
          · rw [List.append_assoc, ← l, List.drop_left] at hp
            exact Option.some.inj hp
        subst this
        exact ⟨_, .fraction hds⟩
    refine C48_refused op hk (.inr ⟨y, mo, d, 23, 59, 60, f ++ ['Z'], z, ?_, hmy, y2, hm2, hm3, by omega, by omega, by omega, hz, ?_⟩)
    · rw [hf]; unfold isoText; rw [dec_fixed hmy y2, hm1, show fixed 2 23 = c! "23" by decide, show fixed 2 59 = c! "59" by decide, show fixed 2 60 = c! "60" by decide]; simp
    · rintro ⟨⟨-, -, -, -, q1, q2, q3⟩, -⟩
      omega

theorem submission_widths {w : Nat} (noHeader lowPrec : Bool) {doc : Elem} (hr : doc.tag = c! "ades") (hv : ValidDocument xsd submitSchema doc)
    (hn : ∀ e ∈ observations doc, e.tag = c! "optical" ∨ e.tag = c! "occultation" → Narrow w e) :
    ∀ l ∈ (xmltompc80col (cmdOpts noHeader lowPrec) adesTables doc).lines, l.length = 77 + w ∨ noHeader = false ∧ IsHeader l := by
  have hb := blocks_of hr hv
  intro l hl
  rw [C40_document _ doc hr (fun c hc => .inl (hb c hc))] at hl
  obtain ⟨r, hm, hl⟩ := joined_lines hl
  obtain ⟨c, hc, hm⟩ := List.mem_flatMap.1 hm
  have ht := (hb c hc).tag
  unfold partOut at hm
  rw [if_pos (show c.tag = c! "obsBlock" from ht)] at hm
  rcases List.mem_cons.1 hm with rfl | hm
  · simp only at hl
    cases noHeader with
    | true => rw [(cmdOpts_std true lowPrec).2] at hl; cases hl
    | false =>
      rw [(cmdOpts_std false lowPrec).2] at hl
      obtain ⟨x, -, hl⟩ := List.mem_flatMap.1 hl
      exact .inr ⟨rfl, header_lines hl⟩
  · obtain ⟨e, he, rfl⟩ := List.mem_map.1 hm
    have he : e ∈ observations doc := List.mem_flatMap.2 ⟨c, hc, by rw [if_pos (show c.tag = "obsBlock".toList from ht)]; exact he⟩
    obtain ⟨t, h⟩ := ok_of hr hv he
    have hk := h.kind
    rw [← h.tag] at hk
    simp only [show psvKinds = [c! "optical", c! "offset", c! "occultation", c! "radar"] from rfl, List.mem_cons, List.not_mem_nil, or_false] at hk
    by_cases hq : e.tag = c! "optical" ∨ e.tag = c! "occultation"
    · have hf : FitsOptical w e := narrow_fits h (h.tag ▸ hq) (hn e he hq)
      have ho : observations (adesOf [e]) = [e] := by
        have : ¬ e.tag = "obsBlock".toList := by rcases hq with h | h <;> (rw [h]; decide)
        show (([e] : List Elem).flatMap fun c => if c.tag = "obsBlock".toList then (c.kids.filter fun d => d.tag = "obsData".toList).flatMap Elem.kids else [c]) = [e]
        rw [List.flatMap_cons, if_neg this]; rfl
      exact widths_run (m := w) (P := fun l => l.length = 77 + w ∨ noHeader = false ∧ IsHeader l) (fun _ h => .inl h) (fun hn _ h => .inr ⟨hn, h⟩)
        (by rw [ho]; rintro ⟨x, hx, hx'⟩; rw [List.mem_singleton.1 hx] at hx'; rw [hx'] at hq; exact absurd hq (by decide))
        (by rw [ho]; intro x hx _; rw [List.mem_singleton.1 hx]; exact hf)
        (by rw [ho]; intro x hx hx'; rw [List.mem_singleton.1 hx] at hx'; rw [hx'] at hq; exact absurd hq (by decide)) l hl
    · rcases hk with hk | hk | hk | hk
      · exact absurd (.inl hk) hq
      · rw [C40_unsupported _ e (.inl hk)] at hl; cases hl
      · exact absurd (.inr hk) hq
      · obtain ⟨x, hx⟩ := C51_radar (cmdOpts noHeader lowPrec) hr hv he hk
        rw [hx] at hl; cases hl

/-- **C51.** Whatever else is in a valid submission, and whether or not the conversion ends with an exception: if the optical observations and occultations are narrow (stations of three characters), every line that is
    written has 80 columns or is a header line. -/
theorem C51_widths (noHeader lowPrec : Bool) {doc : Elem} (hr : doc.tag = c! "ades") (hv : ValidDocument xsd submitSchema doc)
    (hn : ∀ e ∈ observations doc, e.tag = c! "optical" ∨ e.tag = c! "occultation" → Narrow 3 e) :
    ∀ l ∈ (xmltompc80col (cmdOpts noHeader lowPrec) adesTables doc).lines, l.length = 80 ∨ noHeader = false ∧ IsHeader l :=
  submission_widths noHeader lowPrec hr hv hn

/-- **C51.** Stations of four characters are valid; with them, every line has 81 columns or is a header line. -/
theorem C51_wide (noHeader lowPrec : Bool) {doc : Elem} (hr : doc.tag = c! "ades") (hv : ValidDocument xsd submitSchema doc)
    (hn : ∀ e ∈ observations doc, e.tag = c! "optical" ∨ e.tag = c! "occultation" → Narrow 4 e) :
    ∀ l ∈ (xmltompc80col (cmdOpts noHeader lowPrec) adesTables doc).lines, l.length = 81 ∨ noHeader = false ∧ IsHeader l :=
  submission_widths noHeader lowPrec hr hv hn

namespace SampleSubmit80

/-- an observation in the words of the schema -/
def fields (id : List (Str × Str)) (mode stn : Str) (time : Str) (more : List (Str × Str)) : List (Str × Str) :=
  id ++ [(c! "mode", mode), (c! "stn", stn)] ++ more ++ [(c! "obsTime", time), (c! "ra", c! " 15.1"), (c! "dec", c! "+1.50125"), (c! "astCat", c! "Gaia3"), (c! "mag", c! "21.35"), (c! "band", c! "Gb")]

def good : List (Str × Str) := fields [(c! "permID", c! "99942"), (c! "provID", c! "2004 MN4"), (c! "trkSub", c! "aaa")] (c! "CCD") (c! "568") (c! "2016-12-31T23:59:59.123456Z") []
def craft : List (Str × Str) := fields [(c! "provID", c! "2004 MN4")] (c! "TDI") (c! "C51") (c! "2016-12-31T23:59:59.1Z")
  [(c! "sys", c! "ICRF_KM"), (c! "ctr", c! "399"), (c! "pos1", c! "-1234.5"), (c! "pos2", c! "5000.25"), (c! "pos3", c! "+12345.6789")]

/-- the lines of a submission of one observation -/
def out (f : List (Str × Str)) : Outcome := xmltompc80col (cmdOpts true false) adesTables (submission (c! "optical") f)
def shown (f : List (Str × Str)) : List Str × Option PyErr := ((out f).lines, (out f).raised)

theorem observations_one (k : Str) (f : List (Str × Str)) : observations (submission k f) = [.mk k none [] (f.map fun x => leaf x.1 x.2)] := rfl

/-- the observation of such a submission -/
def obs (f : List (Str × Str)) : Elem := .mk (c! "optical") none [] (f.map fun x => leaf x.1 x.2)

theorem dec_tie {e : Elem} (h : fieldOf e (c! "dec") = some (c! "+1.50125")) : ∀ n : Numeral, n.Valid → fieldOf e (c! "dec") = some n.text → FarFrom 60 (3600 * n.size + decPrecision false / 2) (1 / ((10 ^ 9 : Nat) : Rat)) := by
  intro n hn hf
  rw [h] at hf
  have hv : (Numeral.mk (some '+') (c! "1") (some (c! "50125"))).Valid := ⟨by simp, by decide, by intro f hf; cases hf; decide, .inl (by decide)⟩
  have : Numeral.mk (some '+') (c! "1") (some (c! "50125")) = n := Xsd.text_inj (.of hv) (.of hn) (Option.some.inj hf)
  subst this
  have hs : (Numeral.mk (some '+') (c! "1") (some (c! "50125"))).size = 150125 / 100000 := by
    have : (Numeral.mk (some '+') (c! "1") (some (c! "50125"))).size = mkRat 150125 100000 := by decide +kernel
    rw [this, Rat.mkRat_eq_div]; norm_num
  rw [hs]
  simp only [decPrecision]
  exact SampleAngles.far_of 90 (by norm_num) (by norm_num) (by norm_num)

theorem point (v : Str) (w : Nat) (n : Numeral) (f : Str) (h1 : v = n.text) (h2 : n.frac = some f) (h3 : n.whole.length ≤ w) (h4 : 1 ≤ f.length ∧ f.length ≤ 9 - w) (h5 : n.sign = none ∨ n.sign = some '+' ∨ n.sign = some '-')
    (h6 : ∀ c ∈ n.whole ++ f, c ∈ c! "0123456789") : PointNumber w v := by
  refine ⟨n, ⟨?_, fun c hc => h6 c (by simp [hc]), ?_, ?_⟩, h1, h3, f, h2, h4⟩
  · intro c hc
    rcases h5 with h | h | h
    · rw [h] at hc; cases hc
    · rw [h] at hc; cases hc; simp
    · rw [h] at hc; cases hc; simp
  · intro g hg c hc
    rw [h2] at hg; cases hg
    exact h6 c (by simp [hc])
  · right; rw [h2]; intro e; rw [show f = [] from e] at h4; simp at h4

theorem good_valid : ValidDocument xsd submitSchema (submission (c! "optical") good) := ⟨c! "ADESType", by kernel_rfl, Xsd.isValid_sound (f := 80) (by decide +kernel)⟩
theorem craft_valid : ValidDocument xsd submitSchema (submission (c! "optical") craft) := ⟨c! "ADESType", by kernel_rfl, Xsd.isValid_sound (f := 80) (by decide +kernel)⟩

theorem good_convertible : Convertible (decPrecision false) (obs good) where
  artSat := by decide +kernel
  desig := ⟨.both (.minor 99942) (.minor 2004 'M' 'N' 4), ⟨by simp [Perm.Valid], by simp [Prov.Valid]; decide, trivial⟩, by decide +kernel, by decide +kernel, by intro t ht; cases ht⟩
  mode _ := ⟨c! "CCD", by decide, by decide +kernel⟩
  stn := by decide +kernel
  time t ht := by
    have : t = c! "2016-12-31T23:59:59.123456Z" := (Option.some.inj (ht.symm.trans (by decide +kernel)))
    subst this
    exact ⟨by unfold AsciiText; decide, by decide, by decide, by decide⟩
  dec := dec_tie (by decide +kernel)
  sys := by decide +kernel
  wgs84 h := absurd h (by decide +kernel)
  icrf_au h := absurd h (by decide +kernel)
  icrf_km h := absurd h (by decide +kernel)

theorem craft_convertible : Convertible (decPrecision false) (obs craft) where
  artSat := by decide +kernel
  desig := ⟨.prov (.minor 2004 'M' 'N' 4), by simp [Designation.Valid, Prov.Valid]; decide, by decide +kernel, by decide +kernel, by intro t ht; cases ht⟩
  mode h := absurd h (by decide +kernel)
  stn := by decide +kernel
  time t ht := by
    have : t = c! "2016-12-31T23:59:59.1Z" := (Option.some.inj (ht.symm.trans (by decide +kernel)))
    subst this
    exact ⟨by unfold AsciiText; decide, by decide, by decide, by decide⟩
  dec := dec_tie (by decide +kernel)
  sys := by decide +kernel
  wgs84 h := absurd h (by decide +kernel)
  icrf_au h := absurd h (by decide +kernel)
  icrf_km h n hn v hv := by
    simp only [List.mem_cons, List.not_mem_nil, or_false] at hn
    rcases hn with rfl | rfl | rfl
    · have : v = c! "-1234.5" := Option.some.inj (hv.symm.trans (by decide +kernel))
      exact point v 5 ⟨some '-', c! "1234", some (c! "5")⟩ (c! "5") this rfl (by decide) (by decide) (by decide) (by decide)
    · have : v = c! "5000.25" := Option.some.inj (hv.symm.trans (by decide +kernel))
      exact point v 5 ⟨none, c! "5000", some (c! "25")⟩ (c! "25") this rfl (by decide) (by decide) (by decide) (by decide)
    · have : v = c! "+12345.6789" := Option.some.inj (hv.symm.trans (by decide +kernel))
      exact point v 5 ⟨some '+', c! "12345", some (c! "6789")⟩ (c! "6789") this rfl (by decide) (by decide) (by decide) (by decide)

/-- the hypotheses of `C51_document` (and with it `C51_line`) are met -/
example : (out craft).raised = none :=
  (C51_document true false rfl craft_valid (by
    rw [observations_one]; intro e he; rw [List.mem_singleton.1 he]; exact .inr ⟨rfl, craft_convertible⟩)).1
example : (out good).raised = none :=
  (C51_document true false rfl good_valid (by
    rw [observations_one]; intro e he; rw [List.mem_singleton.1 he]; exact .inr ⟨rfl, good_convertible⟩)).1

/-- the lines -/
theorem C51_sample : shown good = ([c! "99942K04M04N  C2016 12 31.99999001 00 24.000+01 30 04.50         21.35GW     568"], none) ∧
    shown craft = ([c! "     K04M04N  S2016 12 31.99999001 00 24.000+01 30 04.50         21.35GW     C51",
      c! "     K04M04N  s2016 12 31.9999901 - 1234.5    + 5000.25   +12345.6789        C51"], none) := by decide +kernel

/-- valid, but what is converted is not always convertible: this is a submission of one observation, and what comes of it -/
def Refused (f : List (Str × Str)) (lines : List Str) (x : Option PyErr) : Prop := ValidDocument xsd submitSchema (submission (c! "optical") f) ∧ shown f = (lines, x)

theorem refused {f : List (Str × Str)} {lines : List Str} {x : Option PyErr}
    (h : (Xsd.isValid submitSchema generalSchema 80 (c! "ADESType") (submission (c! "optical") f) && decide (shown f = (lines, x))) = true) : Refused f lines x := by
  simp only [Bool.and_eq_true, decide_eq_true_eq] at h
  exact ⟨⟨c! "ADESType", by kernel_rfl, Xsd.isValid_sound h.1⟩, h.2⟩

def prov : List (Str × Str) := [(c! "provID", c! "2004 MN4")]
def time : Str := c! "2016-12-31T23:59:59.1Z"

/-- the mode TDI has no letter -/
theorem C51_mode : Refused (fields prov (c! "TDI") (c! "568") time []) [] (some .keyError) := refused (by decide +kernel)
/-- the station 275 wants a place -/
theorem C51_275 : Refused (fields prov (c! "CCD") (c! "275") time []) [] (some .keyError) := refused (by decide +kernel)
/-- positions in ITRF -/
theorem C51_itrf : Refused (fields prov (c! "CCD") (c! "C51") time [(c! "sys", c! "ITRF"), (c! "ctr", c! "399"), (c! "pos1", c! "1.5"), (c! "pos2", c! "2.5"), (c! "pos3", c! "3.5")]) []
    (some .runtimeError) := refused (by decide +kernel)
/-- the year 0999 gives 79 columns, a long name of an artificial satellite more than 80 -/
theorem C51_year : Refused (fields prov (c! "CCD") (c! "568") (c! "0999-12-31T23:59:59Z") []) [c! "     K04M04N  C999 12 31.99998801 00 24.000+01 30 04.50         21.35GW     568"] none :=
  refused (by decide +kernel)
theorem C51_satellite : Refused (fields [(c! "artSat", c! "1998-067A-1998"), (c! "trkSub", c! "aa")] (c! "CCD") (c! "568") time [])
    [c! "1998-067A-1998  C2016 12 31.99999001 00 24.000+01 30 04.50         21.35GW     568"] none := refused (by decide +kernel)

/-- the hypotheses of `C51_times` are met by a leap second -/
example : Stops (cmdOpts true false) (obs (fields prov (c! "CCD") (c! "568") (c! "2016-12-31T23:59:60.5Z") [])) :=
  C51_times _ (doc := submission (c! "optical") (fields prov (c! "CCD") (c! "568") (c! "2016-12-31T23:59:60.5Z") [])) rfl ⟨c! "ADESType", by kernel_rfl, Xsd.isValid_sound (f := 80) (by decide +kernel)⟩
    (by rw [observations_one]; exact List.mem_singleton.2 rfl) (by decide) (v := c! "2016-12-31T23:59:60.5Z") (by decide +kernel) (by unfold AsciiText; decide) (by decide) (by decide) (by decide)

/-- a radar observation, valid and refused -/
def radarFields : List (Str × Str) := [(c! "permID", c! "433"), (c! "trx", c! "251"), (c! "rcv", c! "251"), (c! "obsTime", c! "2016-08-29T12:23:00Z"), (c! "doppler", c! "-53123.1"), (c! "rmsDoppler", c! "1.5"), (c! "frq", c! "2380.0")]
theorem radar_valid : ValidDocument xsd submitSchema (submission (c! "radar") radarFields) := ⟨c! "ADESType", by kernel_rfl, Xsd.isValid_sound (f := 80) (by decide +kernel)⟩
example : Stops (cmdOpts true false) (.mk (c! "radar") none [] (radarFields.map fun x => leaf x.1 x.2)) :=
  C51_radar _ rfl radar_valid (by rw [observations_one]; exact List.mem_singleton.2 rfl) rfl

/-- the hypotheses of `C51_widths` are met -/
theorem good_narrow : Narrow 3 (obs good) where
  stn v hv := by rw [SampleWidths.only (w := c! "568") (by decide +kernel) hv]; decide
  artSat v hv := (SampleWidths.absent (by decide +kernel) hv).elim
  time v hv := by rw [SampleWidths.only (w := c! "2016-12-31T23:59:59.123456Z") (by decide +kernel) hv]; exact ⟨by unfold AsciiText; decide, by decide⟩
  pos3 _ v hv := (SampleWidths.absent (by decide +kernel) hv).elim
example : ∀ l ∈ (xmltompc80col (cmdOpts false false) adesTables (submission (c! "optical") good)).lines, l.length = 80 ∨ false = false ∧ IsHeader l :=
  C51_widths false false rfl good_valid (by rw [observations_one]; intro e he _; rw [List.mem_singleton.1 he]; exact good_narrow)

/-- those of `C51_wide` too -/
def wide : List (Str × Str) := fields prov (c! "CCD") (c! "C51Z") time []
theorem wide_narrow : Narrow 4 (obs wide) where
  stn v hv := by rw [SampleWidths.only (w := c! "C51Z") (by decide +kernel) hv]; decide
  artSat v hv := (SampleWidths.absent (by decide +kernel) hv).elim
  time v hv := by rw [SampleWidths.only (w := c! "2016-12-31T23:59:59.1Z") (by decide +kernel) hv]; exact ⟨by unfold AsciiText; decide, by decide⟩
  pos3 _ v hv := (SampleWidths.absent (by decide +kernel) hv).elim
theorem C51_wide_sample : Refused wide [c! "     K04M04N  C2016 12 31.99999001 00 24.000+01 30 04.50         21.35GW     C51Z"] none := refused (by decide +kernel)
example : ∀ l ∈ (out wide).lines, l.length = 81 ∨ true = false ∧ IsHeader l :=
  C51_wide true false rfl C51_wide_sample.1 (by rw [observations_one]; intro e he _; rw [List.mem_singleton.1 he]; exact wide_narrow)

end SampleSubmit80

end Verif
