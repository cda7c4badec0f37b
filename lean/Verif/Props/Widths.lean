import Verif.Lemmas.WidthsRun
import Verif.MasterTables
/-
  C29: the width of the record lines in a written 80-column file.
-/
namespace Verif
open Verif.ToMpc80 Verif.Xml Verif.Spec Verif.PackUtil

/-- the options as the command line sets them: `--noHeader`, `--lowPrec` -/
def cmdOpts (noHeader lowPrec : Bool) : Opts := if lowPrec then Opts.low { noHeader } else { noHeader }

theorem cmdOpts_std (n l : Bool) : StdOpts (cmdOpts n l) ∧ (cmdOpts n l).noHeader = n := by
  cases l <;> simp [cmdOpts, StdOpts, Opts.low]

theorem observations_block {root b c e : Elem} (hb : b ∈ root.kids) (hbt : b.tag = c! "obsBlock") (hc : c ∈ b.kids) (hct : c.tag = c! "obsData") (he : e ∈ c.kids) :
    e ∈ observations root := by
  refine List.mem_flatMap.2 ⟨b, hb, ?_⟩
  have hbt : b.tag = "obsBlock".toList := hbt
  rw [if_pos hbt]
  exact List.mem_flatMap.2 ⟨c, List.mem_filter.2 ⟨hc, decide_eq_true hct⟩, he⟩

theorem observations_top {root e : Elem} (he : e ∈ root.kids) (het : e.tag ≠ c! "obsBlock") : e ∈ observations root := by
  refine List.mem_flatMap.2 ⟨e, he, ?_⟩
  have het : e.tag ≠ "obsBlock".toList := het
  rw [if_neg het]
  exact List.mem_singleton.2 rfl

theorem widths_run {m : Nat} {P : Str → Prop} {noHeader lowPrec : Bool} {tabs : Master.Tables} {root : Elem}
    (hP : ∀ l : Str, l.length = 77 + m → P l) (hH : noHeader = false → ∀ l, IsHeader l → P l)
    (hR : (∃ e ∈ observations root, e.tag = c! "radar") → ∀ l : Str, l.length = 80 → P l)
    (h1 : ∀ e ∈ observations root, e.tag = c! "optical" ∨ e.tag = c! "occultation" → FitsOptical m e)
    (h2 : ∀ e ∈ observations root, e.tag = c! "radar" → FitsRadar e) :
    ∀ l ∈ (xmltompc80col (cmdOpts noHeader lowPrec) tabs root).lines, P l := by
  obtain ⟨ho, hn⟩ := cmdOpts_std noHeader lowPrec
  have q : ∀ e ∈ observations root, (e.tag = c! "optical" ∨ e.tag = c! "occultation" → FitsDict m (ToPsv.subDict e)) ∧
      (e.tag = c! "radar" → FitsRadarDict (ToPsv.subDict e)) ∧ (e.tag = c! "radar" → ∃ e ∈ observations root, e.tag = c! "radar") :=
    fun e he => ⟨fun ht => fits_dict (h1 e he ht), fun ht => fits_radar (h2 e he ht), fun ht => ⟨e, he, ht⟩⟩
  refine keeps_run (Q := fun d => (d.1 = c! "optical" ∨ d.1 = c! "occultation" → FitsDict m d.2) ∧ (d.1 = c! "radar" → FitsRadarDict d.2) ∧
    (d.1 = c! "radar" → ∃ e ∈ observations root, e.tag = c! "radar")) ?_ ?_ ?_
  · exact fun d hd => keeps_item ho hP (fun hr => hR (hd.2.2 hr)) hd.1 hd.2.1
  · refine fun b hb hbt => ⟨fun c hc hct e he => q e (observations_block hb hbt hc hct he), fun hh c hc hct i hi x hx => hH (hn ▸ hh) x (context_header hx)⟩
  · exact fun e he het => q e (observations_top he het)

/-- every line has 80 columns, or is a header -/
theorem C29_widths (noHeader lowPrec : Bool) (tabs : Master.Tables) (root : Elem)
    (h1 : ∀ e ∈ observations root, e.tag = c! "optical" ∨ e.tag = c! "occultation" → FitsOptical 3 e)
    (h2 : ∀ e ∈ observations root, e.tag = c! "radar" → FitsRadar e) :
    ∀ l ∈ (xmltompc80col (cmdOpts noHeader lowPrec) tabs root).lines, l.length = 80 ∨ noHeader = false ∧ IsHeader l :=
  widths_run (m := 3) (fun _ h => .inl h) (fun hn _ h => .inr ⟨hn, h⟩) (fun _ _ h => .inl h) h1 h2

/-- with station codes of four characters the lines of optical observations have 81 columns -/
theorem C29_long_station (noHeader lowPrec : Bool) (tabs : Master.Tables) (root : Elem)
    (h1 : ∀ e ∈ observations root, e.tag = c! "optical" ∨ e.tag = c! "occultation" → FitsOptical 4 e)
    (h2 : ∀ e ∈ observations root, e.tag ≠ c! "radar") :
    ∀ l ∈ (xmltompc80col (cmdOpts noHeader lowPrec) tabs root).lines, l.length = 81 ∨ noHeader = false ∧ IsHeader l :=
  widths_run (m := 4) (fun _ h => .inl h) (fun hn _ h => .inr ⟨hn, h⟩) (fun ⟨e, he, h⟩ => absurd h (h2 e he)) h1 (fun e he h => absurd h (h2 e he))


namespace SampleWidths
/-- the values of a field, as a list -/
def values (e : Elem) (name : Str) : List Str := e.kids.filterMap fun k => if k.tag = name then k.text.map strip else none
theorem mem_values {e : Elem} {name v : Str} (h : FieldValue e name v) : v ∈ values e name := by
  obtain ⟨k, hk, t, h1, h2, h3, -⟩ := h
  refine List.mem_filterMap.2 ⟨k, hk, ?_⟩
  rw [if_pos h1, h2, ← h3]; rfl
theorem only {e : Elem} {name w v : Str} (hv : values e name = [w]) (h : FieldValue e name v) : v = w := by
  have := mem_values h; rw [hv] at this; simpa using this
theorem absent {e : Elem} {name v : Str} (hv : values e name = []) (h : FieldValue e name v) : False := by
  have := mem_values h; rw [hv] at this; cases this
/-- a field -/
def fld (n v : Str) : Elem := .mk n (some v) [] []
theorem numeral (sign : Option Char) (whole : Str) (frac : Option Str) {v t : Str} (h : v = t) (ht : t = (Numeral.mk sign whole frac).text)
    (hd : (whole ++ frac.getD []).all (fun c => decide (c ∈ c! "0123456789")) = true) (hs : ∀ c ∈ sign, c = '+' ∨ c = '-') (hne : whole ≠ []) :
    (Numeral.mk sign whole frac).Valid ∧ v = (Numeral.mk sign whole frac).text := by
  have hd := List.all_eq_true.1 hd
  refine ⟨⟨hs, fun c hc => by simpa using hd c (by simp [show c ∈ whole from hc]), fun f hf c hc => ?_, .inl hne⟩, h.trans ht⟩
  cases frac with
  | none => cases hf
  | some g => injection hf with hf; subst hf; simpa using hd c (by simp [hc])

/-- an optical observation -/
def optical (stn : Str) : Elem := .mk (c! "optical") none [] [fld (c! "permID") (c! "433"), fld (c! "mode") (c! "CCD"), fld (c! "stn") stn, fld (c! "obsTime") (c! "2016-08-29T12:23:34.12Z"),
  fld (c! "ra") (c! "215.10253"), fld (c! "dec") (c! "-12.547025"), fld (c! "astCat") (c! "Gaia2"), fld (c! "mag") (c! "21.91"), fld (c! "band") (c! "r"), fld (c! "precDec") (c! "0.01")]
/-- a radar observation -/
def radar : Elem := .mk (c! "radar") none [] [fld (c! "permID") (c! "433"), fld (c! "obsTime") (c! "2016-08-29T12:23:00Z"), fld (c! "trx") (c! "251"), fld (c! "rcv") (c! "251"),
  fld (c! "frq") (c! "2380"), fld (c! "com") (c! "1"), fld (c! "doppler") (c! "-53123.1"), fld (c! "rmsDoppler") (c! "1.5"), fld (c! "ref") (c! "JPLRS")]
def doc (stn : Str) : Elem := .mk (c! "ades") none [(c! "version", c! "2022")] [.mk (c! "obsBlock") none [] [
  .mk (c! "obsContext") none [] [.mk (c! "observatory") none [] [fld (c! "mpcCode") (c! "F51")]], .mk (c! "obsData") none [] [optical stn]], .mk (c! "obsBlock") none [] [.mk (c! "obsData") none [] [radar]]]


theorem fits (stn : Str) (n : Nat) (hn : (strip stn).length = n ∧ strip stn ≠ c! "244") : FitsOptical n (optical stn) where
  disc := fun v h => (absent (by rfl) h).elim
  deprecated := fun v h => (absent (by rfl) h).elim
  artSat := fun v h => (absent (by rfl) h).elim
  stn := fun v h => by rw [only (w := strip stn) (by rfl) h]; exact hn
  years := fun v h => ⟨2016, c! "-08-29T12:23:34.12Z", by decide, by decide, only (by rfl) h⟩
  ra := fun v h => by
    rcases h with h | h
    · obtain ⟨h1, h2⟩ := numeral none (c! "215") (some (c! "10253")) (only (w := c! "215.10253") (by rfl) h) rfl (by decide) (by simp) (by decide)
      exact ⟨_, h1, h2, by decide +kernel⟩
    · exact (absent (by rfl) h).elim
  dec := fun v h => by
    rcases h with h | h
    · obtain ⟨h1, h2⟩ := numeral (some '-') (c! "12") (some (c! "547025")) (only (w := c! "-12.547025") (by rfl) h) rfl (by decide) (by simp) (by decide)
      exact ⟨_, h1, h2, by decide +kernel⟩
    · exact (absent (by rfl) h).elim
  precTime := fun v h => (absent (by rfl) h).elim
  precRA := fun v h => (absent (by rfl) h).elim
  precDec := fun v h => by
    obtain ⟨h1, h2⟩ := numeral none (c! "0") (some (c! "01")) (only (w := c! "0.01") (by rfl) h) rfl (by decide) (by simp) (by decide)
    exact ⟨_, h1, h2, by decide +kernel⟩
  pos3 := fun _ v h => (absent (by rfl) h).elim

theorem fits_radar : FitsRadar radar where
  disc := fun v h => (absent (by rfl) h).elim
  notes := fun v h => (absent (by rfl) h).elim
  years := fun v h => ⟨2016, c! "-08-29T12:23:00Z", by decide, by decide, only (by rfl) h⟩
  delay := fun v h => (absent (by rfl) h).elim
  rmsDelay := fun v h => (absent (by rfl) h).elim
  doppler := fun v h => by
    obtain ⟨h1, h2⟩ := numeral (some '-') (c! "53123") (some (c! "1")) (only (w := c! "-53123.1") (by rfl) h) rfl (by decide) (by simp) (by decide)
    exact ⟨_, h1, h2, by decide, by decide⟩
  rmsDoppler := fun v h => by
    obtain ⟨h1, h2⟩ := numeral none (c! "1") (some (c! "5")) (only (w := c! "1.5") (by rfl) h) rfl (by decide) (by simp) (by decide)
    exact ⟨_, h1, h2, rfl, by decide, by decide⟩
  frq := fun v h => by
    obtain ⟨h1, h2⟩ := numeral none (c! "2380") none (only (w := c! "2380") (by rfl) h) rfl (by decide) (by simp) (by decide)
    exact ⟨_, h1, h2, rfl, by decide, by decide⟩
  trx := fun v h => by rw [only (w := c! "251") (by rfl) h]; rfl
  rcv := fun v h => by rw [only (w := c! "251") (by rfl) h]; rfl
  ref := fun v h => by rw [only (w := c! "JPLRS") (by rfl) h]; rfl

theorem doc_observations (stn : Str) : observations (doc stn) = [optical stn, radar] := rfl

/-- the sample document meets the hypotheses, with any three-character station code -/
theorem sample (noHeader lowPrec : Bool) (stn : Str) (h : (strip stn).length = 3 ∧ strip stn ≠ c! "244") :
    ∀ l ∈ (xmltompc80col (cmdOpts noHeader lowPrec) Master.adesTables (doc stn)).lines, l.length = 80 ∨ noHeader = false ∧ IsHeader l := by
  refine C29_widths _ _ _ _ (fun e he ht => ?_) (fun e he ht => ?_)
  · rw [doc_observations] at he
    simp only [List.mem_cons, List.not_mem_nil, or_false] at he
    rcases he with rfl | rfl
    · exact fits stn 3 h
    · exact absurd ht (by decide)
  · rw [doc_observations] at he
    simp only [List.mem_cons, List.not_mem_nil, or_false] at he
    rcases he with rfl | rfl
    · cases ht
    · exact fits_radar


/-- and its file is written: a header line, one line for the optical observation, two for the radar observation -/
theorem sample_lines : (xmltompc80col (cmdOpts false false) Master.adesTables (doc (c! "F51"))).lines = [c! "COD F51",
    c! "00433         C2016 08 29.51636714 20 24.607-12 32 49.29         21.91rV     F51",
    c! "00433         R2016 08 29.515972               -     531231    2380 251 JPLRS251",
    c! "00433         r2016 08 29.515972C                        15         251 JPLRS251"] ∧
    (xmltompc80col (cmdOpts false false) Master.adesTables (doc (c! "F51"))).raised = none := by
  decide +kernel

/-- the same document with one observation, changed -/
def changed (e : Elem) (n v : Str) : Elem := .mk e.tag none [] (e.kids.filter (·.tag ≠ n) ++ if v = [] then [] else [fld n v])
def one (e : Elem) : Elem := .mk (c! "ades") none [(c! "version", c! "2022")] [.mk (c! "obsBlock") none [] [.mk (c! "obsData") none [] [e]]]
def widths (e : Elem) : List Nat × Option PyErr :=
  let r := xmltompc80col (cmdOpts false false) Master.adesTables (one e)
  (r.lines.map List.length, r.raised)

/-- a schema-valid precision that does not fit makes the line longer -/
theorem C29_fine_dec : widths (changed (optical (c! "F51")) (c! "precDec") (c! "0.001")) = ([81], none) := by decide +kernel
theorem C29_fine_time : widths (changed (optical (c! "F51")) (c! "precTime") (c! "0.1")) = ([81], none) := by decide +kernel
/-- a year before 1000 makes it shorter -/
theorem C29_early_year : widths (changed (optical (c! "F51")) (c! "obsTime") (c! "0999-01-01T00:00:00Z")) = ([79], none) := by decide +kernel
/-- a publication reference in ADES form is not packed in radar lines -/
theorem C29_radar_ref : widths (changed radar (c! "ref") (c! "MPC  12345")) = ([85, 85], none) := by decide +kernel
/-- a radar observation without a reference is refused -/
theorem C29_radar_no_ref : widths (changed radar (c! "ref") []) = ([], some .keyError) := by decide +kernel
/-- five decimals in the Doppler shift -/
theorem C29_radar_doppler : widths (changed radar (c! "doppler") (c! "-53123.12345")) = ([81, 80], none) := by decide +kernel

end SampleWidths
end Verif
