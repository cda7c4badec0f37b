import Verif.Lemmas.SentBack
/-!
  C44: optical observations in ADES, their 80-column lines, and what is read from these.

  The specification is `Spec.Sent`: an observation (`Sent`), the elements that hold it (`Sent.In`), the line for it (`Sent.Line`: every column), and what is left of it when
  the lines are converted back (`Sent.Back`).
-/
namespace Verif
open Verif.ToMpc80 Verif.Mpc80 Verif.PackUtil Verif.Spec.Mpc80 Verif.Xml
open Verif.Spec hiding Item Group fileText Group.lines contextElem

theorem sent_lines (a : Sent) (o : Optical) : (a.obs o).lines = o.line :: a.secondLines o := by
  unfold Sent.secondLines Sent.obs
  cases a.place <;> rfl

/-- **C44.** Every `optical` element that holds a writable observation, in whatever order and with whatever further fields, is written as the line for this
    observation (and the second line, if it has a position), in which time, right ascension and declination are rounded to the precision; no message, no exception. -/
theorem C44_line (op : Opts) {a : Sent} {e : Elem} (h : a.Writable) (hi : a.In op.precTime op.precRA op.precDec e) :
    ∃ o : Optical, a.Line o ∧ alone op e = ⟨(a.obs o).lines, [], none⟩ := by
  obtain ⟨o, o1, o2, o3⟩ := first_line op h hi
  obtain ⟨sec, s1, s2⟩ := second_lines h hi (o := o)
  refine ⟨o, o1, ?_⟩
  rw [alone_record (by rw [hi.tag]; decide), sent_lines]
  unfold recordOut
  have : printData op (e.tag, ToPsv.subDict e) = printOpticalLine op (ToPsv.subDict e) := by
    unfold printData; rw [if_pos (.inl hi.tag)]
  rw [this, writes_optical o3 s1]
  rcases s2 with ⟨rfl, s2⟩ | ⟨l, rfl, s2⟩ <;> simp [s2]

theorem agree_first {op : Opts} {d d' : Dict} {x : Shared × Str} {err : PyErr} (h : ∀ k, k ≠ c! "mode" → dictGet d k = dictGet d' k) (h1 : opticalFirst op d' = .ok x)
    (h2 : codeColumn d = .error err) : opticalFirst op d = .error err := by
  have hk : ∀ k v, k ≠ c! "mode" → hasKeyOrVal d k v = hasKeyOrVal d' k v := by intro k v hk; unfold hasKeyOrVal; rw [h k hk]
  have hg : ∀ k, k ≠ c! "mode" → Psv.getItem d k = Psv.getItem d' k := by intro k hk; unfold Psv.getItem; rw [h k hk]
  have e1 : idColumns d = idColumns d' := by unfold idColumns; rw [h _ (by decide), h _ (by decide), h _ (by decide), h _ (by decide)]
  have e2 : ∀ p q, angleColumns d p q = angleColumns d' p q := by
    intro p q; unfold angleColumns
    rw [hg (c! "stn") (by decide), hg (c! "raStar") (by decide), hg (c! "decStar") (by decide), hg (c! "deltaRA") (by decide), hg (c! "deltaDec") (by decide), hg (c! "ra") (by decide),
      hg (c! "dec") (by decide)]
  have e3 : ∀ n, notesColumn d n = notesColumn d' n := by intro n; unfold notesColumn; rw [h _ (by decide)]
  unfold opticalFirst at h1 ⊢
  rw [e1, hk (c! "notes") _ (by decide), hk (c! "disc") _ (by decide), hk (c! "precTime") _ (by decide), hk (c! "precRA") _ (by decide), hk (c! "precDec") _ (by decide),
    hg (c! "obsTime") (by decide), hk (c! "mag") _ (by decide), hk (c! "band") _ (by decide), hg (c! "astCat") (by decide), hk (c! "ref") _ (by decide), hg (c! "stn") (by decide), h2]
  simp only [e2, e3]
  obtain ⟨pid, hid, h1⟩ := bind_inv h1
  rw [hid, Sex.okBind]
  obtain ⟨note, hnote, h1⟩ := bind_inv h1
  rw [hnote, Sex.okBind]
  obtain ⟨pt, hpt, h1⟩ := bind_inv h1
  rw [hpt, Sex.okBind]
  obtain ⟨pr, hpr, h1⟩ := bind_inv h1
  rw [hpr, Sex.okBind]
  obtain ⟨pd, hpd, h1⟩ := bind_inv h1
  rw [hpd, Sex.okBind]
  obtain ⟨ot, hot, h1⟩ := bind_inv h1
  rw [hot, Sex.okBind]
  obtain ⟨sdate, hdate, h1⟩ := bind_inv h1
  rw [hdate, Sex.okBind]
  obtain ⟨⟨ra, dec⟩, hang, h1⟩ := bind_inv h1
  rw [hang, Sex.okBind]
  obtain ⟨⟨mag, w, dp⟩, hmag, h1⟩ := bind_inv h1
  rw [hmag, Sex.okBind]
  obtain ⟨cat0, hcat0, h1⟩ := bind_inv h1
  simp only
  rw [hcat0, Sex.okBind]
  obtain ⟨cat, hcat, h1⟩ := bind_inv h1
  rw [hcat, Sex.okBind]
  obtain ⟨ref, href, h1⟩ := bind_inv h1
  rw [href, Sex.okBind]
  obtain ⟨notes, hnotes, h1⟩ := bind_inv h1
  rw [hnotes, Sex.okBind]
  rfl

/-- the same element with another mode -/
def withMode (e : Elem) (m : Str) : Elem := .mk e.tag e.text e.attrib (e.kids ++ [leafOf (c! "mode") m])

theorem field_mode (e : Elem) {m : Str} (hm : strip m ≠ []) (k : Str) : fieldOf (withMode e m) k = if k = c! "mode" then some (strip m) else fieldOf e k := by
  have hne : m ≠ [] := by rintro rfl; exact hm rfl
  have ht : (leafOf (c! "mode") m).text = some m := by simp [leafOf, hne, Elem.text]
  unfold fieldOf
  rw [show (withMode e m).kids = e.kids ++ [leafOf (c! "mode") m] from rfl, List.filter_append, List.map_append]
  by_cases hk : k = c! "mode"
  · subst hk
    rw [if_pos rfl]
    have : [leafOf (c! "mode") m].filter (fun j => decide (j.tag = c! "mode" ∧ strip (j.text.getD []) ≠ [])) = [leafOf (c! "mode") m] := by
      rw [List.filter_cons_of_pos]
      · rfl
      · simp only [decide_eq_true_eq]; exact ⟨rfl, by rw [ht]; exact hm⟩
    rw [this]
    simp [ht]
  · rw [if_neg hk]
    have : [leafOf (c! "mode") m].filter (fun j => decide (j.tag = k ∧ strip (j.text.getD []) ≠ [])) = [] := by
      rw [List.filter_cons_of_neg]
      · rfl
      · simp only [decide_eq_true_eq]; rintro ⟨h1, _⟩; exact hk h1.symm
    rw [this, List.map_nil, List.append_nil]

/-- **C44.** An observation from an observatory, neither deprecated nor in an old frame, whose mode has no letter - ADES allows TDI and UNK - cannot be written: the conversion
    ends with a KeyError and writes nothing for it, although everything else about it can be written. -/
theorem C44_mode_refused (op : Opts) {a : Sent} {e : Elem} (h : ({ a with mode := c! "CCD" } : Sent).Writable) (hi : a.In op.precTime op.precRA op.precDec e)
    (hd : a.deprecated = false) (hp : a.place = .ground) (hs : a.subFrm = none) (hm : a.mode ∉ modeLetters.map Prod.fst) :
    alone op e = ⟨[], [], some .keyError⟩ := by
  have hf := field_mode e (m := c! "CCD") (by decide)
  have hi' : ({ a with mode := c! "CCD" } : Sent).In op.precTime op.precRA op.precDec (withMode e (c! "CCD")) := by
    constructor
    case place =>
      have := hi.place
      simp only [hp] at this ⊢
      have this : fieldOf e (c! "pos1") = none := this
      show fieldOf _ (c! "pos1") = none
      rw [hf, if_neg (by decide)]; exact this
    case tag => exact hi.tag
    case mode => rw [hf, if_pos rfl]; rfl
    all_goals rw [hf, if_neg (by decide)]
    · exact hi.permID
    · exact hi.provID
    · exact hi.trkSub
    · exact hi.artSat
    · exact hi.disc
    · exact hi.notes
    · exact hi.prog
    · exact hi.deprecated
    · exact hi.subFrm
    · exact hi.stn
    · exact hi.obsTime
    · exact hi.ra
    · exact hi.dec
    · exact hi.precTime
    · exact hi.precRA
    · exact hi.precDec
    · exact hi.mag
    · exact hi.band
    · exact hi.cat
    · exact hi.ref
  obtain ⟨o, o1, o2, o3⟩ := first_line op h hi'
  have hc : codeColumn (ToPsv.subDict e) = .error .keyError := by
    have hp' := hi.place
    rw [hp] at hp'
    have hp' : fieldOf e (c! "pos1") = none := hp'
    unfold codeColumn
    rw [field_get, hi.deprecated, hd]
    simp only [Bool.false_eq_true, if_false]
    unfold codeColumn.positionCode
    rw [field_get, field_get, hp', hi.subFrm, hs]
    simp only [Option.isSome_none, Bool.false_eq_true, if_false]
    rw [item_field hi.mode, Sex.okBind]
    have : Psv.getItem reverseCodeDict a.mode = .error .keyError := by
      unfold Psv.getItem
      cases hx : dictGet reverseCodeDict a.mode with
      | none => rfl
      | some c =>
        exfalso
        have q : ∀ x ∈ reverseCodeDict, x.1 ∈ modeLetters.map Prod.fst := by decide +kernel
        unfold dictGet at hx
        obtain ⟨x, hx1, _⟩ := Option.map_eq_some_iff.1 hx
        have h1 := List.mem_of_find?_eq_some hx1
        have h2 := List.find?_some hx1
        simp only [beq_iff_eq] at h2
        exact hm (h2 ▸ q x (List.mem_reverse.1 h1))
    rw [this]; rfl
  have := agree_first (d := ToPsv.subDict e) (d' := ToPsv.subDict (withMode e (c! "CCD"))) (fun k hk => by rw [field_get, field_get, hf, if_neg hk]) o3 hc
  rw [alone_record (by rw [hi.tag]; decide)]
  unfold recordOut
  have e1 : printData op (e.tag, ToPsv.subDict e) = printOpticalLine op (ToPsv.subDict e) := by
    unfold printData; rw [if_pos (.inl hi.tag)]
  rw [e1]
  unfold printOpticalLine
  rw [this]
  rfl

/-- **C44.** ADES observations written in 80 columns (below header lines that the format allows) and read again: every observation comes back, in the same order,
    with the values of `Sent.Back`. -/
theorem C44_back {lx : Lxml} (hn : Names lx) (ht : lx.Accepts (c! "optical") none []) (op : Opts) (nosplit : Bool) {as : List Sent} {es : List Elem} (hne : as ≠ [])
    (h : Spec.Each (fun a e => a.Writable ∧ a.Readable ∧ a.In op.precTime op.precRA op.precDec e) as es)
    {hs : List (List Char × List Char)} (h1 : hs ≠ []) (h2 : ∀ x ∈ hs, x.1 ∈ headerWords ∧ x.2.length ≤ 76 ∧ noBreak x.2) (h3 : HeadersOk lx hs)
    (hacc : ∀ a ∈ as, ∀ o, a.Line o → (a.obs o).Accepted lx) :
    ∃ es', Spec.Each Sent.Back as es' ∧
      (mpc80coltoxml lx Sample80.realAllowed nosplit (fileText (hs.map (fun x => x.1 ++ [' '] ++ x.2) ++ es.flatMap fun e => (alone op e).lines))).doc =
        some (adesDoc [(Block.mk hs es').elem]) ∧
      (mpc80coltoxml lx Sample80.realAllowed nosplit (fileText (hs.map (fun x => x.1 ++ [' '] ++ x.2) ++ es.flatMap fun e => (alone op e).lines))).raised = none := by
  have key : ∃ os : List Obs, Spec.Each (fun a b => b.Valid ∧ b.Accepted lx ∧ ∀ e', b.Element e' → a.Back e') as os ∧ (es.flatMap fun e => (alone op e).lines) = os.flatMap Obs.lines := by
    clear hne h1 h2 h3
    induction h with
    | nil => exact ⟨[], .nil, rfl⟩
    | @cons a e as es hae _ ih =>
      obtain ⟨os, i1, i2⟩ := ih fun a ha => hacc a (by simp [ha])
      obtain ⟨o, o1, o2⟩ := C44_line op hae.1 hae.2.2
      refine ⟨a.obs o :: os, .cons ⟨obs_ok hae.1 hae.2.1 hae.2.2 o1, hacc a (by simp) o o1, fun e' he' => back_ok hae.1 hae.2.1 hae.2.2 o1 he'⟩ i1, ?_⟩
      rw [List.flatMap_cons, List.flatMap_cons, i2, o2]
  obtain ⟨os, k1, k2⟩ := key
  have hall : ∀ b ∈ os, b.Valid ∧ b.Accepted lx := by
    clear k2 hacc h hne
    induction k1 with
    | nil => simp
    | cons hab _ ih =>
      intro b hb
      rcases List.mem_cons.1 hb with rfl | hb
      · exact ⟨hab.1, hab.2.1⟩
      · exact ih b hb
  have hos : os ≠ [] := by
    rintro rfl; cases k1; exact hne rfl
  obtain ⟨ess, e1, e2, e3⟩ := C38_file hn ht (gs := [⟨hs, os⟩]) (by
    intro g hg
    obtain rfl : g = ⟨hs, os⟩ := by simpa using hg
    exact ⟨⟨h1, h2, hos, fun b hb => (hall b hb).1⟩, fun b hb => (hall b hb).2, h3⟩) nosplit
  obtain ⟨es', ess', rfl, e4, e5⟩ : ∃ es' ess', ess = es' :: ess' ∧ Spec.Each Obs.Element os es' ∧ ess' = [] := by
    cases e1 with | cons x y => cases y; exact ⟨_, _, rfl, x, rfl⟩
  subst e5
  have hl : [(⟨hs, os⟩ : Group)].flatMap Spec.Mpc80.Group.lines = hs.map (fun x => x.1 ++ [' '] ++ x.2) ++ es.flatMap fun e => (alone op e).lines := by
    rw [List.flatMap_cons, List.flatMap_nil, List.append_nil, k2]; rfl
  rw [hl] at e2 e3
  refine ⟨es', ?_, e2, e3⟩
  clear e2 e3 e1 hall hos k2 hl hacc hne h h1 h2 h3
  induction k1 generalizing es' with
  | nil => cases e4; exact .nil
  | cons hab _ ih =>
    cases e4 with
    | cons x y => exact .cons (hab.2.2 _ x) (ih _ y)

/-- **C44.** A time that rounds to the end of the day is written as the beginning of the same day. -/
theorem C44_midnight {a : Sent} {o : Optical} (h : a.Writable) (hl : a.Line o) {u : Nat × Nat} (hu : u ∈ timeUnits) (hp : a.precTime.value = (u.1 : Rat))
    (hm : 86400 - 86400 / 10 ^ u.2 * (1 / 2 - 1 / 10 ^ 9) < a.seconds) : o.date = ⟨a.year, a.month, a.day, u.2, 0⟩ := by
  obtain ⟨d1, d2, d3⟩ := hl.day
  obtain ⟨v, v1, v2, v3⟩ := hl.digits
  have huv : u.2 = v.2 := by
    have : u.1 = v.1 := by
      have := hp.symm.trans v2
      exact_mod_cast this
    have q : ∀ u ∈ timeUnits, ∀ v ∈ timeUnits, u.1 = v.1 → u.2 = v.2 := by decide
    exact q u hu v v1 this
  rw [← huv] at v3
  obtain ⟨k, k1, k2, k3⟩ := hl.time
  rw [v3] at k1 k2 k3
  push_cast at k2 k3
  have hpos : (0 : ℚ) < 10 ^ u.2 := by positivity
  have hsec : a.seconds < 86400 := by
    have hs := h.second
    have hds : (digitsNat (a.decimals.getD []) : ℚ) / ((10 ^ (a.decimals.getD []).length : Nat) : ℚ) < 1 := by
      rw [div_lt_one (by positivity)]
      have : digitsNat (a.decimals.getD []) < 10 ^ (a.decimals.getD []).length := by
        cases hd : a.decimals with
        | none => decide
        | some ds => exact digitsNat_lt ds (h.decimals ds (by simp [hd])).2.2
      exact_mod_cast this
    have : (a.second : ℚ) ≤ 86399 := by exact_mod_cast (by omega : a.second ≤ 86399)
    unfold Sent.seconds
    linarith
  have e1 : a.seconds * (10 ^ u.2 / 86400) = a.seconds / 86400 * 10 ^ u.2 := by ring
  have hlo : 10 ^ u.2 - (1 / 2 - 1 / 1000000000) < a.seconds / 86400 * 10 ^ u.2 := by
    have := mul_lt_mul_of_pos_right hm (show (0 : ℚ) < 10 ^ u.2 / 86400 by positivity)
    have e2 : (86400 - 86400 / (10 : ℚ) ^ u.2 * (1 / 2 - 1 / 10 ^ 9)) * (10 ^ u.2 / 86400) = 10 ^ u.2 - (1 / 2 - 1 / 1000000000) := by
      field_simp; ring
    rw [e1, e2] at this
    exact this
  have hhi : a.seconds / 86400 * 10 ^ u.2 < 10 ^ u.2 := by
    have := mul_lt_mul_of_pos_right hsec (show (0 : ℚ) < 10 ^ u.2 / 86400 by positivity)
    have e2 : (86400 : ℚ) * (10 ^ u.2 / 86400) = 10 ^ u.2 := by ring
    rw [e1, e2] at this
    exact this
  have hk : k = 10 ^ u.2 := by
    have h1 : (k : ℚ) < 10 ^ u.2 + 1 := by linarith
    have h2 : (10 : ℚ) ^ u.2 < k + 1 := by linarith
    have h1 : k < 10 ^ u.2 + 1 := by exact_mod_cast h1
    have h2 : 10 ^ u.2 < k + 1 := by exact_mod_cast h2
    omega
  rw [hk, Nat.mod_self] at k1
  cases hod : o.date with
  | mk y m d n f => rw [hod] at d1 d2 d3 v3 k1; simp only at d1 d2 d3 v3 k1; subst d1 d2 d3 k1; rw [v3]

/-! ### concrete observations -/
namespace SampleSent
open SampleWritten (fld node)

/-- an observation from a spacecraft, with a programme, a discovery asterisk, a reference, a coordinate without sign, a long magnitude and fields that have no place in the 80 columns -/
def spaceElem : Elem := node "optical" [fld "trkSub" "P10abc", fld "mode" "CCD", fld "stn" "249", fld "sys" "ICRF_KM", fld "ctr" "399", fld "pos1" "1234.5678", fld "pos2" "-2345.6789",
  fld "pos3" "+3456.7890", fld "prog" "0a", fld "obsTime" "2016-08-29T12:23:34.12Z", fld "ra" "215.10254", fld "dec" "-12.547", fld "astCat" "Gaia2", fld "mag" "21.912",
  fld "band" "Rc", fld "rmsMag" "0.1", fld "ref" "MPS  1229401", fld "disc" "*", fld "remarks" "bright"]
def space : Sent :=
  { desig := .tracklet (c! "P10abc"), disc := some '*', notes := none, prog := some 36, deprecated := false, subFrm := none, mode := c! "CCD", stn := c! "249", year := 2016, month := 8, day := 29,
    second := 44614, decimals := some (c! "12"), ra := ⟨none, c! "215", some (c! "10254")⟩, dec := ⟨some '-', c! "12", some (c! "547")⟩, precTime := ⟨none, c! "1", none⟩,
    precRA := ⟨none, c! "0", some (c! "001")⟩, precDec := ⟨none, c! "0", some (c! "01")⟩, mag := some ⟨none, c! "21", some (c! "912")⟩, band := some (c! "Rc"), cat := c! "Gaia2",
    ref := some (.page (.mps 1229401)), place := .spacecraft false ⟨false, 1234, 4, 5678⟩ ⟨true, 2345, 4, 6789⟩ ⟨false, 3456, 4, 7890⟩ }

theorem space_in : space.In (c! "1") (c! "0.001") (c! "0.01") spaceElem := by
  constructor
  case place => exact ⟨by decide +kernel, ⟨c! "1234.5678", .inr ⟨rfl, by decide +kernel⟩, by decide +kernel⟩, ⟨_, .inl rfl, by decide +kernel⟩, ⟨_, .inl rfl, by decide +kernel⟩⟩
  all_goals decide +kernel

theorem one_value : space.precTime.value = 1 := by
  have : space.precTime.value = mkRat 1 1 := by decide +kernel
  rw [this, Rat.mkRat_eq_div]; norm_num
theorem ra_value : space.ra.value = 21510254 / 100000 := by
  have : space.ra.value = mkRat 21510254 100000 := by decide +kernel
  rw [this, Rat.mkRat_eq_div]; norm_num
theorem dec_size : space.dec.size = 12547 / 1000 := by
  have : space.dec.size = mkRat 12547 1000 := by decide +kernel
  rw [this, Rat.mkRat_eq_div]; norm_num
theorem seconds_value : space.seconds = 4461412 / 100 := by
  have : space.seconds = mkRat 4461412 100 := by decide +kernel
  rw [this, Rat.mkRat_eq_div]; norm_num
theorem precRA_value : space.precRA.value = 1 / 1000 := SampleAngles.milli_value
theorem precDec_value : space.precDec.value = 1 / 100 := SampleAngles.centi_value

theorem numeral_ok (n : Numeral) (h1 : (n.sign.toList.all fun c => c = '+' ∨ c = '-') = true) (h2 : (n.whole.all fun c => c ∈ c! "0123456789") = true)
    (h3 : ((n.frac.getD []).all fun c => c ∈ c! "0123456789") = true) (h4 : n.whole ≠ []) : n.Valid := by
  refine ⟨fun c hc => ?_, fun c hc => by simpa using List.all_eq_true.1 h2 c hc, fun f hf c hc => ?_, .inl h4⟩
  · simpa using List.all_eq_true.1 h1 c (by simpa using hc)
  · have : n.frac.getD [] = f := by rw [show n.frac = some f from hf]; rfl
    rw [this] at h3
    simpa using List.all_eq_true.1 h3 c hc

theorem space_writable : space.Writable where
  desig := by refine ⟨by decide, by decide, by decide, ?_⟩
              rintro (⟨_, _, _, _, _, _, _, h, _⟩ | ⟨s, n, _, h⟩)
              · have := congrArg List.length h; simp at this
              · have := congrArg List.length h
                rw [fixed4 (by omega)] at this; simp at this
  prog := by intro i hi; obtain rfl : 36 = i := by simpa [space] using hi
             decide
  mode := by intro _ _ _; decide
  stn := by decide
  year := by decide
  month := by decide
  day := by decide
  second := by decide
  decimals := by intro ds hd; obtain rfl : c! "12" = ds := by simpa [space] using hd
                 exact ⟨by decide, by decide, by decide⟩
  ra := ⟨numeral_ok _ (by decide) (by decide) (by decide) (by decide), by decide, by rw [ra_value]; norm_num⟩
  dec := ⟨numeral_ok _ (by decide) (by decide) (by decide) (by decide), by rw [dec_size]; norm_num⟩
  precTime := ⟨numeral_ok _ (by decide) (by decide) (by decide) (by decide), (1, 6), by decide, by rw [one_value]; norm_num⟩
  precRA := ⟨SampleAngles.milli_valid, SampleAngles.milli_unit⟩
  precDec := ⟨SampleAngles.centi_valid, SampleAngles.centi_unit⟩
  tie := by
    intro _
    rw [precDec_value, dec_size]
    exact SampleAngles.far_of 752 (by norm_num) (by norm_num) (by norm_num)
  mag := by intro m hm; obtain rfl : ⟨none, c! "21", some (c! "912")⟩ = m := by simpa [space] using hm
            exact numeral_ok _ (by decide) (by decide) (by decide) (by decide)
  ref := by intro r hr; obtain rfl : RefText.page (.mps 1229401) = r := by simpa [space] using hr
            simp [RefText.Writable]
  place := by simp [space, Place.Writable, Coord.Valid]

theorem far_full {u : ℚ} (h : ¬ (1 < u ∨ u = 6 / 10)) {x half : ℚ} (hx : FarFrom 60 x half) : FarFrom (fullField u) x half := by
  unfold fullField; rw [if_neg h]; exact hx

theorem one_unit {u : Nat × Nat} (hu : u ∈ timeUnits) (h : space.precTime.value = (u.1 : ℚ)) : u.2 = 6 := by
  rw [one_value] at h
  have h1 : u.1 = 1 := by exact_mod_cast h.symm
  have q : ∀ u ∈ timeUnits, u.1 = 1 → u.2 = 6 := by decide
  exact q u hu h1

theorem space_readable : space.Readable where
  noExt := by decide +kernel
  disc := by intro c hc; obtain rfl : '*' = c := by simpa [space] using hc
             decide
  notes := by intro c hc; simp [space] at hc
  prog := by intro i hi; obtain rfl : 36 = i := by simpa [space] using hi
             exact ⟨by decide +kernel, by decide⟩
  deprecated := by intro h; exact absurd h (by decide)
  stn := ⟨by decide, by decide⟩
  band := by intro b hb; obtain rfl : c! "Rc" = b := by simpa [space] using hb
             decide
  ref := by intro r hr; obtain rfl : RefText.page (.mps 1229401) = r := by simpa [space] using hr
            simp [RefText.Readable, Ref.Valid]
  place := trivial
  midnight := by
    intro u hu h
    rw [one_unit hu h, seconds_value]; norm_num
  late := by
    intro u hu h j _
    rw [one_unit hu h, seconds_value]
    rcases Nat.lt_or_ge 826 j with hj | hj
    · right
      have : (827 : ℚ) ≤ j := by exact_mod_cast hj
      norm_num; linarith
    · left
      have : (j : ℚ) ≤ 826 := by exact_mod_cast hj
      norm_num; linarith
  precDec := by rw [precDec_value]; norm_num
  raFull := by
    refine far_full (by rw [precRA_value]; norm_num) ?_
    rw [precRA_value, ra_value]
    exact SampleAngles.far_of 860 (by norm_num) (by norm_num) (by norm_num)
  decFull := by
    refine far_full (by rw [precDec_value]; norm_num) ?_
    rw [precDec_value, dec_size]
    exact SampleAngles.far_of 752 (by norm_num) (by norm_num) (by norm_num)

/-- the lines: the magnitude is cut, the band is the letter R -/
theorem C44_sample : (alone {} spaceElem).lines =
    [c! "     P10abc *;S2016 08 29.51636714 20 24.610-12 32 49.20         21.91RV~44BV249",
     c! "     P10abc *;s2016 08 29.5163671 + 1234.5678 - 2345.6789 + 3456.7890   ~44BV249"] := by
  decide +kernel

/-- the hypotheses of `C44_back` are met -/
example (nosplit : Bool) : ∃ e', space.Back e' ∧
    (mpc80coltoxml Sample80.anyLxml Sample80.realAllowed nosplit (fileText ([c! "COD 249"] ++ (alone {} spaceElem).lines))).doc = some (adesDoc [(Block.mk [(c! "COD", c! "249")] [e']).elem]) := by
  obtain ⟨es', h1, h2, _⟩ := C44_back Sample80.any_names (Sample80.any_accepts _ _) {} nosplit (as := [space]) (es := [spaceElem]) (by simp)
    (.cons ⟨space_writable, space_readable, space_in⟩ .nil) (hs := [(c! "COD", c! "249")]) (by simp)
    (by intro x hx; obtain rfl : x = (c! "COD", c! "249") := by simpa using hx
        exact ⟨by decide, by decide, by decide, by decide⟩)
    (fun x _ => ⟨Sample80.any_accepts _ _, fun y _ => Sample80.any_accepts _ _⟩) (fun a _ o _ e _ x _ => Sample80.any_accepts _ _)
  cases h1 with
  | cons x y =>
    cases y
    rw [List.flatMap_cons, List.flatMap_nil, List.append_nil] at h2
    exact ⟨_, x, h2⟩

/-- the mode TDI, which ADES allows, is refused -/
def tdiElem : Elem := node "optical" [fld "trkSub" "P10abc", fld "mode" "TDI", fld "stn" "249", fld "obsTime" "2016-08-29T12:23:34.12Z", fld "ra" "215.10254", fld "dec" "-12.547",
  fld "astCat" "Gaia2"]
def tdi : Sent := { space with mode := c! "TDI", disc := none, prog := none, mag := none, band := none, ref := none, place := .ground }
theorem tdi_in : tdi.In (c! "1") (c! "0.001") (c! "0.01") tdiElem := by
  constructor
  case place => show fieldOf tdiElem (c! "pos1") = none; decide +kernel
  all_goals decide +kernel
theorem C44_tdi : alone {} tdiElem = ⟨[], [], some .keyError⟩ :=
  C44_mode_refused {} (a := tdi) { space_writable with
    prog := by intro i hi; simp [tdi] at hi
    mode := by intro _ _ _; decide
    mag := by intro i hi; simp [tdi] at hi
    ref := by intro i hi; simp [tdi] at hi
    place := trivial } tdi_in rfl rfl rfl (by decide)

/-- a reference longer than five characters keeps the last five, without a message -/
theorem C44_long_reference : (alone {} (node "optical" [fld "trkSub" "P10abc", fld "mode" "CCD", fld "stn" "249", fld "obsTime" "2016-08-29T12:23:34.12Z", fld "ra" "215.10254",
      fld "dec" "-12.547", fld "astCat" "Gaia2", fld "ref" "MPEC 2016-Q10"])).lines =
    [c! "     P10abc   C2016 08 29.51636714 20 24.610-12 32 49.20               V6-Q10249"] := by
  decide +kernel
end SampleSent

end Verif
