import Verif.Lemmas.Trip80Accept
import Verif.Lemmas.Trip80Fields
import Verif.Props.Sent
import Verif.Props.Submit80
/-!
  C56: valid submissions through 80 columns and back: the file that is written can be read again, and the document that is read says what `Spec.Trip80` says.
-/
set_option linter.unusedSimpArgs false
namespace Verif
open Verif.ToMpc80 Verif.Mpc80 Verif.PackUtil Verif.Spec.Mpc80 Verif.Xml Verif.Master
open Verif.Spec hiding Item Group fileText Group.lines contextElem
namespace Trip80
open Verif.Submission Verif.Fields Verif.Submit80

/-- the parts of a block of a valid submission -/
theorem block_parts {doc : Elem} (hr : doc.tag = c! "ades") (hv : ValidDocument xsd submitSchema doc) {b : Elem} (hb : b ∈ doc.kids) :
    WellBlock b ∧ ∃ ctx, contextsOf b = [ctx] ∧ WellContext ctx := by
  obtain ⟨p1, p2, p3, q1, q2, q3⟩ := paths
  obtain ⟨T, hT, hv⟩ := hv
  rw [hr, ades_type] at hT
  cases hT
  obtain ⟨t, ht, hvb⟩ := kid_type q1 hv hb
  rw [p1, List.mem_singleton, Prod.mk.injEq] at ht
  obtain ⟨tb, rfl⟩ := ht
  obtain ⟨w, x, y, hk, tx, ty⟩ := block_of hvb tb
  refine ⟨w, x, ?_, ?_⟩
  · unfold contextsOf
    rw [hk, List.filter_cons_of_pos (by rw [tx]; decide), List.filter_cons_of_neg (by rw [ty]; decide)]
    rfl
  · obtain ⟨t, ht, hvx⟩ := kid_type q2 hvb (k := x) (by rw [hk]; simp)
    rw [p2, tx] at ht
    simp (decide := true) only [List.mem_cons, Prod.mk.injEq, List.not_mem_nil, or_false, true_and, false_and] at ht
    subst ht
    exact well_context (general_mono hvx)

theorem headers_some {ctx : Elem} (h : WellContext ctx) : headersOf ctx ≠ [] := by
  obtain ⟨i, hi, ti⟩ := List.mem_map.1 (h.needs (c! "submitter") (by decide))
  intro e
  have : partHeaders i = [] := by
    have : ∀ x ∈ ctx.kids, partHeaders x = [] := List.flatMap_eq_nil_iff.1 e
    exact this i hi
  rw [part_con ti] at this
  cases this

/-- the observations of a block -/
theorem data_back {lx : Lxml} (hu : Usual lx) (op : Opts) {es : List Elem}
    (h : ∀ e ∈ es, (∀ n ∈ kept, ∀ v, fieldOf e n = some v → Printable v) ∧ ∃ a : Sent, a.Writable ∧ a.Readable ∧ a.In op.precTime op.precRA op.precDec e) :
    ∃ os : List Obs, Spec.Each (fun e b => b.Valid ∧ b.Accepted lx ∧ ∀ e', b.Element e' → ∃ a : Sent, a.In op.precTime op.precRA op.precDec e ∧ a.Back e') es os ∧
      (es.flatMap fun e => (alone op e).lines) = os.flatMap Obs.lines := by
  induction es with
  | nil => exact ⟨[], .nil, rfl⟩
  | cons e es ih =>
    obtain ⟨os, i1, i2⟩ := ih fun x hx => h x (by simp [hx])
    obtain ⟨hp, a, h1, h2, h3⟩ := h e (by simp)
    obtain ⟨o, o1, o2⟩ := C44_line op h1 h3
    refine ⟨a.obs o :: os, .cons ⟨obs_ok h1 h2 h3 o1, obs_accepted hu hp h3 o1, fun e' he' => ⟨a, h3, back_ok h1 h2 h3 o1 he'⟩⟩ i1, ?_⟩
    rw [List.flatMap_cons, List.flatMap_cons, i2, o2]

theorem each_back {op : Opts} {lx : Lxml} {es : List Elem} {os : List Obs}
    (h : Spec.Each (fun e b => b.Valid ∧ b.Accepted lx ∧ ∀ e', b.Element e' → ∃ a : Sent, a.In op.precTime op.precRA op.precDec e ∧ a.Back e') es os) {es' : List Elem} (h' : Spec.Each Obs.Element os es') :
    Spec.Each (fun e e' => ∃ a : Sent, a.In op.precTime op.precRA op.precDec e ∧ a.Back e') es es' := by
  induction h generalizing es' with
  | nil => cases h'; exact .nil
  | cons hab _ ih =>
    cases h' with
    | cons x y => exact .cons (hab.2.2 _ x) (ih y)

theorem each_valid {op : Opts} {lx : Lxml} {es : List Elem} {os : List Obs}
    (h : Spec.Each (fun e b => b.Valid ∧ b.Accepted lx ∧ ∀ e', b.Element e' → ∃ a : Sent, a.In op.precTime op.precRA op.precDec e ∧ a.Back e') es os) : ∀ b ∈ os, b.Valid ∧ b.Accepted lx := by
  induction h with
  | nil => simp
  | cons hab _ ih =>
    intro b hb
    rcases List.mem_cons.1 hb with rfl | hb
    · exact ⟨hab.1, hab.2.1⟩
    · exact ih b hb

/-- the blocks -/
theorem groups_back {lx : Lxml} (hu : Usual lx) (op : Opts) (ho : op.noHeader = false) {bs : List Elem} (hb : ∀ b ∈ bs, WellBlock b ∧ ∃ ctx, contextsOf b = [ctx] ∧ WellContext ctx)
    (hs : ∀ b ∈ bs, ∀ ctx ∈ contextsOf b, Sendable ctx)
    (h : ∀ b ∈ bs, ∀ e ∈ observationsOf b, (∀ n ∈ kept, ∀ v, fieldOf e n = some v → Printable v) ∧ ∃ a : Sent, a.Writable ∧ a.Readable ∧ a.In op.precTime op.precRA op.precDec e) :
    ∃ gs : List Group, (∀ g ∈ gs, g.Valid ∧ (∀ b ∈ g.obs, b.Accepted lx) ∧ HeadersOk lx g.headers) ∧
      Spec.Each (fun b g => ∀ es', Spec.Each Obs.Element g.obs es' → BlockBack op.precTime op.precRA op.precDec b (Block.mk g.headers es').elem) bs gs ∧
      (bs.flatMap fun c => (if op.noHeader then [] else (contextsOf c).flatMap headerLines) ++ (observationsOf c).flatMap fun e => (alone op e).lines) = gs.flatMap Spec.Mpc80.Group.lines := by
  induction bs with
  | nil => exact ⟨[], by simp, .nil, rfl⟩
  | cons b bs ih =>
    obtain ⟨gs, g1, g2, g3⟩ := ih (fun x hx => hb x (by simp [hx])) (fun x hx => hs x (by simp [hx])) (fun x hx => h x (by simp [hx]))
    obtain ⟨w, ctx, hc, wc⟩ := hb b (by simp)
    have sc : Sendable ctx := hs b (by simp) ctx (by rw [hc]; simp)
    obtain ⟨os, d1, d2⟩ := data_back hu op (h b (by simp))
    have hall := each_valid d1
    have hos : os ≠ [] := by
      rintro rfl; generalize hq : observationsOf b = q at d1; cases d1; exact w.seen hq
    refine ⟨⟨headersOf ctx, os⟩ :: gs, ?_, .cons ?_ g2, ?_⟩
    · intro g hg
      rcases List.mem_cons.1 hg with rfl | hg
      · exact ⟨⟨headers_some wc, fun x hx => ⟨(headers_ok sc x hx).1, (headers_ok sc x hx).2.1, (headers_ok sc x hx).2.2.1⟩, hos, fun b hb => (hall b hb).1⟩, fun b hb => (hall b hb).2,
          headers_accepted hu fun x hx => (headers_ok sc x hx).2.2.2⟩
      · exact g1 g hg
    · intro es' hes
      refine ⟨rfl, ?_, ?_⟩
      · rw [hc]
        exact .cons (context_back wc sc) .nil
      · exact each_back d1 (by
          have : observationsOf (Block.mk (headersOf ctx) es').elem = es' := by
            simp (decide := true) [observationsOf, Block.elem, nodeOf, Spec.Mpc80.contextElem, Elem.kids, Elem.tag]
          rw [this]; exact hes)
    · rw [List.flatMap_cons, List.flatMap_cons, g3, ho, hc, d2]
      simp only [Bool.false_eq_true, if_false, List.flatMap_cons, List.flatMap_nil, List.append_nil]
      rw [← headers_lines]
      rfl

theorem each_zip {pt pr pd : Str} {bs : List Elem} {gs : List Group} {ess : List (List Elem)}
    (h : Spec.Each (fun b g => ∀ es', Spec.Each Obs.Element g.obs es' → BlockBack pt pr pd b (Block.mk g.headers es').elem) bs gs)
    (h' : Spec.Each (fun g es => Spec.Each Obs.Element g.obs es) gs ess) :
    Spec.Each (BlockBack pt pr pd) bs (List.zipWith (fun g es => (Block.mk g.headers es).elem) gs ess) := by
  induction h generalizing ess with
  | nil => cases h'; exact .nil
  | cons hab _ ih =>
    cases h' with
    | cons x y => exact .cons (hab _ x) (ih y)

end Trip80
open Trip80

/-- **C56.** A valid submission with optical observations that can be written and read (C44), whose texts are printable and whose contexts fit header lines, is converted to 80 columns and back without exceptions,
    and everything that has a place in the 80-column format is there again: every block in order, with the names in its context and its observations in order. -/
theorem C56_trip {lx : Lxml} (hu : Usual lx) (op : Opts) (ho : op.noHeader = false) (nosplit : Bool) {doc : Elem} (hr : doc.tag = c! "ades") (hv : ValidDocument xsd submitSchema doc)
    (hs : ∀ b ∈ doc.kids, ∀ ctx ∈ contextsOf b, Sendable ctx)
    (h : ∀ e ∈ observations doc, (∀ n ∈ kept, ∀ v, fieldOf e n = some v → Printable v) ∧ ∃ a : Sent, a.Writable ∧ a.Readable ∧ a.In op.precTime op.precRA op.precDec e) :
    let out := xmltompc80col op adesTables doc
    let back := mpc80coltoxml lx Sample80.realAllowed nosplit (fileText out.lines)
    out.raised = none ∧ back.raised = none ∧
      ∃ doc', back.doc = some doc' ∧ doc'.tag = c! "ades" ∧ Spec.Each (BlockBack op.precTime op.precRA op.precDec) doc.kids doc'.kids := by
  have hb := fun b (hb : b ∈ doc.kids) => block_parts hr hv hb
  have hobs : ∀ b ∈ doc.kids, ∀ e ∈ observationsOf b, e ∈ observations doc := by
    intro b hbm e he
    unfold observations
    refine List.mem_flatMap.2 ⟨b, hbm, ?_⟩
    have := (hb b hbm).1.tag
    unfold observationsOf at he
    rw [if_pos this]; exact he
  have c40 := C40_complete op doc hr (fun c hc => .inl (hb c hc).1) (by
    intro e he
    obtain ⟨-, a, h1, -, h3⟩ := h e he
    obtain ⟨o, -, o2⟩ := C44_line op h1 h3
    rw [o2])
  obtain ⟨gs, g1, g2, g3⟩ := groups_back hu op ho hb hs (fun b hbm e he => h e (hobs b hbm e he))
  have hl : (xmltompc80col op adesTables doc).lines = gs.flatMap Spec.Mpc80.Group.lines := by
    rw [c40.2, ← g3, List.flatMap_def, List.flatMap_def]
    congr 1
    refine List.map_congr_left fun c hcm => ?_
    rw [if_pos (show c.tag = c! "obsBlock" from (hb c hcm).1.tag)]
  obtain ⟨ess, e1, e2, e3⟩ := C38_file (usual_names hu) ⟨tag_ok hu (by decide), by simp, by simp⟩ g1 nosplit
  simp only
  rw [hl]
  exact ⟨c40.1, e3, _, e2, rfl, each_zip g2 e1⟩

open Verif.Submit80 Verif.Submission Verif.Fields in
/-- **C56.** The same in terms of the fields of the observations: a valid submission of optical observations that are convertible (C51) and returnable comes back. -/
theorem C56_submission {lx : Lxml} (hu : Usual lx) (lowPrec nosplit : Bool) {doc : Elem} (hr : doc.tag = c! "ades") (hv : ValidDocument xsd submitSchema doc)
    (hs : ∀ b ∈ doc.kids, ∀ ctx ∈ contextsOf b, Sendable ctx)
    (h : ∀ e ∈ observations doc, e.tag = c! "optical" ∧ Convertible (decPrecision lowPrec) e ∧ Returnable lowPrec e) :
    let op := cmdOpts false lowPrec
    let out := xmltompc80col op adesTables doc
    let back := mpc80coltoxml lx Sample80.realAllowed nosplit (fileText out.lines)
    out.raised = none ∧ back.raised = none ∧
      ∃ doc', back.doc = some doc' ∧ doc'.tag = c! "ades" ∧ Spec.Each (BlockBack op.precTime op.precRA op.precDec) doc.kids doc'.kids :=
  C56_trip hu (cmdOpts false lowPrec) (cmdOpts_std false lowPrec).2 nosplit hr hv hs fun e he => by
    obtain ⟨ht, hc, hq⟩ := h e he
    obtain ⟨t, ok⟩ := ok_of hr hv he
    have ok := ok_tag ok _ ht
    obtain ⟨a, h1, h2⟩ := sent_of false lowPrec (decPrecision_unit lowPrec) ok hc
    exact ⟨fields_pr ok hc.desig, a, h1, readable_of ok hq h1 h2, h2⟩

/-! ### Examples -/
namespace SampleTrip80
open SampleSubmit80 SampleAngles

/-- a submission with a context of all parts that header lines have room for, and two observations -/
def context (submitter observers telescope : List Elem) : Elem := .mk (c! "obsContext") none [] [
  .mk (c! "observatory") none [] [leaf (c! "mpcCode") (c! "568"), leaf (c! "name") (c! "Mauna Kea")],
  .mk (c! "submitter") none [] submitter,
  .mk (c! "observers") none [] observers,
  .mk (c! "measurers") none [] [leaf (c! "name") (c! "D. J. Tholen")],
  .mk (c! "telescope") none [] (telescope ++ [leaf (c! "design") (c! "reflector"), leaf (c! "aperture") (c! "2.2"), leaf (c! "detector") (c! "CCD")]),
  .mk (c! "comment") none [] [leaf (c! "line") (c! "Photometry is poor."), leaf (c! "line") (c! "Seeing 1.2")]]

def paper (ctx : Elem) : Elem := .mk (c! "ades") none [(c! "version", c! "2022")] [.mk (c! "obsBlock") none [] [ctx, .mk (c! "obsData") none [] [obs good, obs good]]]

def full : Elem := context [leaf (c! "name") (c! "D. J. Tholen"), leaf (c! "institution") (c! "Univ. of Hawaii, Honolulu")] [leaf (c! "name") (c! "M. Micheli"), leaf (c! "name") (c! " D. J. Tholen ")]
  [leaf (c! "name") (c! "UH88")]

theorem any_usual : Usual Sample80.anyLxml := ⟨fun _ _ _ _ => rfl, fun _ _ => rfl⟩

theorem printable {ls : List Str} (h : (ls.all fun l => decide (l.length ≤ 80) && l.all fun c => decide (32 ≤ c.toNat) && decide (c.toNat < 0xD800)) = true) : ∀ l ∈ ls, l.length ≤ 80 ∧ Printable l := by
  intro l hl
  have := List.all_eq_true.1 h l hl
  simp only [Bool.and_eq_true, decide_eq_true_eq, List.all_eq_true] at this
  exact ⟨this.1, fun c hc => this.2 c hc⟩

theorem full_sendable : Sendable full where
  lines := printable (by decide +kernel)
  commas := by decide +kernel
  order := by decide +kernel

theorem good_returnable : Returnable false (obs good) where
  desig d hd h1 h2 h3 := by
    have hc := (designation_round_trip hd).1
    rw [show fieldOf (obs good) (c! "permID") = some (c! "99942") by decide +kernel] at h1
    rw [show fieldOf (obs good) (c! "provID") = some (c! "2004 MN4") by decide +kernel] at h2
    have : d.columns = c! "99942K04M04N" := by
      rw [← h1, ← h2] at hc
      have ht : d.trkText = none := by cases d <;> first | rfl | cases h1
      rw [ht] at hc
      exact (Except.ok.inj (hc.symm.trans (show packTupleID ⟨some (c! "99942"), some (c! "2004 MN4"), none⟩ = .ok (c! "99942K04M04N") by decide +kernel)))
    rw [this]
    decide
  stn v hv := by
    have : v = c! "568" := Option.some.inj (hv.symm.trans (by decide +kernel))
    subst this; rfl
  notes t ht := absurd (ht.symm.trans (show fieldOf (obs good) (c! "notes") = none by decide +kernel)) (by simp)
  rover h := absurd h (by decide +kernel)
  time t ht := by
    have : t = c! "2016-12-31T23:59:59.123456Z" := Option.some.inj (ht.symm.trans (by decide +kernel))
    subst this
    decide +kernel
  ra n hn hf := by
    rw [show fieldOf (obs good) (c! "ra") = some (c! "15.1") by decide +kernel] at hf
    have hv : (Numeral.mk none (c! "15") (some (c! "1"))).Valid := ⟨by simp, by decide, by intro f hf; cases hf; decide, .inl (by decide)⟩
    have : Numeral.mk none (c! "15") (some (c! "1")) = n := Xsd.text_inj (.of hv) (.of hn) (Option.some.inj hf)
    subst this
    have hs : (Numeral.mk none (c! "15") (some (c! "1"))).value = 151 / 10 := by
      have : (Numeral.mk none (c! "15") (some (c! "1"))).value = mkRat 151 10 := by decide +kernel
      rw [this, Rat.mkRat_eq_div]; norm_num
    rw [hs]
    simp only [half, raStep]
    exact far_of 60 (by norm_num) (by norm_num) (by norm_num)
  dec n hn hf := by
    rw [show fieldOf (obs good) (c! "dec") = some (c! "+1.50125") by decide +kernel] at hf
    have hv : (Numeral.mk (some '+') (c! "1") (some (c! "50125"))).Valid := ⟨by simp, by decide, by intro f hf; cases hf; decide, .inl (by decide)⟩
    have : Numeral.mk (some '+') (c! "1") (some (c! "50125")) = n := Xsd.text_inj (.of hv) (.of hn) (Option.some.inj hf)
    subst this
    have hs : (Numeral.mk (some '+') (c! "1") (some (c! "50125"))).size = 150125 / 100000 := by
      have : (Numeral.mk (some '+') (c! "1") (some (c! "50125"))).size = mkRat 150125 100000 := by decide +kernel
      rw [this, Rat.mkRat_eq_div]; norm_num
    rw [hs]
    simp only [half, decStep]
    exact far_of 90 (by norm_num) (by norm_num) (by norm_num)

theorem paper_valid : ValidDocument xsd submitSchema (paper full) := ⟨c! "ADESType", by kernel_rfl, Xsd.isValid_sound (f := 80) (by decide +kernel)⟩

/-- the hypotheses of `C56_submission` are met -/
example : (xmltompc80col (cmdOpts false false) adesTables (paper full)).raised = none :=
  (C56_submission any_usual false false rfl paper_valid (by
      intro b hb ctx hc
      rw [List.mem_singleton.1 hb] at hc
      rw [List.mem_singleton.1 (show ctx ∈ [full] from hc)]
      exact full_sendable)
    (by
      intro e he
      have he : e ∈ [obs good, obs good] := he
      have : e = obs good := by simpa using he
      subst this
      exact ⟨rfl, good_convertible, good_returnable⟩)).1

/-- the lines of such a submission, and the texts of the context that is read from them -/
def lines (ctx : Elem) : List Str := (xmltompc80col (cmdOpts false false) adesTables (paper ctx)).lines
def shared (ctx : Elem) : List (List Str) := sharedPlaces.map fun p => textsAt ctx p.1 p.2
def sharedBack (ctx : Elem) : List (List (List Str)) :=
  ((mpc80coltoxml Sample80.anyLxml Sample80.realAllowed false (fileText (lines ctx))).doc.map fun d => d.kids.flatMap fun b => (contextsOf b).map shared).getD []

theorem C56_sample : lines full = [c! "COD 568", c! "CON D. J. Tholen, Univ. of Hawaii, Honolulu", c! "OBS M. Micheli, D. J. Tholen", c! "MEA D. J. Tholen", c! "TEL UH88",
      c! "COM Photometry is poor.", c! "COM Seeing 1.2",
      c! "99942K04M04N  C2016 12 31.99999001 00 24.000+01 30 04.50         21.35GW     568", c! "99942K04M04N  C2016 12 31.99999001 00 24.000+01 30 04.50         21.35GW     568"] ∧
    sharedBack full = [shared full] := by decide +kernel

/-- the conditions on the context are needed: these are valid submissions whose contexts come back with other texts. The institution first: it comes back as the name. -/
def exchanged : Elem := context [leaf (c! "institution") (c! "Hawaii"), leaf (c! "name") (c! "D. J. Tholen")] [leaf (c! "name") (c! "M. Micheli")] [leaf (c! "name") (c! "UH88")]
theorem C56_exchanged : ValidDocument xsd submitSchema (paper exchanged) ∧ textsAt exchanged (c! "submitter") (c! "name") = [c! "D. J. Tholen"] ∧
    (sharedBack exchanged).map (fun s => s.take 3) = [[[c! "568"], [c! "Hawaii"], [c! "D. J. Tholen"]]] :=
  ⟨⟨c! "ADESType", by kernel_rfl, Xsd.isValid_sound (f := 80) (by decide +kernel)⟩, by decide +kernel, by decide +kernel⟩

/-- a name with a comma: it comes back as two -/
def parted : Elem := context [leaf (c! "name") (c! "D. J. Tholen")] [leaf (c! "name") (c! "M. Micheli, Jr.")] [leaf (c! "name") (c! "UH88")]
theorem C56_parted : ValidDocument xsd submitSchema (paper parted) ∧ textsAt parted (c! "observers") (c! "name") = [c! "M. Micheli, Jr."] ∧
    (sharedBack parted).map (fun s => (s.drop 3).take 1) = [[[c! "M. Micheli", c! "Jr."]]] :=
  ⟨⟨c! "ADESType", by kernel_rfl, Xsd.isValid_sound (f := 80) (by decide +kernel)⟩, by decide +kernel, by decide +kernel⟩

/-- a telescope without a name: no telescope comes back, and the result is not valid, although the submission is -/
def nameless : Elem := context [leaf (c! "name") (c! "D. J. Tholen")] [leaf (c! "name") (c! "M. Micheli")] []
theorem C56_nameless : ValidDocument xsd submitSchema (paper nameless) ∧
    ((mpc80coltoxml Sample80.anyLxml Sample80.realAllowed false (fileText (lines nameless))).doc.map fun d => d.kids.flatMap fun b => (contextsOf b).flatMap fun c => c.kids.map fun k => k.tag) =
      some [c! "observatory", c! "submitter", c! "observers", c! "measurers", c! "comment"] :=
  ⟨⟨c! "ADESType", by kernel_rfl, Xsd.isValid_sound (f := 80) (by decide +kernel)⟩, by decide +kernel⟩

end SampleTrip80

end Verif
