import Verif.Lemmas.XmlToPsvRun
import Verif.Lemmas.XmlToPsvTotal
import Verif.Lemmas.XmlToPsvChunks
/-!
  C23: the lines of the PSV file.  C24: ADES XML to PSV and back.
-/
namespace Verif
open Verif.Xml Verif.Spec Verif.Psv Verif.Master Verif.ToPsv

theorem versionLine_is {v : Str} (h1 : '=' ∉ v) (h2 : ∀ c ∈ v, isSpace c = false) : VersionIs (c! "# version=" ++ v) v := by
  refine ⟨c! "# version", v, by simp, by decide, h1, by decide, ?_⟩
  rw [List.filter_eq_self.mpr]
  intro c hc
  simp [h2 c hc]

theorem nonBlank_all {lines : List Str} (h : ∀ l ∈ lines, strip l ≠ []) : nonBlank lines = lines :=
  List.filter_eq_self.mpr fun l hl => by simpa using h l hl

/-- **C24.** Writing an expressible document as PSV and reading that PSV again gives the same document: every observation with all its values, every context, in order. -/
theorem C24_roundtrip (F : Facets) (lx : Lxml) (hl : Psv.Lxml.Sane lx) (doc : Elem) (hd : Expressible psvKinds (validObs F) doc) (ha : Accepted lx doc)
    (lines : List Str) (h : xmltopsv adesTables doc = .ok lines) :
    ∃ g, psvtoxml adesTab lx .initial (fileText lines) = .ok (doc, g) := by
  obtain ⟨v, kids, rfl, hv1, hv2, hk⟩ := hd
  unfold xmltopsv at h
  rw [if_neg (by simp [tag_mk])] at h
  simp only [Elem.attrib, Elem.kids] at h
  have hg : getItem [(c! "version", v)] (c! "version") = (.ok v : Py Str) := by
    simp [getItem, PackUtil.dictGet]
  rw [hg] at h
  obtain ⟨v', hv', h0⟩ := bind_ok.mp h
  simp at hv'; subst hv'
  obtain ⟨g1, h1, h2⟩ := bind_ok.mp h0
  obtain ⟨g2, h3, h4⟩ := bind_ok.mp h2
  simp [pure, Except.pure] at h4
  obtain ⟨last, hs⟩ := children (F := F) (vline := c! "# version=" ++ v) (.start rfl rfl) hk h1
  obtain ⟨body, gs, e1, e2, e3, -⟩ := printed hs h3
  rw [← h4, e1]
  have hvl := versionLine_is hv1 hv2
  have hlines : ∀ l ∈ (c! "# version=" ++ v) :: body, IsLine l := by
    intro l hl'
    rcases List.mem_cons.mp hl' with rfl | hl'
    · constructor
      · intro hm
        rcases List.mem_append.mp hm with hm | hm
        · revert hm; decide
        · have := hv2 _ hm; revert this; decide
      · intro hm
        rcases List.mem_append.mp hm with hm | hm
        · revert hm; decide
        · have := hv2 _ hm; revert this; decide
    · exact e2.isLine l hl'
  refine (psv_meaning adesTab_wf hl hlines _).mpr ⟨v, gs, ?_, ⟨fun g hg => (e2.groups g hg).1, fun g hg => (e2.groups g (List.dropLast_subset _ hg)).2⟩, ?_, ha⟩
  · have he : Each (LineIs (typesOf adesTab)) body (gs.flatMap Group.lines) := by
      have := e2.each
      rw [List.append_nil] at this
      exact this
    refine ⟨_, body, nonBlank_all ?_, hvl, he⟩
    intro l hl'
    rcases List.mem_cons.mp hl' with rfl | hl'
    · obtain ⟨r, hr⟩ := version_strip hvl
      rw [hr]; simp
    · have : ∀ {ls : List Str} {ps : List PLine}, Each (LineIs adesTypes) ls ps → ∀ l ∈ ls, strip l ≠ [] := by
        intro ls ps he
        induction he with
        | nil => simp
        | cons h _ ih =>
          intro l hl
          rcases List.mem_cons.mp hl with rfl | hl
          · exact lineIs_strip h
          · exact ih l hl
      exact this he l hl'
  · unfold adesElem
    congr 1

/-- **C24.** An expressible document can be written, unless a value has two decimal points outside the text columns of the PSV formats. -/
theorem C24_total (F : Facets) (doc : Elem) (hd : Expressible psvKinds (validObs F) doc)
    (hdot : ∀ o ∈ doc.kids.flatMap observationsIn, ∀ k ∈ o.kids, ∀ v, k.text = some v → k.tag ∉ textCols o.tag → v.count '.' ≤ 1) :
    ∃ lines, xmltopsv adesTables doc = .ok lines := by
  obtain ⟨v, kids, rfl, hv1, hv2, hk⟩ := hd
  have key : ∀ k ∈ kids, KidDots k := by
    intro k hk' o ho c hc u hu
    by_cases hm : c.tag ∈ textCols o.tag
    · exact .inl hm
    · exact .inr (hdot o (List.mem_flatMap.mpr ⟨k, hk', ho⟩) c hc u hu hm)
  obtain ⟨g1, h1, h2⟩ := children_total (F := F) (l := kids) (g := ⟨[], [], [], [c! "# version=" ++ v]⟩) (last := none) (.inl rfl) (fun t _ e => by simp at e) fun k hk' => ⟨hk k hk', key k hk'⟩
  obtain ⟨g2, h3, -⟩ := print_total h2
  refine ⟨g2.out, ?_⟩
  have hg : getItem [(c! "version", v)] (c! "version") = (.ok v : Py Str) := by
    simp [getItem, PackUtil.dictGet]
  unfold xmltopsv
  rw [if_neg (by simp [tag_mk])]
  simp only [Elem.attrib, Elem.kids, hg, bind, Except.bind, h1, h3, pure, Except.pure]

theorem adesTables_formats : Formats adesTables :=
  show ∀ p ∈ adesTables.psv, p.2 ≠ [] from by decide +kernel

/-- **C23.** For every document: the file is the version line followed by parts.  A part is a context, or a table of observations of one type:
    its lines keep to common columns, one for each name in use, and each row has the values of one observation.  If the values agree with the PSV formats, the cells of a column all have the same width.
    The contexts are those of the document, and, if no block is empty, so are the observations, in the same order. -/
theorem C23_file (doc : Elem) (lines : List Str) (h : xmltopsv adesTables doc = .ok lines) :
    ∃ (v : Str) (cs : List Chunk), (c! "version", v) ∈ doc.attrib ∧ lines = (c! "# version=" ++ v) :: cs.flatMap Chunk.lines ∧
      (∀ c ∈ cs, c.Right ∧ c.Neat (formatsOf adesTables)) ∧ cs.flatMap Chunk.contexts = doc.kids.flatMap contextsIn ∧
      ((∀ k ∈ doc.kids, observationsIn k ≠ []) → cs.flatMap Chunk.obs = doc.kids.flatMap observationsIn) := by
  unfold xmltopsv at h
  split at h
  · simp [raiseRT] at h
  obtain ⟨v, hv, h0⟩ := bind_ok.mp h
  obtain ⟨g1, h1, h2⟩ := bind_ok.mp h0
  obtain ⟨g2, h3, h4⟩ := bind_ok.mp h2
  simp [pure, Except.pure] at h4
  subst h4
  have hm : (c! "version", v) ∈ doc.attrib := by
    unfold getItem at hv
    cases hx : PackUtil.dictGet doc.attrib (c! "version") with
    | none => rw [hx] at hv; simp at hv
    | some x => rw [hx] at hv; simp at hv; subst hv; exact C33.dictGet_mem hx
  obtain ⟨cs, w, t, a1, a2, a3⟩ := run_children (vline := c! "# version=" ++ v) adesTables_formats (l := doc.kids) (ks := []) (w := []) (cs := []) (t := [])
    ⟨by simp, by simp, rfl, by simp⟩ (fun u hu => by simp at hu) rfl (fun _ => ⟨rfl, fun h => absurd rfl h⟩) h1
  obtain ⟨cs', b1, b2, b3⟩ := run_print adesTables_formats a1 h3
  refine ⟨v, cs', hm, b1.out, b1.right, by rw [b3, a2]; rfl, fun hf => ?_⟩
  rw [b2, (a3 fun k hk => hf k (by simpa using hk)).1]
  rfl

/-- An empty block repeats the table before it (when `psvtoxml` reads such a file it finds the observations twice). -/
theorem C23_empty_block_repeats (v : Str) (kids ctx : List Elem) (k : Elem) (lines lines' : List Str)
    (hk : k = .mk (c! "obsBlock") none [] [.mk (c! "obsContext") none [] ctx]) (h : xmltopsv adesTables (.mk (c! "ades") none [(c! "version", v)] kids) = .ok lines)
    (h' : xmltopsv adesTables (.mk (c! "ades") none [(c! "version", v)] (kids ++ [k])) = .ok lines') :
    ∃ front last, lines = front ++ last ∧ lines' = lines ++ (ctx.flatMap fun i => contextText '#' i :: i.kids.map (contextText '!')) ++ last ∧
      (kids ≠ [] → (∀ k ∈ kids, observationsIn k ≠ []) → last ≠ []) := by
  unfold xmltopsv at h h'
  rw [if_neg (by simp [tag_mk])] at h h'
  obtain ⟨v1, hv, h0⟩ := bind_ok.mp h
  obtain ⟨g1, h1, h2⟩ := bind_ok.mp h0
  obtain ⟨g2, h3, h4⟩ := bind_ok.mp h2
  simp [pure, Except.pure] at h4
  subst h4
  obtain ⟨v1', hv', h0'⟩ := bind_ok.mp h'
  obtain ⟨g3, h1', h2'⟩ := bind_ok.mp h0'
  obtain ⟨g4, h3', h4'⟩ := bind_ok.mp h2'
  simp [pure, Except.pure] at h4'
  subst h4'
  have e1 : v1' = v1 := by
    simp only [Elem.attrib] at hv hv'
    rw [hv] at hv'; simpa using hv'.symm
  subst e1
  simp only [Elem.kids] at h1 h1'
  have htag : k.tag = c! "obsBlock" := by rw [hk]; rfl
  rw [children_snoc htag, h1] at h1'
  simp only [bind, Except.bind] at h1'
  rw [processChildren] at h1'
  obtain ⟨al, ha, hb, hc⟩ := allowed_ades
  obtain ⟨al2, ha2, hb2, hc2⟩ := allowed_obsBlock
  obtain ⟨last, p1, p2, p3, p4, p5⟩ := print_adds h3
  have hkids : k.kids = [.mk (c! "obsContext") none [] ctx] := by rw [hk]; rfl
  have hblock : processObsBlock adesTables (g2, none) k.kids = .ok ({ g2 with out := g2.out ++ contextLines (.mk (c! "obsContext") none [] ctx) }, none) := by
    rw [hkids, processObsBlock, ha2]
    simp only [bind, Except.bind, tag_mk, hb2, not_true_eq_false, if_false, if_true]
    rw [processObsBlock]
  rw [ha] at h1'
  simp only [bind, Except.bind, htag, hc, not_true_eq_false, if_false, if_true, h3, hblock, processChildren, Except.ok.injEq] at h1'
  subst h1'
  rw [p5 { g2 with out := g2.out ++ contextLines (.mk (c! "obsContext") none [] ctx) } (by exact p2) (by exact p3)] at h3'
  simp at h3'
  subst h3'
  refine ⟨g1.out, last, p1, by rw [contextLines_eq]; simp [Elem.kids], fun hne hf => p4 ?_⟩
  obtain ⟨cs, w, t, a1, a2, a3⟩ := run_children (vline := c! "# version=" ++ v1') adesTables_formats (l := kids) (ks := []) (w := []) (cs := []) (t := [])
    ⟨by simp, by simp, rfl, by simp⟩ (fun u hu => by simp at hu) rfl (fun _ => ⟨rfl, fun h => absurd rfl h⟩) h1
  have := (a3 fun k hk => hf k (by simpa using hk)).2 (by simpa using hne)
  rw [a1.dicts]
  simpa using this

/-- Content below the sub-elements of an observation is not written. -/
theorem C23_nested_lost (v t n : Str) (pre post x y : List Elem) (ht : t ≠ c! "obsBlock") :
    xmltopsv adesTables (.mk (c! "ades") none [(c! "version", v)] [.mk t none [] (pre ++ .mk n none [] x :: post)]) =
      xmltopsv adesTables (.mk (c! "ades") none [(c! "version", v)] [.mk t none [] (pre ++ .mk n none [] y :: post)]) := by
  have e : subDict (.mk t none [] (pre ++ .mk n none [] x :: post)) = subDict (.mk t none [] (pre ++ .mk n none [] y :: post)) := by
    unfold subDict
    simp only [Elem.kids, List.foldl_append, List.foldl_cons]
    rfl
  have e2 : ∀ g b, processDataElement adesTables g b (.mk t none [] (pre ++ .mk n none [] x :: post)) = processDataElement adesTables g b (.mk t none [] (pre ++ .mk n none [] y :: post)) := by
    intro g b
    unfold processDataElement
    rw [e]; rfl
  unfold xmltopsv
  rw [if_neg (by simp [tag_mk]), if_neg (by simp [tag_mk])]
  simp only [Elem.kids, Elem.attrib, processChildren, tag_mk, ht, if_false, e2]
  rfl

/-- Residuals cannot be written, although the general schema has them. -/
theorem C23_residuals_fail (v : Str) (k : Elem) (hk : k.tag = c! "opticalResidual" ∨ k.tag = c! "radarResidual") (rest : List Elem) :
    xmltopsv adesTables (.mk (c! "ades") none [(c! "version", v)] (k :: rest)) = .error .keyError := by
  obtain ⟨al, ha, hb⟩ : ∃ al, getItem adesTables.allowed (c! "ades") = .ok al ∧ (c! "opticalResidual") ∈ al ∧ (c! "radarResidual") ∈ al :=
    ⟨_, show _ = Except.ok ((PackUtil.dictGet adesTables.allowed (c! "ades")).getD []) from by decide +kernel, by decide +kernel⟩
  have hg : getItem [(c! "version", v)] (c! "version") = (.ok v : Py Str) := by simp [getItem, PackUtil.dictGet]
  have hm : k.tag ∈ al := by 
    rcases hk with h | h <;> rw [h]
    · exact hb.1
    · exact hb.2
  have hn : ¬ k.tag = c! "obsBlock" := by rcases hk with h | h <;> rw [h] <;> decide
  have hp : getItem adesTables.psv k.tag = .error .keyError := by
    rcases hk with h | h <;> rw [h] <;> decide +kernel
  unfold xmltopsv
  rw [if_neg (by simp [tag_mk])]
  simp only [Elem.attrib, Elem.kids, hg, bind, Except.bind]
  rw [processChildren, ha]
  simp only [bind, Except.bind, hm, not_true_eq_false, if_false, hn, ne_eq, reduceCtorEq, not_false_eq_true, if_true, printDataDicts, List.isEmpty_nil, processDataElement, initialHeader, hp]

/-! ### an example -/

/-- a block and single observations -/
def psvDoc : Elem := .mk (c! "ades") none [(c! "version", c! "2022")] (sampleDoc.kids ++ [
  .mk (c! "optical") none [] [leaf (c! "permID") (c! "433"), leaf (c! "mode") (c! "CCD"), leaf (c! "stn") (c! "568"), leaf (c! "obsTime") (c! "2016-08-29T12:23:34.12Z"), leaf (c! "ra") (c! "215.10254"),
    leaf (c! "dec") (c! "-12.547"), leaf (c! "astCat") (c! "Gaia3"), leaf (c! "logSNR") (c! "1.23456"), leaf (c! "remarks") (c! "# first")],
  .mk (c! "optical") none [] [leaf (c! "permID") (c! "433"), leaf (c! "mode") (c! "CCD"), leaf (c! "stn") (c! "568"), leaf (c! "obsTime") (c! "2016-08-29T12:24:34.12Z"), leaf (c! "ra") (c! "215.10255"),
    leaf (c! "dec") (c! "-12.548"), leaf (c! "astCat") (c! "Gaia3"), leaf (c! "logSNR") (c! "12.3")]])

/-- what is written for `psvDoc`; in the last table the value 12.3 moved the decimal point, and 1.23456 is wider than its column -/
theorem psvDoc_lines : xmltopsv adesTables psvDoc = .ok [
  c! "# version=2022",
  c! "# observatory",
  c! "! mpcCode 568",
  c! "# submitter",
  c! "! name D. J. Tholen",
  c! "# observers",
  c! "! name D. J. Tholen",
  c! "# measurers",
  c! "! name D. J. Tholen",
  c! "# telescope",
  c! "! design reflector",
  c! "! aperture 2.2",
  c! "! detector CCD",
  c! "! fRatio 10.0",
  c! "permID |provID     |trkSub |mode|stn |obsTime                |ra          |dec         |rmsRA  |astCat|mag  |band|remarks",
  c! "    433|1898 DQ    |       | CCD|568 |2016-08-29T12:23:34.12Z|215.10254   |-12.547     |0.3    | Gaia3|21.91|   G|seen",
  c! "       |2004 MN4   |K04M04N| CCD|568 |2016-08-29T12:24:00Z   | 15.1       | +1.5       |       | Gaia3|     |    |",
  c! "permID |mode|stn |obsTime                |ra          |dec         |astCat|logSNR |remarks",
  c! "    433| CCD|568 |2016-08-29T12:23:34.12Z|215.10254   |-12.547     | Gaia3| 1.23456|# first",
  c! "    433| CCD|568 |2016-08-29T12:24:34.12Z|215.10255   |-12.548     | Gaia3|12.3   |"] := by kernel_rfl

/-! The hypotheses of C24, checked by computation. -/

def cellB : Elem → Bool
  | .mk n (some v) [] [] => decide (v ≠ [] ∧ strip v = v ∧ '|' ∉ v ∧ '\n' ∉ v ∧ '\r' ∉ v) && decide (n ≠ c! "remarks" → v.head? ≠ some '#' ∧ v.head? ≠ some '!')
  | _ => false

def firstB (k : Elem) : Bool :=
  decide (k.tag ≠ c! "remarks") && match k.text with
    | some (c :: _) => !alpha_ c
    | _ => false

def obsB (t : Str) (o : Elem) : Bool :=
  match o with
  | .mk t' none [] kids => decide (t' = t) && kids.all cellB && kids.any firstB && Check.validB (schema .general adesmaster) 80 (typeName t) o
  | _ => false

def ctxLineB : Elem → Bool
  | .mk n tx [] _ => decide (n ≠ []) && n.all (fun c => !isSpace c) && (match tx with
    | none => true
    | some v => decide (v ≠ [] ∧ strip v = v ∧ '\n' ∉ v ∧ '\r' ∉ v))
  | _ => false

def ctxB (e : Elem) : Bool := ctxLineB e && e.kids.all fun k => ctxLineB k && k.kids.isEmpty

theorem obsB_ok {t : Str} {o : Elem} (h : obsB t o = true) : Cells (validObs Check.lenient) t o := by
  unfold obsB at h
  split at h
  · rename_i t' kids
    simp only [Bool.and_eq_true, decide_eq_true_eq, List.all_eq_true, List.any_eq_true] at h
    obtain ⟨⟨⟨rfl, h2⟩, k, h3, h4⟩, h5⟩ := h
    refine ⟨rfl, Check.validB_sound _ 80 _ _ h5, fun k hk => ?_, k, h3, ?_⟩
    · have := h2 k hk
      unfold cellB at this
      split at this
      · rename_i n v
        simp only [Bool.and_eq_true, decide_eq_true_eq] at this
        exact ⟨v, rfl, this.1, fun hn => this.2 hn⟩
      · simp at this
    · unfold firstB at h4
      simp only [Bool.and_eq_true, decide_eq_true_eq] at h4
      refine ⟨h4.1, ?_⟩
      have h6 := h4.2
      split at h6
      · rename_i c r he
        exact ⟨_, c, he, rfl, fun hl => by rw [letter_iff] at hl; simp [hl] at h6⟩
      · simp at h6
  · simp at h

theorem ctxLineB_ok {e : Elem} (h : ctxLineB e = true) : ContextLine e := by
  unfold ctxLineB at h
  split at h
  · rename_i n tx kids
    simp only [Bool.and_eq_true, decide_eq_true_eq, List.all_eq_true, Bool.not_eq_true'] at h
    refine ⟨h.1, rfl, fun v hv => ?_⟩
    simp only [Elem.text] at hv
    subst hv
    simpa using h.2
  · simp at h

theorem ctxB_ok {e : Elem} (h : ctxB e = true) : ContextTree e := by
  unfold ctxB at h
  simp only [Bool.and_eq_true, List.all_eq_true] at h
  exact ⟨ctxLineB_ok h.1, fun k hk => ⟨ctxLineB_ok (h.2 k hk).1, by simpa using (h.2 k hk).2⟩⟩

/-- `psvDoc` is expressible -/
theorem psvDoc_expressible : Expressible psvKinds (validObs Check.lenient) psvDoc := by
  refine ⟨c! "2022", psvDoc.kids, rfl, by decide, by decide, fun k hk => ?_⟩
  have e : psvDoc.kids = [psvDoc.kids[0], psvDoc.kids[1], psvDoc.kids[2]] := rfl
  rw [e] at hk
  simp only [List.mem_cons, List.not_mem_nil, or_false] at hk
  rcases hk with rfl | rfl | rfl
  · refine .inl ⟨psvDoc.kids[0].kids[0].kids, psvDoc.kids[0].kids[1].kids, by decide +kernel, fun c hc => ctxB_ok ?_, by decide +kernel, ⟨c! "optical", by decide, fun o ho => obsB_ok ?_⟩, rfl⟩
    · exact List.all_eq_true.mp (show psvDoc.kids[0].kids[0].kids.all ctxB = true by decide +kernel) c hc
    · exact List.all_eq_true.mp (show psvDoc.kids[0].kids[1].kids.all (obsB (c! "optical")) = true by decide +kernel) o ho
  · exact .inr ⟨c! "optical", by decide, obsB_ok (by decide +kernel)⟩
  · exact .inr ⟨c! "optical", by decide, obsB_ok (by decide +kernel)⟩

theorem accepted_any (e : Elem) : Accepted ⟨fun _ => true, fun _ => true⟩ e := by
  match e with
  | .mk tag text attrib kids => exact .mk rfl (fun _ _ => rfl) (fun _ _ => ⟨rfl, rfl⟩) fun k hk => accepted_any k
termination_by sizeOf e
decreasing_by
  have := List.sizeOf_lt_of_mem hk
  simp; omega

/-- the hypotheses of C24 are met -/
example : ∃ lines g, xmltopsv adesTables psvDoc = .ok lines ∧ psvtoxml adesTab ⟨fun _ => true, fun _ => true⟩ .initial (fileText lines) = .ok (psvDoc, g) :=
  have ⟨g, h⟩ := C24_roundtrip Check.lenient ⟨fun _ => true, fun _ => true⟩ ⟨rfl, rfl, rfl⟩ psvDoc psvDoc_expressible (accepted_any _) _ psvDoc_lines
  ⟨_, g, psvDoc_lines, h⟩

/-- the other hypothesis of `C24_total` is met, and needed: with two decimal points the conversion fails -/
example : (∀ o ∈ psvDoc.kids.flatMap observationsIn, ∀ k ∈ o.kids, ∀ v, k.text = some v → k.tag ∉ textCols o.tag → v.count '.' ≤ 1) ∧
    xmltopsv adesTables (.mk (c! "ades") none [(c! "version", c! "2022")] [.mk (c! "optical") none [] [leaf (c! "ra") (c! "1.2.3")]]) = .error .runtimeError := by
  refine ⟨?_, by decide +kernel⟩
  have : (psvDoc.kids.flatMap observationsIn).all (fun o => o.kids.all fun k => match k.text with | some v => decide (k.tag ∈ textCols o.tag) || decide (v.count '.' ≤ 1) | none => true) = true := by
    decide +kernel
  intro o ho k hk v hv hn
  have := List.all_eq_true.mp (List.all_eq_true.mp this o ho) k hk
  rw [hv] at this
  simpa [hn] using this

/-- the observations of the first table agree with the formats, those of the second do not -/
example : (∀ o ∈ observationsIn psvDoc.kids[0], FitsFormats (formatsOf adesTables o.tag) o) ∧ ¬ FitsFormats (formatsOf adesTables (c! "optical")) psvDoc.kids[2] := by
  constructor
  · have h : (observationsIn psvDoc.kids[0]).all (fun o => (subDict o).all fun p =>
        (formatsOf adesTables o.tag).all (fun f => decide (f.1 = p.1 → f.2.2.1 = c! "D" → ((p.2.takeWhile (· ≠ '.')).length : Int) < f.2.2.2)) &&
          (decide (p.1 ∈ (formatsOf adesTables o.tag).map (·.1)) || decide ('.' ∉ p.2))) = true := by decide +kernel
    intro o ho n v hv
    rw [← value_eq] at hv
    have := List.all_eq_true.mp (List.all_eq_true.mp h o ho) _ (dictGet_mem' hv)
    simp only [Bool.and_eq_true, List.all_eq_true, decide_eq_true_eq, Bool.or_eq_true] at this
    exact ⟨this.1, fun hn => by rcases this.2 with h | h; exact absurd h hn; exact h⟩
  · intro h
    have := (h (c! "logSNR") (c! "12.3") (by decide +kernel)).1 (c! "logSNR", 4, c! "D", 2) (by decide +kernel) rfl rfl
    revert this
    decide

end Verif
