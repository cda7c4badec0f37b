import Verif.Lemmas.Written80
/-!
  C40: what a document written in 80 columns consists of.

  The specification is `Spec.Written80`: a document's outcome in terms of the outcomes of its observations converted alone and of the header
  lines of its contexts.
-/
namespace Verif
open Verif.ToMpc80 Verif.Xml Verif.PackUtil Verif.Spec

/-- the conversion of a document that has a single observation -/
def alone (o : Opts) (e : Elem) : Outcome := xmltompc80col o Master.adesTables (adesOf [e])

theorem alone_record {o : Opts} {e : Elem} (h : e.tag ∈ rootKinds) : alone o e = recordOut o e := by
  unfold alone
  rw [document_run ades_kinds o rfl (fun c hc => by
    have : c = e := by simpa [adesOf, Elem.kids] using hc
    exact .inr (this ▸ h))]
  have : (adesOf [e]).kids = [e] := rfl
  rw [this, List.flatMap_cons, List.flatMap_nil, List.append_nil, childOut, if_neg (root_not_block h), joined_one]

theorem block_sub {t : Str} (h : t ∈ blockKinds) : t ∈ rootKinds := List.mem_append_left _ h

/-- the outcomes of which a child of the root consists: for a block those of its header lines (unless they are not wanted) and of its observations,
    for an observation its own -/
def partOut (o : Opts) (c : Elem) : List Outcome :=
  if c.tag = c! "obsBlock" then ⟨if o.noHeader then [] else (contextsOf c).flatMap headerLines, [], none⟩ :: (observationsOf c).map (alone o) else [alone o c]

theorem part_child {o : Opts} {c : Elem} (h : WellBlock c ∨ c.tag ∈ rootKinds) : childOut o (recordOut o) c = partOut o c := by
  unfold childOut partOut
  split
  · rename_i hb
    rcases h with h | h
    · obtain ⟨t, t1, t2⟩ := h.kind
      congr 1
      exact List.map_congr_left fun e he => (alone_record (by rw [t2 e he]; exact block_sub t1)).symm
    · exact absurd hb (root_not_block h)
  · rename_i hb
    rcases h with h | h
    · exact absurd h.tag hb
    · rw [alone_record h]

/-- **C40.** In every document whose root is `ades` and whose children are blocks (with observations, all of one kind) and observations, the file that is
    written consists of the header lines of each block, followed by the lines that each of its observations gives when it is converted
    alone, and of those of the observations outside blocks, all in the order of the document, nothing else; the first observation whose conversion fails ends
    the conversion with its exception, and everything up to there remains. -/
theorem C40_document (o : Opts) (root : Elem) (hr : root.tag = c! "ades") (h : ∀ c ∈ root.kids, WellBlock c ∨ c.tag ∈ rootKinds) :
    xmltompc80col o Master.adesTables root = joined (root.kids.flatMap (partOut o)) := by
  rw [document_run ades_kinds o hr h]
  congr 1
  generalize root.kids = ks at h
  induction ks with
  | nil => rfl
  | cons c ks ih => rw [List.flatMap_cons, List.flatMap_cons, part_child (h c (by simp)), ih fun x hx => h x (by simp [hx])]

theorem joined_all {rs : List Outcome} (h : ∀ r ∈ rs, r.raised = none) : joined rs = ⟨rs.flatMap Outcome.lines, rs.flatMap Outcome.msgs, none⟩ := by
  induction rs with
  | nil => rfl
  | cons r rs ih =>
    rw [joined, ih fun x hx => h x (by simp [hx]), if_pos (h r (by simp))]
    rfl

/-- **C40.** If no observation fails alone, the conversion does not fail, and the lines are all the header lines and all lines of the observations. -/
theorem C40_complete (o : Opts) (root : Elem) (hr : root.tag = c! "ades") (h : ∀ c ∈ root.kids, WellBlock c ∨ c.tag ∈ rootKinds)
    (ok : ∀ e ∈ observations root, (alone o e).raised = none) :
    (xmltompc80col o Master.adesTables root).raised = none ∧
    (xmltompc80col o Master.adesTables root).lines = root.kids.flatMap fun c =>
      if c.tag = c! "obsBlock" then (if o.noHeader then [] else (contextsOf c).flatMap headerLines) ++ (observationsOf c).flatMap fun e => (alone o e).lines
      else (alone o c).lines := by
  have hall : ∀ r ∈ root.kids.flatMap (partOut o), r.raised = none := by
    intro r hr
    obtain ⟨c, hc, hr⟩ := List.mem_flatMap.1 hr
    unfold partOut at hr
    split at hr
    · rename_i hb
      rcases List.mem_cons.1 hr with rfl | hr
      · rfl
      · obtain ⟨e, he, rfl⟩ := List.mem_map.1 hr
        exact ok e (List.mem_flatMap.2 ⟨c, hc, by rw [if_pos (show c.tag = "obsBlock".toList from hb)]; exact he⟩)
    · rename_i hb
      have : r = alone o c := by simpa using hr
      rw [this]
      exact ok c (List.mem_flatMap.2 ⟨c, hc, by rw [if_neg (show ¬ c.tag = "obsBlock".toList from hb)]; simp⟩)
  rw [C40_document o root hr h, joined_all hall]
  refine ⟨rfl, ?_⟩
  show (root.kids.flatMap (partOut o)).flatMap Outcome.lines = _
  rw [List.flatMap_assoc]
  congr 1
  funext c
  unfold partOut
  split
  · simp [List.flatMap_cons, List.flatMap_map]
  · simp

/-- **C40.** The order in which things are written does not depend on the options; without header lines exactly the lines of the observations remain. -/
theorem C40_no_header (o : Opts) (ho : o.noHeader = true) (root : Elem) (hr : root.tag = c! "ades") (h : ∀ c ∈ root.kids, WellBlock c ∨ c.tag ∈ rootKinds)
    (ok : ∀ e ∈ observations root, (alone o e).raised = none) :
    (xmltompc80col o Master.adesTables root).lines = (observations root).flatMap fun e => (alone o e).lines := by
  rw [(C40_complete o root hr h ok).2]
  unfold observations
  rw [List.flatMap_assoc]
  congr 1
  funext c
  rw [ho]
  by_cases hb : c.tag = c! "obsBlock"
  · simp only [hb, if_true, List.nil_append]; rfl
  · have hb' : ¬ c.tag = "obsBlock".toList := hb
    rw [if_neg hb, if_neg hb']; simp

/-- **C40.** Observations that the 80-column format does not have (offsets and residuals) give a message and no line, and are no error. -/
theorem C40_unsupported (o : Opts) (e : Elem) (h : e.tag = c! "offset" ∨ e.tag = c! "opticalResidual" ∨ e.tag = c! "radarResidual") :
    alone o e = ⟨[], [e.tag], none⟩ := by
  have hk : e.tag ∈ rootKinds := by
    rcases h with h | h | h <;> (rw [h]; decide)
  rw [alone_record hk]
  unfold recordOut printData
  have h1 : ¬ (e.tag = c! "optical" ∨ e.tag = c! "occultation") := by rcases h with h | h | h <;> (rw [h]; decide)
  have h2 : ¬ (e.tag = c! "radar") := by rcases h with h | h | h <;> (rw [h]; decide)
  simp only [h1, h2, if_false]
  rfl

/-- **C40.** Occultations are written as optical observations. -/
theorem C40_occultation (o : Opts) (t : Option Str) (a : Attrib) (kids : List Elem) : alone o (.mk (c! "occultation") t a kids) = alone o (.mk (c! "optical") t a kids) := by
  rw [alone_record (e := .mk (c! "occultation") t a kids) (show c! "occultation" ∈ rootKinds by decide),
    alone_record (e := .mk (c! "optical") t a kids) (show c! "optical" ∈ rootKinds by decide)]
  rfl

/-- **C40.** Another root is refused, and nothing is written. -/
theorem C40_root (o : Opts) (root : Elem) (h : root.tag ≠ c! "ades") : xmltompc80col o Master.adesTables root = ⟨[], [], some .runtimeError⟩ := by
  unfold xmltompc80col processAdesElement
  rw [if_pos h]; rfl

/-- what a block does when other children follow -/
theorem rest_block {o : Opts} {last : Option Str} {c : Elem} {ks es : List Elem} {s : Out} {R : Outcome} (hc : c.tag = c! "obsBlock")
    (hk : ∀ d ∈ c.kids, d.tag = c! "obsContext" ∨ d.tag = c! "obsData") (ho : ∃ t ∈ blockKinds, ∀ e ∈ observationsOf c, e.tag = t) (hs : s.dataDicts = es.map dictOf)
    (h : ∀ s' : Out, s'.dataDicts = (if observationsOf c = [] then es else observationsOf c).map dictOf → ∃ ds, rest o Master.adesTables (some (c! "obsBlock")) ks s' = res' s' ds R) :
    ∃ ds, rest o Master.adesTables last (c :: ks) s =
      res' s ds (joined [joined (es.map (recordOut o)), joined [⟨if o.noHeader then [] else (contextsOf c).flatMap headerLines, [], none⟩, R]]) := by
  obtain ⟨l, a1, a2, a3⟩ := ades_kinds.ades
  obtain ⟨t, t1, t2⟩ := ho
  have e0 : rest o Master.adesTables last (c :: ks) s = (printDataDicts o >>= fun _ => (processObsBlock o Master.adesTables none c.kids >>= fun _ => rest o Master.adesTables (some (c! "obsBlock")) ks)) s := by
    unfold rest
    rw [processChildren]
    simp only [bind_assoc]
    rw [bindW (liftW (item_of a1)), if_neg (by rw [hc]; exact fun hx => hx a2), if_pos hc]
    simp only [bind_assoc]
  rw [e0]
  refine bind_res' (gives_dicts hs) fun s' hs' => ?_
  have hrun : processObsBlock o Master.adesTables none c.kids s' = .ok () ⟨if observationsOf c = [] then s'.dataDicts else (observationsOf c).map dictOf,
    s'.out ++ (if o.noHeader then [] else (contextsOf c).flatMap headerLines), s'.msgs⟩ := (block_run ades_kinds o t1 c.kids hk t2).2 s'
  obtain ⟨ds, hr⟩ := h ⟨if observationsOf c = [] then s'.dataDicts else (observationsOf c).map dictOf,
    s'.out ++ (if o.noHeader then [] else (contextsOf c).flatMap headerLines), s'.msgs⟩ (by
      rw [hs', hs]; split <;> rfl)
  refine ⟨ds, ?_⟩
  rw [bindW hrun]
  refine hr.trans ?_
  rw [joined, joined_one]
  simp only [if_true, List.nil_append]
  unfold res' res
  cases R.raised <;> simp [List.append_assoc]

/-- A defect: a block without observations repeats the observations of the block before it, under its own header lines. -/
theorem C40_empty_block_repeats (o : Opts) (b c : Elem) (hb : WellBlock b) (hc : c.tag = c! "obsBlock")
    (hk : ∀ d ∈ c.kids, d.tag = c! "obsContext" ∨ d.tag = c! "obsData") (he : observationsOf c = []) :
    xmltompc80col o Master.adesTables (adesOf [b, c]) = joined (partOut o b ++ partOut o c ++ (observationsOf b).map (alone o)) := by
  have hmap : (observationsOf b).map (recordOut o) = (observationsOf b).map (alone o) := by
    obtain ⟨t, t1, t2⟩ := hb.kind
    exact List.map_congr_left fun e he => (alone_record (by rw [t2 e he]; exact block_sub t1)).symm
  obtain ⟨ds, h1⟩ := rest_block (o := o) (last := none) (c := b) (ks := [c]) (es := []) (s := ⟨[], [], []⟩) hb.tag hb.kids hb.kind rfl
    (fun s' hs' => rest_block (o := o) (last := some (c! "obsBlock")) (es := observationsOf b) (ks := []) hc hk ⟨c! "optical", by decide, by simp [he]⟩
      (by rw [hs', if_neg hb.seen]) (fun s'' hs'' => ⟨s''.dataDicts, by
        rw [if_pos he] at hs''
        simp only [rest, processChildren, pure_bind]
        exact gives_dicts hs''⟩))
  have e : processAdesElement o Master.adesTables (adesOf [b, c]) ⟨[], [], []⟩ = rest o Master.adesTables none [b, c] ⟨[], [], []⟩ := by
    unfold processAdesElement
    rw [if_neg (fun hx => hx rfl)]
    rfl
  unfold xmltompc80col
  rw [e, h1]
  have hj : ∀ (a : Outcome) (x y : List Outcome), joined [joined x, joined [a, joined y]] = joined (x ++ a :: y) := by
    intro a x y
    rw [joined_append x, show a :: y = [a] ++ y from rfl, joined_append [a], joined_one]
  rw [hmap, List.map_nil, hj _ ((observationsOf b).map (alone o)) ((observationsOf b).map (alone o)), hj, show ([] : List Outcome) ++ _ = _ from List.nil_append _]
  have hp : partOut o b ++ partOut o c ++ (observationsOf b).map (alone o) =
      ⟨if o.noHeader then [] else (contextsOf b).flatMap headerLines, [], none⟩ :: ((observationsOf b).map (alone o) ++
        ⟨if o.noHeader then [] else (contextsOf c).flatMap headerLines, [], none⟩ :: (observationsOf b).map (alone o)) := by
    unfold partOut
    rw [if_pos (show b.tag = c! "obsBlock" from hb.tag), if_pos hc, he]
    simp
  rw [hp]
  generalize joined (_ :: _) = r
  obtain ⟨l, m, x⟩ := r
  cases x <;> simp [res', res]

namespace SampleWritten
def fld (n t : String) : Elem := .mk n.toList (some t.toList) [] []
def node (n : String) (kids : List Elem) : Elem := .mk n.toList none [] kids
def obs (id : String) : Elem := node "optical" [fld "permID" id, fld "mode" "CCD", fld "stn" "F51", fld "obsTime" "2016-08-29T12:23:34.12Z", fld "ra" "215.10254",
  fld "dec" "-12.547", fld "astCat" "2MASS", fld "mag" "21.91", fld "band" "Rc"]
def context (obsrv : String) : Elem := node "obsContext" [node "observatory" [fld "mpcCode" "F51"], node "submitter" [fld "name" "J. Doe", fld "institution" "IfA"],
  node "observers" [fld "name" obsrv, fld "name" "B. Roe"]]
def block (x : String) (es : List Elem) : Elem := node "obsBlock" [context x, node "obsData" es]

/-- the hypotheses are met by a document of two blocks and an observation outside blocks -/
example : ∀ c ∈ (adesOf [block "A" [obs "1234", obs "5"], obs "6", block "C" [node "radar" []]]).kids, WellBlock c ∨ c.tag ∈ rootKinds := by
  intro c hc
  have : c = block "A" [obs "1234", obs "5"] ∨ c = obs "6" ∨ c = block "C" [node "radar" []] := by simpa [adesOf, Elem.kids] using hc
  rcases this with rfl | rfl | rfl
  · exact .inl ⟨rfl, by intro d hd; simp [block, node, Elem.kids] at hd; rcases hd with rfl | rfl; exacts [.inl rfl, .inr rfl],
      by decide +kernel, ⟨c! "optical", by decide, by decide +kernel⟩⟩
  · exact .inr (by decide +kernel)
  · exact .inl ⟨rfl, by intro d hd; simp [block, node, Elem.kids] at hd; rcases hd with rfl | rfl; exacts [.inl rfl, .inr rfl],
      by decide +kernel, ⟨c! "radar", by decide, by decide +kernel⟩⟩

/-- and such a document is written like this -/
theorem C40_sample : (xmltompc80col {} Master.adesTables (adesOf [block "A. Poe" [obs "1234", obs "5"], obs "6", block "C. Moe" [node "offset" []]])).lines =
    [c! "COD F51", c! "CON J. Doe, IfA", c! "OBS A. Poe, B. Roe",
     c! "01234         C2016 08 29.51636714 20 24.610-12 32 49.20         21.91RL     F51", c! "00005         C2016 08 29.51636714 20 24.610-12 32 49.20         21.91RL     F51",
     c! "00006         C2016 08 29.51636714 20 24.610-12 32 49.20         21.91RL     F51", c! "COD F51", c! "CON J. Doe, IfA", c! "OBS C. Moe, B. Roe"] := by
  decide +kernel
theorem C40_sample_messages : (xmltompc80col {} Master.adesTables (adesOf [block "A. Poe" [obs "1234", obs "5"], obs "6", block "C. Moe" [node "offset" []]])).msgs = [c! "offset"] := by
  decide +kernel
/-- the defect: the two observations are written twice -/
theorem C40_sample_repeats : ((xmltompc80col {} Master.adesTables (adesOf [block "A. Poe" [obs "1234", obs "5"], block "C. Moe" []])).lines.map fun l => l.take 5) =
    [c! "COD F", c! "CON J", c! "OBS A", c! "01234", c! "00005", c! "COD F", c! "CON J", c! "OBS C", c! "01234", c! "00005"] := by
  decide +kernel
end SampleWritten
end Verif
