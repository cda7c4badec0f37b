import Verif.Lemmas.BackNormal
/-
  C39: a file in the 80-column format, converted to ADES and back.
-/
namespace Verif
open Verif.ToMpc80 Verif.Mpc80 Verif.PackUtil Verif.Spec.Mpc80 Verif.Xml
open Verif.Spec hiding Item Group fileText Group.lines contextElem

namespace ToMpc80

theorem each_map {op : Opts} {obs : List Obs} {es : List Elem} (he : Spec.Each Obs.Element obs es) :
    (∀ b ∈ obs, b.Valid ∧ b.Restorable) → (∀ e ∈ es, e.tag = c! "optical") ∧ (obs ≠ [] → es ≠ []) ∧ Writes (each (printData op) (es.map fun e => (e.tag, ToPsv.subDict e))) (obs.flatMap fun b => b.normal.lines) := by
  induction he with
  | nil => exact fun _ => ⟨by simp, by simp, writes_nil⟩
  | @cons b e obs es h1 _ ih =>
    intro h
    obtain ⟨i1, _, i3⟩ := ih fun x hx => h x (by simp [hx])
    obtain ⟨v, r⟩ := h b (by simp)
    refine ⟨?_, by simp, ?_⟩
    · intro x hx
      rcases List.mem_cons.1 hx with rfl | hx
      · obtain ⟨_, _, _, _, rfl⟩ := h1; rfl
      · exact i1 x hx
    · rw [List.flatMap_cons]
      exact (writes_obs v r h1 op).seq i3

theorem flatMap_congr {α β : Type} {f g : α → List β} : ∀ {l : List α}, (∀ x ∈ l, f x = g x) → l.flatMap f = l.flatMap g
  | [], _ => rfl
  | a :: l, h => by rw [List.flatMap_cons, List.flatMap_cons, h a (by simp), flatMap_congr fun x hx => h x (by simp [hx])]

/-- what is written for a group -/
def written (op : Opts) (g : Group) : List Str := if op.noHeader then g.normal.obs.flatMap Obs.lines else g.normal.lines

theorem groups_back {op : Opts} {gs : List Group} {ess : List (List Elem)} (he : Spec.Each (fun g es => Spec.Each Obs.Element g.obs es) gs ess) (h : ∀ g ∈ gs, g.Valid ∧ g.Restorable) :
    ∃ bs : List (List (Str × Str) × List Elem × List Str), bs.map (fun b => (Block.mk b.1 b.2.1).elem) = List.zipWith (fun g es => (Block.mk g.headers es).elem) gs ess ∧
      bs.flatMap (blockLines op) = gs.flatMap (written op) ∧
      ∀ b ∈ bs, (∀ h ∈ b.1, Plain h.2) ∧ (∃ tag ∈ dataTags, ∀ e ∈ b.2.1, e.tag = tag) ∧ b.2.1 ≠ [] ∧ Writes (each (printData op) (b.2.1.map fun e => (e.tag, ToPsv.subDict e))) b.2.2 := by
  induction he with
  | nil => exact ⟨[], rfl, rfl, by simp⟩
  | @cons g es gs ess h1 _ ih =>
    obtain ⟨bs, a1, a2, a3⟩ := ih fun x hx => h x (by simp [hx])
    obtain ⟨v, r⟩ := h g (by simp)
    obtain ⟨m1, m2, m3⟩ := each_map (op := op) h1 fun b hb => ⟨v.obs b hb, r.obs b hb⟩
    refine ⟨(g.headers, es, g.obs.flatMap fun b => b.normal.lines) :: bs, ?_, ?_, ?_⟩
    · simp [a1]
    · rw [List.flatMap_cons, List.flatMap_cons, a2]
      congr 1
      unfold blockLines written Spec.Mpc80.Group.lines Spec.Mpc80.Group.normal
      cases op.noHeader <;> simp [List.flatMap_map, headLine]
    · intro b hb
      rcases List.mem_cons.1 hb with rfl | hb
      · exact ⟨r.headers, ⟨_, by simp [dataTags], m1⟩, m2 v.seen, m3⟩
      · exact a3 b hb

end ToMpc80

/-- C39: the document that a file in the 80-column format stands for (C38) is written back, for every choice of the precision options, as the lines of the
    groups' normal forms (without the header lines if they are not wanted), in order, and nothing else; there are no messages and no exception. -/
theorem C39_document (op : Opts) {gs : List Group} {ess : List (List Elem)} (he : Spec.Each (fun g es => Spec.Each Obs.Element g.obs es) gs ess) (h : ∀ g ∈ gs, g.Valid ∧ g.Restorable) :
    xmltompc80col op Master.adesTables (adesDoc (List.zipWith (fun g es => (Block.mk g.headers es).elem) gs ess)) =
      ⟨gs.flatMap fun g => if op.noHeader then g.normal.obs.flatMap Obs.lines else g.normal.lines, [], none⟩ := by
  obtain ⟨bs, h1, h2, h3⟩ := groups_back (op := op) he h
  rw [← h1, document_back ades_ok h3, h2]
  rfl

/-- C39: a file in the 80-column format is converted to ADES and back to its normal form. -/
theorem C39_file {lx : Lxml} (hn : Names lx) (ht : lx.Accepts (c! "optical") none []) {gs : List Group}
    (h : ∀ g ∈ gs, g.Valid ∧ (∀ b ∈ g.obs, b.Accepted lx) ∧ HeadersOk lx g.headers) (hr : ∀ g ∈ gs, g.Restorable) (nosplit : Bool) (op : Opts) :
    ∃ doc, (mpc80coltoxml lx Sample80.realAllowed nosplit (fileText (gs.flatMap Spec.Mpc80.Group.lines))).doc = some doc ∧
      (mpc80coltoxml lx Sample80.realAllowed nosplit (fileText (gs.flatMap Spec.Mpc80.Group.lines))).raised = none ∧
      xmltompc80col op Master.adesTables doc = ⟨gs.flatMap fun g => if op.noHeader then g.normal.obs.flatMap Obs.lines else g.normal.lines, [], none⟩ := by
  obtain ⟨ess, h1, h2, h3⟩ := C38_file hn ht h nosplit
  exact ⟨_, h2, h3, C39_document op h1 fun g hg => ⟨(h g hg).1, hr g hg⟩⟩

/-- C39: a file in normal form comes back unchanged. -/
theorem C39_unchanged {lx : Lxml} (hn : Names lx) (ht : lx.Accepts (c! "optical") none []) {gs : List Group}
    (h : ∀ g ∈ gs, g.Valid ∧ (∀ b ∈ g.obs, b.Accepted lx) ∧ HeadersOk lx g.headers) (hr : ∀ g ∈ gs, g.Restorable) (hf : ∀ g ∈ gs, g.normal = g) (nosplit : Bool)
    {op : Opts} (ho : op.noHeader = false) :
    ∃ doc, (mpc80coltoxml lx Sample80.realAllowed nosplit (fileText (gs.flatMap Spec.Mpc80.Group.lines))).doc = some doc ∧
      xmltompc80col op Master.adesTables doc = ⟨gs.flatMap Spec.Mpc80.Group.lines, [], none⟩ := by
  obtain ⟨doc, h1, _, h2⟩ := C39_file hn ht h hr nosplit op
  refine ⟨doc, h1, ?_⟩
  rw [h2]
  congr 1
  rw [ho]
  simp only [Bool.false_eq_true, if_false]
  exact flatMap_congr fun g hg => by rw [hf g hg]

/-- C39: the normal form of a group is a normal form, and it can be converted again if one of its header lines has an equivalent in ADES and none became too long. -/
theorem C39_stable {g : Group} (h : g.Valid) (hr : g.Restorable) :
    g.normal.normal = g.normal ∧ g.normal.Restorable ∧ (∀ b ∈ g.normal.obs, b.Valid) ∧
      (g.normal.headers ≠ [] → (∀ x ∈ g.normal.headers, x.2.length ≤ 76) → g.normal.Valid) := by
  have hb : ∀ b ∈ g.obs, b.normal.Valid ∧ b.normal.Restorable ∧ b.normal.normal = b.normal := fun b hb => obs_stable (h.obs b hb) (hr.obs b hb)
  have ho : ∀ b ∈ g.normal.obs, b.Valid := by
    intro b hb'
    obtain ⟨x, hx, rfl⟩ := List.mem_map.1 hb'
    exact (hb x hx).1
  refine ⟨?_, ⟨fun x hx => (headers_plain hr.headers x hx).1, ?_⟩, ho, fun h1 h2 => ⟨h1, fun x hx => ?_, ?_, ho⟩⟩
  · unfold Group.normal
    simp only [headers_stable, List.map_map]
    congr 1
    exact List.map_congr_left fun b hb' => (hb b hb').2.2
  · intro b hb'
    obtain ⟨x, hx, rfl⟩ := List.mem_map.1 hb'
    exact (hb x hx).2.1
  · exact ⟨(headers_plain hr.headers x hx).2, h2 x hx, plain_break (headers_plain hr.headers x hx).1⟩
  · unfold Group.normal; simp [h.seen]

/-- C39: converting a second time changes nothing any more. -/
theorem C39_twice {lx : Lxml} (hn : Names lx) (ht : lx.Accepts (c! "optical") none []) {gs : List Group}
    (h : ∀ g ∈ gs, g.Valid ∧ g.Restorable ∧ g.normal.headers ≠ [] ∧ (∀ x ∈ g.normal.headers, x.2.length ≤ 76))
    (ha : ∀ g ∈ gs, (∀ b ∈ g.normal.obs, b.Accepted lx) ∧ HeadersOk lx g.normal.headers) (nosplit : Bool) {op : Opts} (ho : op.noHeader = false) :
    ∃ doc, (mpc80coltoxml lx Sample80.realAllowed nosplit (fileText (gs.flatMap fun g => g.normal.lines))).doc = some doc ∧
      xmltompc80col op Master.adesTables doc = ⟨gs.flatMap fun g => g.normal.lines, [], none⟩ := by
  have e : (gs.flatMap fun g => g.normal.lines) = (gs.map Group.normal).flatMap Spec.Mpc80.Group.lines := by rw [List.flatMap_map]
  rw [e]
  refine C39_unchanged hn ht ?_ ?_ ?_ nosplit ho
  all_goals
    intro g hg
    obtain ⟨x, hx, rfl⟩ := List.mem_map.1 hg
    obtain ⟨h1, h2, h3, h4⟩ := h x hx
    obtain ⟨s1, s2, _, s4⟩ := C39_stable h1 h2
  · exact ⟨s4 h3 h4, ha x hx⟩
  · exact s2
  · exact s1

/-! ### observatories 275 and 244 -/

theorem special_error {o : Optical} (h : o.Valid) {place : List (Str × Str)} (hp : PlaceNames place) {time ra dec : Str} (hrd : o.Reading time ra dec) (hs : o.stn = c! "275" ∨ o.stn = c! "244") (op : Opts) :
    opticalFirst op (o.values place time ra dec) = .error .keyError := by
  have hd := holds (o := o) hp (time := time) (ra := ra) (dec := dec)
  obtain ⟨pt, pr, pd, a1, a2, a3, a4, a5, a6⟩ := angles h hrd
  obtain ⟨n, n1, n2⟩ := note_back h hd
  have k1 : hasKeyOrVal (o.values place time ra dec) (c! "precTime") op.precTime = Spec.dec (10 ^ (6 - o.date.digits)) := by rw [hasKeyOrVal, hd.precTime]; rfl
  have k2 : hasKeyOrVal (o.values place time ra dec) (c! "precRA") op.precRA = precText o.ra := by rw [hasKeyOrVal, hd.precRA]; rfl
  have k3 : hasKeyOrVal (o.values place time ra dec) (c! "precDec") op.precDec = precText o.dec := by rw [hasKeyOrVal, hd.precDec]; rfl
  have hk : dictGet (o.values place time ra dec) (c! "raStar") = none := by
    have hsub := values_sub (o := o) hp (time := time) (ra := ra) (dec := dec)
    unfold dictGet
    rw [Option.map_eq_none_iff, List.find?_eq_none]
    intro x hx e
    have : x.1 = c! "raStar" := by simpa using e
    have := hsub.subset (List.mem_map.2 ⟨x, List.mem_reverse.1 hx, this⟩)
    revert this
    decide
  have hg : Psv.getItem (o.values place time ra dec) (c! "raStar") = .error .keyError := by simp [Psv.getItem, hk]
  have ha : angleColumns (o.values place time ra dec) (.flt pr) (.flt pd) = .error .keyError := by
    unfold angleColumns
    rw [item_of hd.stn, Sex.okBind]
    rcases hs with e | e
    · rw [if_pos e, hg]; rfl
    · rw [if_neg (by rw [e]; decide), if_pos e, hg]; rfl
  unfold opticalFirst
  rw [id_back h hd, Sex.okBind]
  rw [n1, Sex.okBind, k1, k2, k3, a1, Sex.okBind, a2, Sex.okBind, a3, Sex.okBind, item_of hd.obsTime, Sex.okBind, a4, Sex.okBind, ha]
  rfl

/-- C39, a defect: an observation of observatory 275 or 244, converted to ADES, cannot be converted back: KeyError, and neither it nor anything after it is written. -/
theorem C39_special (op : Opts) {g : Group} {b : Obs} {obs : List Obs} (hg : g.obs = b :: obs) (hb : b.Valid) (hs : b.first.stn = c! "275" ∨ b.first.stn = c! "244") (hp : ∀ h ∈ g.headers, Plain h.2)
    {es : List Elem} (he : Spec.Each Obs.Element g.obs es) :
    xmltompc80col op Master.adesTables (adesDoc [(Block.mk g.headers es).elem]) =
      ⟨if op.noHeader then [] else g.normal.headers.map fun h => h.1 ++ [' '] ++ h.2, [], some .keyError⟩ := by
  have htag : ∀ e ∈ es, e.tag = c! "optical" := by
    clear hg
    generalize g.obs = l at he
    induction he with
    | nil => simp
    | cons h1 _ ih =>
      intro x hx
      rcases List.mem_cons.1 hx with rfl | hx
      · obtain ⟨_, _, _, _, rfl⟩ := h1; rfl
      · exact ih x hx
  rw [hg] at he
  generalize hl : b :: obs = l at he
  cases he with
  | nil => simp at hl
  | @cons b' e _ es h1 _ =>
    obtain ⟨rfl, rfl⟩ := List.cons.inj hl
    obtain ⟨time, ra, dec, hrd, rfl⟩ := h1
    have hf : b.first.Valid := by cases b <;> exact hb.1
    obtain ⟨l, a1, a2⟩ := ades_ok.ades
    have t1 : ∀ hs es, (Block.mk hs es).elem.tag = c! "obsBlock" := fun _ _ => rfl
    have hc : ∀ es', (∀ e ∈ es', e.tag = c! "optical") → es' ≠ [] → processChildren op Master.adesTables none [(Block.mk g.headers es').elem] ⟨[], [], []⟩ =
        .ok () ⟨es'.map fun e => (e.tag, ToPsv.subDict e), if op.noHeader then [] else (normalHeaders g.headers).map headLine, []⟩ := by
      intro es' h1 h2
      rw [processChildren, bindW (liftW (item_of a1)), if_neg (by rw [t1]; exact fun h => h a2), if_pos (t1 _ _), bindW (printDicts_back (s := ⟨[], [], []⟩) (L := []) writes_nil), bindW (block_back ades_ok hp ⟨_, by simp [dataTags], h1⟩ h2 _)]
      simp [processChildren, pure, EStateM.pure]
    have hx : ∀ s : Out, s.dataDicts = (((b.first.elem b.place time ra dec) :: es).map fun e => (e.tag, ToPsv.subDict e)) → printDataDicts op s = .error .keyError s := by
      intro s hs'
      have ht : (b.first.elem b.place time ra dec).tag = c! "optical" := rfl
      simp only [printDataDicts, bind, EStateM.bind, get, getThe, MonadStateOf.get, EStateM.get, hs', List.map_cons, ToMpc80.each, ht]
      rw [dict_values hf (place_good hb).1 (place_good hb).2 hrd]
      have : printData op (c! "optical", b.first.values b.place time ra dec) s = .error .keyError s := by
        unfold printData printOpticalLine
        rw [if_pos (Or.inl rfl)]
        simp only [bind, EStateM.bind, ToMpc80.lift, special_error hf (place_good hb).2 hrd hs op]
      rw [this]
    have e : processAdesElement op Master.adesTables (adesDoc [(Block.mk g.headers (b.first.elem b.place time ra dec :: es)).elem]) ⟨[], [], []⟩ =
        .error .keyError ⟨((b.first.elem b.place time ra dec) :: es).map fun e => (e.tag, ToPsv.subDict e), if op.noHeader then [] else (normalHeaders g.headers).map headLine, []⟩ := by
      unfold processAdesElement
      rw [if_neg (by simp [adesDoc, Elem.tag]), bindW (m := modify fun s => { s with dataDicts := [] }) (a := ()) (s' := ⟨[], [], []⟩) rfl]
      have hkids : (adesDoc [(Block.mk g.headers (b.first.elem b.place time ra dec :: es)).elem]).kids = [(Block.mk g.headers (b.first.elem b.place time ra dec :: es)).elem] := rfl
      rw [hkids, bindW (hc _ htag (by simp))]
      exact hx _ rfl
    unfold xmltompc80col
    rw [e]
    rfl

/-! ### a concrete file -/

namespace Sample80

theorem restorable_group : group.Restorable := by
  constructor
  · intro h hh
    simp [group] at hh
    rcases hh with rfl | rfl | rfl <;> (unfold Plain; decide)
  · intro b hb
    simp only [group, List.mem_cons, List.not_mem_nil, or_false] at hb
    rcases hb with rfl | rfl | rfl
    · exact ⟨by decide, by decide, by show (1229401 : Nat) ≠ 259999; decide⟩
    · exact ⟨by decide, by decide, by show (1229401 : Nat) ≠ 259999; decide⟩
    · exact ⟨⟨by decide, by decide, ⟨by decide, by decide, by decide⟩⟩, ⟨by decide, by decide, by decide⟩, ⟨by decide, by decide, by decide⟩⟩

/-- the lines that come back: the second lines have got the catalogue and the reference of the first ones -/
theorem normal_group : group.normal.lines = [c! "COD F51", c! "OBS A. B, C. D", c! "COM hello",
    c! "     K20Q04A* C2020 08 18.33489021 33 58.060+12 13 25.77         22.58wU~44BVF51",
    c! "     K20Q04A  S2020 08 19.21988321 33 06.41 +11 58 10.3          22.2 Vu~44BVC51",
    c! "     K20Q04A  s2020 08 19.2198831 + 1234.5678 - 2345.6789 + 3456.7890   ~44BVC51",
    c! "00433         V2020 08 19.21988321 33 06.41 -11 58 10.3                u     247",
    c! "00433         v2020 08 19.2198831  12.345678 -01.234567   120          u     247"] := by
  decide +kernel

theorem back (nosplit : Bool) (op : Opts) (ho : op.noHeader = false) :
    ∃ doc, (mpc80coltoxml anyLxml realAllowed nosplit (fileText ([group, group].flatMap Spec.Mpc80.Group.lines))).doc = some doc ∧
      xmltompc80col op Master.adesTables doc = ⟨[group, group].flatMap fun g => g.normal.lines, [], none⟩ := by
  obtain ⟨doc, h1, _, h2⟩ := C39_file any_names (any_accepts _ _) (gs := [group, group]) (by
    intro g hg
    have : g = group := by simpa using hg
    subst this
    exact ⟨valid_group, fun b _ e _ x _ => any_accepts _ _, fun x _ => ⟨any_accepts _ _, fun y _ => any_accepts _ _⟩⟩) (by
    intro g hg
    have : g = group := by simpa using hg
    subst this
    exact restorable_group) nosplit op
  refine ⟨doc, h1, ?_⟩
  rw [h2, ho]
  rfl

/-- and converting a second time changes nothing -/
theorem back_twice (nosplit : Bool) (op : Opts) (ho : op.noHeader = false) :
    ∃ doc, (mpc80coltoxml anyLxml realAllowed nosplit (fileText group.normal.lines)).doc = some doc ∧ xmltompc80col op Master.adesTables doc = ⟨group.normal.lines, [], none⟩ := by
  have := C39_twice any_names (any_accepts _ _) (gs := [group]) (by
    intro g hg
    have : g = group := by simpa using hg
    subst this
    exact ⟨valid_group, restorable_group, by decide, by decide⟩) (by
    intro g _
    exact ⟨fun b _ e _ x _ => any_accepts _ _, fun x _ => ⟨any_accepts _ _, fun y _ => any_accepts _ _⟩⟩) nosplit ho
  simpa using this

/-- the first observation moved to observatory 275: valid, and not restorable -/
def special : Optical := { firstOptical with stn := c! "275" }
theorem valid_special : (Obs.ground special).Valid := by
  refine ⟨⟨valid_first.desig, valid_first.noExt, valid_first.disc, by decide +kernel, valid_first.code, valid_first.date, valid_first.notLate, valid_first.ra, valid_first.dec, valid_first.spare, valid_first.mag,
    valid_first.band, valid_first.cat, valid_first.ref, ⟨by decide, by decide⟩⟩, by decide, by decide⟩
theorem special_aborts (op : Opts) {e : Elem} (he : (Obs.ground special).Element e) {es : List Elem} (hes : Spec.Each Obs.Element group.obs es) :
    xmltompc80col op Master.adesTables (adesDoc [(Block.mk group.headers (e :: es)).elem]) =
      ⟨if op.noHeader then [] else [c! "COD F51", c! "OBS A. B, C. D", c! "COM hello"], [], some .keyError⟩ :=
  C39_special op (g := ⟨group.headers, .ground special :: group.obs⟩) rfl valid_special (Or.inl rfl) restorable_group.headers (.cons he hes)

end Sample80
end Verif
