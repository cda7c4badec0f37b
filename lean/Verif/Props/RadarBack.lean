import Verif.Lemmas.RadarBack
/-
  C45: radar observations, converted to ADES and back.
-/
namespace Verif
open Verif.ToMpc80 Verif.Mpc80 Verif.PackUtil Verif.Spec.Mpc80 Verif.Xml
open Verif.Spec hiding Item Group fileText Group.lines contextElem

namespace ToMpc80

/-- the tag of the elements for such an observation -/
def kindTag (radar : Bool) : Str := if radar then c! "radar" else c! "optical"

theorem writes_rec {b : Rec} (h : b.Valid) (hr : b.Restorable) {e : Elem} (he : b.Element e) (op : Opts) :
    e.tag = kindTag b.isRadar ∧ ∃ ls, b.Back ls ∧ Writes (printData op (e.tag, ToPsv.subDict e)) ls := by
  cases b with
  | optical b =>
    refine ⟨?_, _, rfl, writes_obs h hr he op⟩
    obtain ⟨_, _, _, _, rfl⟩ := he; rfl
  | radar r =>
    have he : e = r.elem := he
    subst he
    obtain ⟨d, h1, h2⟩ := writes_radar h hr.points (restorable_ref hr).1 (restorable_ref hr).2 op
    exact ⟨rfl, _, ⟨d, h1, rfl⟩, h2⟩

theorem writes_recs {op : Opts} {k : Bool} {bs : List Rec} {es : List Elem} (he : Spec.Each Rec.Element bs es) :
    (∀ b ∈ bs, b.Valid ∧ b.Restorable ∧ b.isRadar = k) → (∀ e ∈ es, e.tag = kindTag k) ∧ (bs ≠ [] → es ≠ []) ∧
      ∃ parts, Spec.Each Rec.Back bs parts ∧ Writes (each (printData op) (es.map fun e => (e.tag, ToPsv.subDict e))) parts.flatten := by
  induction he with
  | nil => exact fun _ => ⟨by simp, by simp, [], .nil, writes_nil⟩
  | @cons b e bs es h1 _ ih =>
    intro h
    obtain ⟨i1, _, parts, i3, i4⟩ := ih fun x hx => h x (by simp [hx])
    obtain ⟨v, r, k1⟩ := h b (by simp)
    obtain ⟨w1, ls, w2, w3⟩ := writes_rec v r h1 op
    refine ⟨?_, by simp, ls :: parts, .cons w2 i3, ?_⟩
    · intro x hx
      rcases List.mem_cons.1 hx with rfl | hx
      · rw [w1, k1]
      · exact i1 x hx
    · rw [List.flatten_cons]
      exact w3.seq i4

theorem split_rec {b x : Rec} (hx : x ∈ b.split) (v : b.Valid) (r : b.Restorable) : x.Valid ∧ x.Restorable ∧ x.isRadar = b.isRadar := by
  cases b with
  | optical b => simp [Rec.split] at hx; subst hx; exact ⟨v, r, rfl⟩
  | radar q =>
    obtain ⟨y, hy, rfl⟩ := List.mem_map.1 hx
    exact ⟨split_valid v y hy, split_restorable r y hy, rfl⟩

theorem split_ne (b : Rec) : b.split ≠ [] := by
  cases b with
  | optical b => simp [Rec.split]
  | radar r => simp only [Rec.split, Radar.split, ne_eq, List.map_eq_nil_iff]; split <;> simp

theorem taken_kind {g : RecGroup} (v : g.Valid) (r : g.Restorable) (nosplit : Bool) : g.taken nosplit ≠ [] ∧ ∃ k, ∀ b ∈ g.taken nosplit, b.Valid ∧ b.Restorable ∧ b.isRadar = k := by
  have hk : ∃ k, ∀ b ∈ g.recs, b.isRadar = k := by
    rcases r.kind with h | h
    · exact ⟨true, h⟩
    · exact ⟨false, h⟩
  obtain ⟨k, hk⟩ := hk
  unfold RecGroup.taken
  cases nosplit with
  | true => exact ⟨v.seen, k, fun b hb => ⟨v.recs b hb, r.recs b hb, hk b hb⟩⟩
  | false =>
    simp only [Bool.false_eq_true, if_false]
    refine ⟨?_, k, ?_⟩
    · cases hg : g.recs with
      | nil => exact absurd hg v.seen
      | cons b bs => simp [split_ne]
    · intro x hx
      obtain ⟨b, hb, hx⟩ := List.mem_flatMap.1 hx
      obtain ⟨h1, h2, h3⟩ := split_rec hx (v.recs b hb) (r.recs b hb)
      exact ⟨h1, h2, h3.trans (hk b hb)⟩

theorem kind_tag (k : Bool) : kindTag k ∈ dataTags := by cases k <;> decide

theorem rec_groups_back {op : Opts} {nosplit : Bool} {gs : List RecGroup} {ess : List (List Elem)} (he : Spec.Each (fun g es => Spec.Each Rec.Element (RecGroup.taken g nosplit) es) gs ess)
    (h : ∀ g ∈ gs, g.Valid ∧ g.Restorable) :
    ∃ (bs : List (List (Str × Str) × List Elem × List Str)) (lss : List (List Str)),
      bs.map (fun b => (Block.mk b.1 b.2.1).elem) = List.zipWith (fun g es => (Block.mk g.headers es).elem) gs ess ∧
      Spec.Each (RecGroup.Back op.noHeader nosplit) gs lss ∧ bs.flatMap (blockLines op) = lss.flatten ∧
      ∀ b ∈ bs, (∀ h ∈ b.1, Plain h.2) ∧ (∃ tag ∈ dataTags, ∀ e ∈ b.2.1, e.tag = tag) ∧ b.2.1 ≠ [] ∧ Writes (each (printData op) (b.2.1.map fun e => (e.tag, ToPsv.subDict e))) b.2.2 := by
  induction he with
  | nil => exact ⟨[], [], rfl, .nil, rfl, by simp⟩
  | @cons g es gs ess h1 _ ih =>
    obtain ⟨bs, lss, a1, a2, a3, a4⟩ := ih fun x hx => h x (by simp [hx])
    obtain ⟨v, r⟩ := h g (by simp)
    obtain ⟨t1, k, t2⟩ := taken_kind v r nosplit
    obtain ⟨m1, m2, parts, m3, m4⟩ := writes_recs (op := op) h1 t2
    refine ⟨(g.headers, es, parts.flatten) :: bs, (headersBack op.noHeader g.headers ++ parts.flatten) :: lss, by simp [a1], .cons ⟨parts, m3, rfl⟩ a2, ?_, ?_⟩
    · rw [List.flatMap_cons, List.flatten_cons, a3]
      rfl
    · intro b hb
      rcases List.mem_cons.1 hb with rfl | hb
      · exact ⟨r.headers, ⟨_, kind_tag k, m1⟩, m2 t1, m4⟩
      · exact a4 b hb

end ToMpc80

/-- C45: the document that a file with optical and radar observations stands for (C43) - each group of observations all of one kind - is written back: for each group
    the header lines (if they are wanted), then the lines of every observation in order: for an optical observation those of its normal form, for a radar observation
    its two lines with all numbers in their columns and the date that is nearest to the second.  There are no messages and no exception. -/
theorem C45_document (op : Opts) (nosplit : Bool) {gs : List RecGroup} {ess : List (List Elem)} (he : Spec.Each (fun g es => Spec.Each Rec.Element (RecGroup.taken g nosplit) es) gs ess)
    (h : ∀ g ∈ gs, g.Valid ∧ g.Restorable) :
    ∃ lss : List (List Str), Spec.Each (RecGroup.Back op.noHeader nosplit) gs lss ∧
      xmltompc80col op Master.adesTables (adesDoc (List.zipWith (fun g es => (Block.mk g.headers es).elem) gs ess)) = ⟨lss.flatten, [], none⟩ := by
  obtain ⟨bs, lss, h1, h2, h3, h4⟩ := rec_groups_back (op := op) he h
  exact ⟨lss, h2, by rw [← h1, document_back ades_ok h4, h3]⟩

/-- C45: a file with optical and radar observations is converted to ADES and back to these lines. -/
theorem C45_file {lx : Lxml} (hn : Names lx) (ht : lx.Accepts (c! "optical") none []) (ht2 : lx.Accepts (c! "radar") none []) (nosplit : Bool) {gs : List RecGroup}
    (h : ∀ g ∈ gs, g.Valid ∧ (∀ b ∈ g.taken nosplit, b.Accepted lx) ∧ HeadersOk lx g.headers) (hr : ∀ g ∈ gs, g.Restorable) (op : Opts) :
    ∃ doc lss, (mpc80coltoxml lx Sample80.realAllowed nosplit (fileText (gs.flatMap RecGroup.lines))).doc = some doc ∧
      (mpc80coltoxml lx Sample80.realAllowed nosplit (fileText (gs.flatMap RecGroup.lines))).raised = none ∧
      Spec.Each (RecGroup.Back op.noHeader nosplit) gs lss ∧ xmltompc80col op Master.adesTables doc = ⟨lss.flatten, [], none⟩ := by
  obtain ⟨ess, h1, h2, h3⟩ := C43_file hn ht ht2 nosplit h
  obtain ⟨lss, k1, k2⟩ := C45_document op nosplit h1 fun g hg => ⟨(h g hg).1, hr g hg⟩
  exact ⟨_, lss, h2, h3, k1, k2⟩

/-- C45: a date with six digits comes back as it was. -/
theorem C45_date {r : Radar} (h : r.Valid) (h6 : r.date.digits = 6) (d : ObsDate) : r.Redated d ↔ d = r.date := by
  refine ⟨redated_same h h6, ?_⟩
  obtain ⟨d', h1, _⟩ := redated h
  rintro rfl
  exact redated_same h h6 h1 ▸ h1

/-- C45: radar observations in the form in which they are written come back as they were. -/
theorem C45_unchanged {r : Radar} (h : r.Valid) (hr : r.Restorable) (hn : r.Normal) (ls : List Str) : (Rec.radar r).Back ls ↔ ls = r.lines := by
  have e : r.normal r.date = r := by
    obtain ⟨b1, b2, b3, b4, b5⟩ := hn.blank
    have hs : plusSign r.doppler = r.doppler := by
      unfold plusSign
      rw [if_neg]
      rintro ⟨h1, h2⟩
      exact h2 (hn.sign h1)
    have hl := h.ref.1
    have href : ' ' :: trim r.ref = r.ref := by
      cases hx : r.ref with
      | nil => rw [hx] at hl; simp at hl
      | cons c t =>
        have hc := hn.ref.1
        have h5 := hr.ref.1
        rw [hx] at hl hc h5
        simp at hc
        subst hc
        rw [trim_blank] at h5 ⊢
        obtain ⟨i, j, e⟩ := trim_split t
        have := congrArg List.length e
        simp at this hl
        have i0 : i = 0 := by omega
        have j0 : j = 0 := by omega
        rw [i0, j0] at e
        simp at e
        rw [← e]
    have b6 := hn.ref.2
    unfold Radar.normal
    rw [hs, href]
    clear hn h hr
    obtain ⟨⟩ := r
    simp only at *
    rw [b1, b2, b3, b4, b5, b6]
    rfl
  constructor
  · rintro ⟨d, h1, rfl⟩
    rw [redated_same h hn.digits h1, e]
  · rintro rfl
    exact ⟨r.date, (C45_date h hn.digits r.date).2 rfl, by rw [e]⟩

/-! ### what does not come back -/

namespace ToMpc80

theorem rec_tag {b : Rec} {e : Elem} (he : b.Element e) : e.tag = kindTag b.isRadar := by
  cases b with
  | optical b => obtain ⟨_, _, _, _, rfl⟩ := he; rfl
  | radar r => have he : e = r.elem := he; subst he; rfl

theorem kind_ne {a b : Bool} (h : a ≠ b) : kindTag a ≠ kindTag b := by revert h; cases a <;> cases b <;> decide

theorem rec_tags {bs : List Rec} {es : List Elem} (he : Spec.Each Rec.Element bs es) : es.map Elem.tag = bs.map fun b => kindTag b.isRadar := by
  induction he with
  | nil => rfl
  | cons h _ ih => rw [List.map_cons, List.map_cons, ih, rec_tag h]

theorem each_split {α β : Type} {R : α → β → Prop} {a : List α} {x : α} {b : List α} {l : List β} (h : Spec.Each R (a ++ x :: b) l) :
    ∃ l1 y l2, l = l1 ++ y :: l2 ∧ Spec.Each R a l1 ∧ R x y ∧ Spec.Each R b l2 := by
  induction a generalizing l with
  | nil =>
    rw [List.nil_append] at h
    cases h with
    | cons h1 h2 => exact ⟨[], _, _, rfl, .nil, h1, h2⟩
  | cons c a ih =>
    rw [List.cons_append] at h
    cases h with
    | cons h1 h2 =>
      obtain ⟨l1, y, l2, rfl, k1, k2, k3⟩ := ih h2
      exact ⟨_ :: l1, y, l2, rfl, .cons h1 k1, k2, k3⟩

end ToMpc80

/-- C45, a defect: observations of both kinds in one group are converted to a document that cannot be converted back: a RuntimeError; written are the groups before it and
    the header lines of this group, nothing of its observations and nothing of what follows. -/
theorem C45_mixed (op : Opts) (nosplit : Bool) {gs : List RecGroup} {ess : List (List Elem)} (he : Spec.Each (fun g es => Spec.Each Rec.Element (RecGroup.taken g nosplit) es) gs ess)
    (h : ∀ g ∈ gs, g.Valid ∧ g.Restorable) {g : RecGroup} (hp : ∀ x ∈ g.headers, Plain x.2) {k : Bool} {first rest : List Rec} {b : Rec} (hb : g.taken nosplit = first ++ b :: rest) (hne : first ≠ [])
    (hk : ∀ x ∈ first, x.isRadar = k) (hx : b.isRadar ≠ k) {es : List Elem} (hes : Spec.Each Rec.Element (g.taken nosplit) es) (more : List Elem) :
    ∃ lss : List (List Str), Spec.Each (RecGroup.Back op.noHeader nosplit) gs lss ∧
      xmltompc80col op Master.adesTables (adesDoc (List.zipWith (fun g es => (Block.mk g.headers es).elem) gs ess ++ (Block.mk g.headers es).elem :: more)) =
        ⟨lss.flatten ++ headersBack op.noHeader g.headers, [], some .runtimeError⟩ := by
  obtain ⟨bs, lss, h1, h2, h3, h4⟩ := rec_groups_back (op := op) he h
  rw [hb] at hes
  obtain ⟨l1, y, l2, rfl, e1, e2, e3⟩ := each_split hes
  have ht : ∀ e ∈ l1, e.tag = kindTag k := by
    intro e he
    have : e.tag ∈ l1.map Elem.tag := List.mem_map.2 ⟨e, he, rfl⟩
    rw [rec_tags e1] at this
    obtain ⟨x, hx, e⟩ := List.mem_map.1 this
    rw [← e, hk x hx]
  have hne' : l1 ≠ [] := by
    rintro rfl
    cases e1
    exact hne rfl
  refine ⟨lss, h2, ?_⟩
  rw [← h1, document_mixed ades_ok h4 hp (kind_tag k) ht hne' (by rw [rec_tag e2]; exact kind_ne hx) more, h3]
  rfl

/-- C45, a defect: a radar observation without reference is converted to a document that cannot be converted back: KeyError; written is what comes before it, nothing of
    the observation and nothing of what follows. -/
theorem C45_no_reference (op : Opts) (nosplit : Bool) {gs : List RecGroup} {ess : List (List Elem)} (he : Spec.Each (fun g es => Spec.Each Rec.Element (RecGroup.taken g nosplit) es) gs ess)
    (h : ∀ g ∈ gs, g.Valid ∧ g.Restorable) {g : RecGroup} (hp : ∀ x ∈ g.headers, Plain x.2) {first rest : List Rec} {r : Radar} (hb : g.taken nosplit = first ++ .radar r :: rest)
    (hf : ∀ x ∈ first, x.Valid ∧ x.Restorable) (hk : ∀ x ∈ g.taken nosplit, x.isRadar = true) (hr : r.Valid)
    (hq : '.' ∉ r.delay ∧ '.' ∉ r.doppler ∧ '.' ∉ r.frq ∧ '.' ∉ r.rmsDelay ∧ '.' ∉ r.rmsDoppler) (href : trim r.ref = [])
    {es : List Elem} (hes : Spec.Each Rec.Element (g.taken nosplit) es) (more : List Block) :
    ∃ (lss : List (List Str)) (parts : List (List Str)), Spec.Each (RecGroup.Back op.noHeader nosplit) gs lss ∧ Spec.Each Rec.Back first parts ∧
      xmltompc80col op Master.adesTables (adesDoc (List.zipWith (fun g es => (Block.mk g.headers es).elem) gs ess ++ (Block.mk g.headers es).elem :: more.map Block.elem)) =
        ⟨lss.flatten ++ headersBack op.noHeader g.headers ++ parts.flatten, [], some .keyError⟩ := by
  obtain ⟨bs, lss, h1, h2, h3, h4⟩ := rec_groups_back (op := op) he h
  have ht : ∀ e ∈ es, e.tag = kindTag true := by
    intro e he
    have : e.tag ∈ es.map Elem.tag := List.mem_map.2 ⟨e, he, rfl⟩
    rw [rec_tags hes] at this
    obtain ⟨x, hx, e⟩ := List.mem_map.1 this
    rw [← e, hk x hx]
  rw [hb] at hes
  obtain ⟨l1, y, l2, rfl, e1, e2, e3⟩ := each_split hes
  have e2 : y = r.elem := e2
  subst e2
  obtain ⟨_, _, parts, m3, m4⟩ := writes_recs (op := op) (k := true) e1 fun x hx => ⟨(hf x hx).1, (hf x hx).2, hk x (by rw [hb]; simp [hx])⟩
  refine ⟨lss, parts, h2, m3, ?_⟩
  have := document_stopped ades_ok h4 hp ⟨_, kind_tag true, ht⟩ m4 (radar_noref hr hq href op) (more.map fun b => (b.headers, b.data))
  rw [h1, h3, List.map_map] at this
  exact this

/-- C45, a defect: the lines are not moved to the reference columns: with a reference of other than five characters they have other than 80 columns, and the receiver stands
    elsewhere than in columns 78-80. -/
theorem C45_misaligned (op : Opts) {r : Radar} (h : r.Valid) (hq : '.' ∉ r.delay ∧ '.' ∉ r.doppler ∧ '.' ∉ r.frq ∧ '.' ∉ r.rmsDelay ∧ '.' ∉ r.rmsDoppler) (href : trim r.ref ≠ []) {p : Str}
    (hpr : packRef (trim r.ref) = .ok p) {hs : List (Str × Str)} (hp : ∀ x ∈ hs, Plain x.2) :
    ∃ l1 l2, xmltompc80col op Master.adesTables (adesDoc [(Block.mk hs [r.elem]).elem]) = ⟨headersBack op.noHeader hs ++ [l1, l2], [], none⟩ ∧
      l1.length = 75 + (trim r.ref).length ∧ l2.length = 75 + (trim r.ref).length ∧ l1.drop (72 + (trim r.ref).length) = r.rcv ∧ l2.drop (72 + (trim r.ref).length) = r.rcv := by
  obtain ⟨d, h1, h2⟩ := writes_radar h hq href hpr op
  have hw : Writes (each (printData op) ([r.elem].map fun e => (e.tag, ToPsv.subDict e))) (r.normal d).lines := by
    have := h2.seq (f := fun _ => pure ()) writes_nil
    rw [List.append_nil] at this
    exact this
  have := document_back ades_ok (op := op) (bs := [(hs, [r.elem], (r.normal d).lines)]) (by
    intro b hb
    simp only [List.mem_singleton] at hb
    subst hb
    exact ⟨hp, ⟨c! "radar", by decide, by intro e he; simp at he; subst he; rfl⟩, by simp, hw⟩)
  refine ⟨(r.normal d).first, (r.normal d).second, ?_, ?_⟩
  · rw [show [(Block.mk hs [r.elem]).elem] = [(hs, [r.elem], (r.normal d).lines)].map fun b => (Block.mk b.1 b.2.1).elem from rfl, this, List.flatMap_singleton]
    rfl
  · have hd : d.column.length = 17 := by
      have hv : d.Valid := by
        have o := h.date
        obtain ⟨⟨y, m, dd⟩, ⟨n, f⟩, _⟩ := h1
        unfold ObsDate.Valid at o ⊢
        rw [y, m, dd, n]
        exact ⟨o.1, o.2.1, o.2.2.1, o.2.2.2.1, o.2.2.2.2.1, o.2.2.2.2.2.1, by omega, by omega, by simpa using f⟩
      exact date_length hv
    have lp : (plusSign r.doppler).length = 15 := by
      have l := doppler_length h
      unfold plusSign
      split
      · simp [l]
      · exact l
    have k1 : (r.desig.columns ++ [' ', ' ', 'R'] ++ d.column ++ r.delay ++ plusSign r.doppler ++ r.frq ++ r.trx ++ ' ' :: trim r.ref).length = 72 + (trim r.ref).length := by
      simp [columns_length h.desig, hd, lp, h.delay.1, h.frq.1, h.trx.1]; omega
    have k2 : (r.desig.columns ++ [' ', ' ', 'r'] ++ d.column ++ [if r.com then 'C' else 'S'] ++ r.rmsDelay ++ r.rmsDoppler ++ List.replicate 6 ' ' ++ r.trx ++ ' ' :: trim r.ref).length = 72 + (trim r.ref).length := by
      simp [columns_length h.desig, hd, h.rmsDelay.1, h.rmsDoppler.1, h.trx.1]; omega
    have f1 : (r.normal d).first = (r.desig.columns ++ [' ', ' ', 'R'] ++ d.column ++ r.delay ++ plusSign r.doppler ++ r.frq ++ r.trx ++ ' ' :: trim r.ref) ++ r.rcv := rfl
    have f2 : (r.normal d).second = (r.desig.columns ++ [' ', ' ', 'r'] ++ d.column ++ [if r.com then 'C' else 'S'] ++ r.rmsDelay ++ r.rmsDoppler ++ List.replicate 6 ' ' ++ r.trx ++ ' ' :: trim r.ref) ++ r.rcv := rfl
    rw [f1, f2]
    refine ⟨?_, ?_, ?_, ?_⟩
    · rw [List.length_append, k1, h.rcv.1]; omega
    · rw [List.length_append, k2, h.rcv.1]; omega
    · rw [← k1, List.drop_left]
    · rw [← k2, List.drop_left]

/-! ### a concrete file -/

namespace Sample80

theorem restorable_radar : radar.Restorable := ⟨by decide, by decide⟩
theorem normal_radar : radar.Normal := ⟨rfl, by decide, by decide, by decide⟩

/-- an observation without sign, with asterisk, note and a date with four digits; its reference has columns 72-76 -/
def radar2 : Radar := { radar with date := ⟨1975, 1, 22, 4, 1234⟩, disc := '*', note := 'K', doppler := c! "       1234567 ", ref := c! "JPLRS ", frq2 := c! "123   ", ref2 := c! "      " }

theorem valid_radar2 : radar2.Valid :=
  { valid_radar with
    date := by simp [radar2, radar, ObsDate.Valid, monthDays]
    whole := ⟨by decide +kernel, by decide +kernel, by decide +kernel⟩
    disc := by decide
    note := by unfold noteAt; decide +kernel
    doppler := ⟨by unfold Digits; decide +kernel, ' ', by decide, by decide⟩
    ref := ⟨by decide, by unfold Plain; decide⟩
    frq2 := by unfold Digits; decide +kernel
    ref2 := ⟨by decide, by decide, by decide⟩ }
theorem restorable_radar2 : radar2.Restorable := ⟨by decide, by decide⟩

def onlyRadar : RecGroup := ⟨[(c! "COD", c! "252"), (c! "COM", c! "radar")], [.radar radar, .radar radar2]⟩

theorem valid_onlyRadar : onlyRadar.Valid := by
  refine ⟨by decide, ?_, by simp [onlyRadar], ?_⟩
  · intro x hx
    simp [onlyRadar] at hx
    rcases hx with rfl | rfl <;> exact ⟨by decide, by decide, by decide, by decide⟩
  · intro b hb
    simp [onlyRadar] at hb
    rcases hb with rfl | rfl
    · exact valid_radar
    · exact valid_radar2

theorem restorable_onlyRadar : onlyRadar.Restorable := by
  refine ⟨?_, ?_, Or.inl ?_⟩
  · intro x hx
    simp [onlyRadar] at hx
    rcases hx with rfl | rfl <;> (unfold Plain; decide)
  · intro b hb
    simp [onlyRadar] at hb
    rcases hb with rfl | rfl
    · exact restorable_radar
    · exact restorable_radar2
  · intro b hb
    simp [onlyRadar] at hb
    rcases hb with rfl | rfl <;> rfl

/-- the lines that come back -/
theorem radar_back {op : Opts} (ho : op.noHeader = false) : ∃ doc, (mpc80coltoxml anyLxml realAllowed true (fileText onlyRadar.lines)).doc = some doc ∧
    xmltompc80col op Master.adesTables doc = ⟨[c! "COD 252", c! "COM radar",
     c! "00433         R1975 01 22.250000  1530123456789-      1234567 023800251 JPLRS252",
     c! "00433         r1975 01 22.250000C         1250           0500       251 JPLRS252",
     c! "00433         R1975 01 22.123403  1530123456789+      1234567 023800251 JPLRS252",
     c! "00433         r1975 01 22.123403C         1250           0500       251 JPLRS252"], [], none⟩ := by
  obtain ⟨doc, lss, h1, _, h3, h4⟩ := C45_file any_names (any_accepts _ _) (any_accepts _ _) true (gs := [onlyRadar]) (by
    intro g hg
    simp only [List.mem_singleton] at hg
    subst hg
    exact ⟨valid_onlyRadar, fun b _ e _ x _ => any_accepts _ _, fun x _ => ⟨any_accepts _ _, fun y _ => any_accepts _ _⟩⟩) (by
    intro g hg
    simp only [List.mem_singleton] at hg
    subst hg
    exact restorable_onlyRadar) op
  refine ⟨doc, by simpa using h1, ?_⟩
  rw [h4]
  cases h3 with
  | cons a b =>
    cases b
    obtain ⟨parts, p1, rfl⟩ := a
    cases p1 with
    | cons x1 y1 =>
      cases y1 with
      | cons x2 y2 =>
        cases y2
        have x1 := (C45_unchanged valid_radar restorable_radar normal_radar _).1 x1
        subst x1
        obtain ⟨d, hd, rfl⟩ := x2
        have e : d = ⟨1975, 1, 22, 6, 123403⟩ := by
          obtain ⟨⟨e1, e2, e3⟩, ⟨e4, _⟩, n1, n2⟩ := hd
          have en : nearestSecond radar2.date = 10662 := by decide +kernel
          rw [en] at n1 n2
          push_cast at n1 n2
          have q1 : (d.frac : ℚ) < 123404 := by linarith
          have q2 : (123402 : ℚ) < d.frac := by linarith
          have q1 : d.frac < 123404 := by exact_mod_cast q1
          have q2 : 123402 < d.frac := by exact_mod_cast q2
          obtain ⟨y, m, dd, n, f⟩ := d
          simp only at e1 e2 e3 e4 q1 q2
          rw [e1, e2, e3, e4, show f = 123403 by omega]
          rfl
        subst e
        rw [ho]
        refine congrArg (fun l => (⟨l, [], none⟩ : ToMpc80.Outcome)) ?_
        decide +kernel

/-- the group of `C43_file` has both kinds -/
example : radarGroup.taken true = [.radar radar] ++ .optical (.ground firstOptical) :: [.radar radar] ∧ (Rec.optical (.ground firstOptical)).isRadar ≠ true := ⟨rfl, by decide⟩

/-- without reference -/
example : ({ radar with ref := c! "      " } : Radar).Valid ∧ trim ({ radar with ref := c! "      " } : Radar).ref = [] :=
  ⟨{ valid_radar with ref := ⟨by decide, by unfold Plain; decide⟩ }, by decide⟩

/-- with a reference of six characters -/
example : ({ radar with ref := c! "JPLRS1" } : Radar).Valid ∧ packRef (trim ({ radar with ref := c! "JPLRS1" } : Radar).ref) = .ok (c! "PLRS1") :=
  ⟨{ valid_radar with ref := ⟨by decide, by unfold Plain; decide⟩ }, by decide +kernel⟩

end Sample80

end Verif
