import Verif.Lemmas.Checked80Doc
/-!
  C52: which 80-column files become valid ADES documents.
-/
namespace Verif
open Verif.Mpc80 Verif.PackUtil Verif.Spec.Mpc80 Verif.Xml
open Verif.Spec hiding Item Group fileText Group.lines
open Verif.Checked (S)

/-- C52: the element an optical observation is converted to is valid under the general schema if and only if the observatory code consists of letters and digits, the right ascension is less than
    24 hours, the declination at most 90 degrees, the magnitude (if any) a number from -5 to 35, without zeros in front, with a letter or digit as band, the catalogue not '6', there is no bar in the reference, and the
    coordinates of a roving observer are numbers without superfluous zeros in front. -/
theorem C52_optical {b : Obs} (h : b.Valid) {e : Elem} (he : b.Element e) : Valid xsd generalSchema (.typed (c! "OpticalType") e) ↔ b.Sound := Checked.obs_iff h he

/-- C52: the element a radar observation is converted to is valid under the general schema if and only if either Doppler shift and uncertainty or delay and uncertainty, and the frequency, are numbers (the former without superfluous zeros in front), the
    object has a designation, the codes consist of letters and digits and there is no bar in the reference. -/
theorem C52_radar {r : Radar} (h : r.Valid) : Valid xsd generalSchema (.typed (c! "RadarType") r.elem) ↔ r.Sound := Checked.radar_iff h

/-- C52: the context header lines are converted to is valid under the general schema if and only if the lines COD, CON, MEA and TEL are there, and what counts says something. -/
theorem C52_context {hs : List (Str × Str)} (hl : ∀ h ∈ hs, h.2.length ≤ 76) : Valid xsd generalSchema (.typed (c! "ObsContextType") (contextElem hs)) ↔ HeadersSound hs :=
  Checked.context_iff fun h hh => Nat.le_trans (hl h hh) (by decide)

/-- **C52.** A file of observations that the 80-column format allows is converted to a document that is valid under the general schema if and only if all of its groups are sound: the header lines are
    complete, the observations can be expressed in ADES, and they are of one kind. -/
theorem C52_file {lx : Lxml} (hn : Names lx) (ht : lx.Accepts (c! "optical") none []) (ht2 : lx.Accepts (c! "radar") none []) (nosplit : Bool) {gs : List RecGroup}
    (h : ∀ g ∈ gs, g.Valid ∧ (∀ b ∈ g.taken nosplit, b.Accepted lx) ∧ HeadersOk lx g.headers) :
    ∃ doc, (mpc80coltoxml lx Sample80.realAllowed nosplit (fileText (gs.flatMap RecGroup.lines))).doc = some doc ∧
      (mpc80coltoxml lx Sample80.realAllowed nosplit (fileText (gs.flatMap RecGroup.lines))).raised = none ∧
      (ValidDocument xsd generalSchema doc ↔ ∀ g ∈ gs, g.Sound nosplit) := by
  obtain ⟨ess, h1, h2, h3⟩ := C43_file hn ht ht2 nosplit h
  exact ⟨_, h2, h3, (Checked.doc_iff Checked.blocks_tag).trans (Checked.file_iff (fun g hg => (h g hg).1) h1)⟩

/-! ### submission -/

namespace Checked

open Verif.Xsd (letters known complex_kids)

theorem sub_kid {T : Str} {e : Elem} (h : Valid xsd submitSchema (.typed T e)) {c : ComplexType} (hc : lookup submitSchema.complex T = some c) (hk : known submitSchema 40 (.seq c.content) = true)
    {k : Elem} (hm : k ∈ e.kids) {t : Str} (ht : ∀ p ∈ letters submitSchema 40 (.seq c.content), p.1 = k.tag → p.2 = t) :
    (∃ p ∈ letters submitSchema 40 (.seq c.content), p.1 = k.tag) ∧ Valid xsd submitSchema (.typed t k) := by
  obtain ⟨-, -, -, -, -, h3⟩ := complex_kids hc hk h
  obtain ⟨t', h4, h5⟩ := h3 k hm
  exact ⟨⟨_, h4, rfl⟩, by rw [← ht _ h4 rfl]; exact h5⟩

/-- the types of sub-elements in the schema for submissions -/
def subTypes (T n t : Str) : Bool := match lookup submitSchema.complex T with
  | some c => known submitSchema 40 (.seq c.content) && (letters submitSchema 40 (.seq c.content)).all fun p => p.1 ≠ n || p.2 = t
  | none => false
def subLacks (T n : Str) : Bool := match lookup submitSchema.complex T with
  | some c => known submitSchema 40 (.seq c.content) && (letters submitSchema 40 (.seq c.content)).all fun p => p.1 ≠ n
  | none => false

theorem sub_typed {T n t : Str} (hT : subTypes T n t = true) {e : Elem} (h : Valid xsd submitSchema (.typed T e)) {k : Elem} (hm : k ∈ e.kids) (hk : k.tag = n) : Valid xsd submitSchema (.typed t k) := by
  unfold subTypes at hT
  split at hT
  · rename_i c hc
    simp only [Bool.and_eq_true, List.all_eq_true, Bool.or_eq_true, decide_eq_true_eq] at hT
    refine (sub_kid h hc hT.1 hm fun p hp e => ?_).2
    exact (hT.2 p hp).resolve_left (fun hne => hne (e.trans hk))
  · cases hT

theorem sub_lacks {T n : Str} (hT : subLacks T n = true) {e : Elem} (h : Valid xsd submitSchema (.typed T e)) {k : Elem} (hm : k ∈ e.kids) : k.tag ≠ n := by
  unfold subLacks at hT
  split at hT
  · rename_i c hc
    simp only [Bool.and_eq_true, List.all_eq_true, decide_eq_true_eq] at hT
    obtain ⟨-, -, -, -, -, h3⟩ := complex_kids hc hT.1 h
    obtain ⟨t', h4, -⟩ := h3 k hm
    exact hT.2 _ h4
  · cases hT

theorem blocks_each {nosplit : Bool} : ∀ {gs : List RecGroup} {ess : List (List Elem)}, Spec.Each (fun g es => Spec.Each Rec.Element (RecGroup.taken g nosplit) es) gs ess → ∀ g ∈ gs,
    ∃ es, Spec.Each Rec.Element (g.taken nosplit) es ∧ (Block.mk g.headers es).elem ∈ List.zipWith (fun g es => (Block.mk g.headers es).elem) gs ess
  | _, _, .nil, _, h => by simp at h
  | _, _, .cons h hs, g, hg => by
    rcases List.mem_cons.1 hg with rfl | hg
    · exact ⟨_, h, by simp⟩
    · obtain ⟨es, h1, h2⟩ := blocks_each hs g hg
      exact ⟨es, h1, by simp [h2]⟩

end Checked

open Checked in
/-- C52: the document made from a file is valid for submission only if there are observations, and all of them are radar observations without reference (and sound): optical observations can never be submitted in
    the form in which they are converted, for it says how they were submitted and how precise they are. -/
theorem C52_submission {lx : Lxml} (hn : Names lx) (ht : lx.Accepts (c! "optical") none []) (ht2 : lx.Accepts (c! "radar") none []) (nosplit : Bool) {gs : List RecGroup}
    (h : ∀ g ∈ gs, g.Valid ∧ (∀ b ∈ g.taken nosplit, b.Accepted lx) ∧ HeadersOk lx g.headers) {doc : Elem}
    (hd : (mpc80coltoxml lx Sample80.realAllowed nosplit (fileText (gs.flatMap RecGroup.lines))).doc = some doc) (hv : ValidDocument xsd submitSchema doc) :
    gs ≠ [] ∧ ∀ g ∈ gs, g.Sound nosplit ∧ ∀ b ∈ g.taken nosplit, ∃ r, b = .radar r ∧ trim r.ref = [] := by
  obtain ⟨ess, h1, h2, -⟩ := C43_file hn ht ht2 nosplit h
  rw [h2] at hd
  cases hd
  obtain ⟨t, h4, h5⟩ := hv
  have : lookup submitSchema.elements (c! "ades") = some t := h4
  rw [Submission.ades_type] at this; cases this
  refine ⟨?_, ?_⟩
  · rintro rfl
    obtain ⟨-, -, w, m1, m2, -⟩ := Xsd.complex_kids (f := 40) Submission.ades_content (by decide +kernel) h5
    have ne : w ≠ [] := by
      obtain ⟨n, -, hw⟩ := Check.needs_sound submitSchema (fun n => n = c! "obsBlock") 40 _ (by decide +kernel) w m1
      rintro rfl
      simp [Check.heads] at hw
    cases h1
    have m2 : Valid xsd submitSchema (.kids w []) := m2
    cases m2
    exact ne rfl
  · intro g hg
    obtain ⟨es, e1, e2⟩ := blocks_each h1 g hg
    have vb := sub_typed (T := c! "ADESType") (n := c! "obsBlock") (t := c! "ObsBlockType") (by decide +kernel) h5 e2 rfl
    refine ⟨(group_iff (h g hg).1 e1).1 (Submission.general_mono vb), ?_⟩
    have vd := sub_typed (T := c! "ObsBlockType") (n := c! "obsData") (t := c! "ObsDataType") (by decide +kernel) vb (k := nodeOf (c! "obsData") es) (by simp [Block.elem, nodeOf, Elem.kids]) rfl
    intro b hb
    obtain ⟨e, he, hr⟩ := each_left e1 b hb
    cases b with
    | optical b =>
      obtain ⟨time, ra, dec, -, rfl⟩ := hr
      have vo := sub_typed (T := c! "ObsDataType") (n := c! "optical") (t := c! "OpticalType") (by decide +kernel) vd he rfl
      refine absurd rfl (sub_lacks (T := c! "OpticalType") (n := c! "subFmt") (by decide +kernel) vo (k := leafOf (c! "subFmt") (c! "M92")) ?_)
      exact List.mem_map.2 ⟨(c! "subFmt", c! "M92"), by simp [Optical.values], rfl⟩
    | radar r =>
      cases hr
      have vo := sub_typed (T := c! "ObsDataType") (n := c! "radar") (t := c! "RadarType") (by decide +kernel) vd he rfl
      refine ⟨r, rfl, Classical.byContradiction fun hne => ?_⟩
      refine absurd rfl (sub_lacks (T := c! "RadarType") (n := c! "ref") (by decide +kernel) vo (k := leafOf (c! "ref") (trim r.ref)) ?_)
      exact List.mem_map.2 ⟨(c! "ref", trim r.ref), by simp [Radar.values, val, hne], rfl⟩

/-! ### files whose conversion is not valid -/

/-- C52: without a line COD, CON, MEA or TEL the document is not valid. -/
theorem C52_header_missing {g : RecGroup} {nosplit : Bool} {k : Str} (hk : k ∈ [c! "COD", c! "CON", c! "MEA", c! "TEL"]) (h : ∀ x ∈ g.headers, x.1 ≠ k) : ¬ g.Sound nosplit := by
  have hf : ∀ v, firstOf k g.headers ≠ some v := by
    intro v e
    obtain ⟨x, hx, -⟩ := Option.map_eq_some_iff.1 e
    have := List.find?_some hx
    exact h x (List.mem_of_find?_eq_some hx) (by simpa using this)
  intro hs
  obtain ⟨⟨v1, h1, -⟩, ⟨v2, h2, -⟩, ⟨v3, h3, -⟩, ⟨v4, h4, -⟩, -, -⟩ := hs.headers
  simp only [List.mem_cons, List.not_mem_nil, or_false] at hk
  rcases hk with rfl | rfl | rfl | rfl
  · exact hf _ h1
  · exact hf _ h2
  · exact hf _ h3
  · exact hf _ h4

/-- C52: optical and radar observations below the same header lines: the document is not valid. -/
theorem C52_mixed {g : RecGroup} {nosplit : Bool} {a b : Rec} (ha : a ∈ g.recs) (hb : b ∈ g.recs) (h : a.isRadar ≠ b.isRadar) : ¬ g.Sound nosplit := by
  intro hs
  rcases hs.kind with k | k
  · exact h ((k a ha).trans (k b hb).symm)
  · exact h ((k a ha).trans (k b hb).symm)

namespace Checked

theorem trim_nil_iff {t : Str} : trim t = [] ↔ ∀ c ∈ t, c = ' ' := by
  have drop : ∀ {l : Str}, l.dropWhile (· = ' ') = [] ↔ ∀ c ∈ l, c = ' ' := by
    intro l
    induction l with
    | nil => simp
    | cons c l ih => by_cases h : c = ' ' <;> simp [h, ih]
  have pre : ∀ {l : Str}, (∀ c ∈ l.dropWhile (· = ' '), c = ' ') ↔ ∀ c ∈ l, c = ' ' := by
    intro l
    induction l with
    | nil => simp
    | cons c l ih => by_cases h : c = ' ' <;> simp [h, ih]
  unfold trim
  rw [List.reverse_eq_nil_iff, drop]
  simp only [List.mem_reverse]
  exact pre

end Checked

/-- C52: a radar observation of both delay and Doppler shift: the element is not valid, unless it is split. -/
theorem C52_both {r : Radar} (h : r.both) : ¬ r.Sound := by
  intro hs
  rcases hs.measured with ⟨-, -, h1, -⟩ | ⟨-, -, h1, -⟩
  · exact h.1 (Checked.trim_nil_iff.2 fun c hc => Checked.trim_nil_iff.1 h1 c ((List.drop_sublist _ _).subset hc))
  · exact h.2 (Checked.trim_nil_iff.2 fun c hc => Checked.trim_nil_iff.1 h1 c ((List.take_sublist _ _).subset hc))

/-- C52: a radar observation whose frequency is blank: the element is not valid. -/
theorem C52_blank_frequency {r : Radar} (h : r.frq = c! "      ") : ¬ r.Sound := by
  intro hs
  have := hs.frq
  rw [show trim (withPoint 5 r.frq) = ['.'] by rw [h]; decide] at this
  obtain ⟨n, ⟨-, h2, -, h4⟩, he, h5, -⟩ := this
  obtain ⟨s, w, f⟩ := n
  simp only at h5 h4 h2
  subst h5
  cases w with
  | cons c w =>
    cases f with
    | none => simp [Numeral.text] at he; obtain ⟨rfl, rfl⟩ := he; exact absurd h2 (by decide)
    | some f => simp [Numeral.text] at he
  | nil =>
    cases f with
    | none => simp [Numeral.text] at he
    | some f =>
      simp [Numeral.text] at he
      subst he
      simp at h4

/-- C52: a magnitude, coordinate or measurement with a superfluous zero in front is not a number for ADES. -/
theorem C52_zero {k : Nat} {c : Char} {v : Str} (hc : c ∈ "0123456789".toList) : ¬ Magnitude ('0' :: c :: v) ∧ ¬ Signed k ('0' :: c :: v) ∧ ¬ PositiveNumber k ('0' :: c :: v) := by
  have go : ∀ n : Numeral, Spec.Plain n → '0' :: c :: v ≠ n.text := by
    rintro ⟨s, w, f⟩ ⟨⟨h1, h2, h3, h4⟩, h5⟩ he
    simp only at h1 h2 h3 h4 h5
    cases s with
    | some s =>
      simp only [Numeral.text, Option.toList_some, List.cons_append, List.nil_append, List.cons.injEq] at he
      rcases h1 s rfl with rfl | rfl <;> exact absurd he.1 (by decide)
    | none =>
      cases w with
      | nil => cases f <;> simp [Numeral.text] at he
      | cons d w =>
        simp only [Numeral.text, Option.toList_none, List.nil_append, List.cons_append, List.cons.injEq] at he
        obtain ⟨rfl, he⟩ := he
        have := h5 rfl
        simp only [List.cons.injEq, true_and] at this
        subst this
        cases f with
        | none => simp at he
        | some f =>
          simp at he
          rw [he.1] at hc
          exact absurd hc (by decide)
  exact ⟨fun ⟨n, h1, h2, _⟩ => go n h1 h2, fun ⟨n, h1, h2, _⟩ => go n h1 h2, fun ⟨n, h1, h2, _⟩ => go n h1 h2⟩

/-! ### concrete files -/

namespace Sample80

theorem first_sound : firstOptical.Sound := by
  refine ⟨by unfold Alnum; decide, by decide +kernel, by decide +kernel, .inr ⟨⟨⟨none, c! "22", some (c! "58")⟩, ⟨⟨by simp, by decide, by simp, .inl (by simp)⟩, by decide⟩, by decide, by decide, by decide, by decide +kernel, by decide +kernel⟩, .inr ?_⟩, by decide, by decide +kernel⟩
  unfold Alnum; decide

theorem sat_sound : satOptical.Sound := by
  refine ⟨by unfold Alnum; decide, by decide +kernel, by decide +kernel, .inr ⟨⟨⟨none, c! "22", some (c! "2")⟩, ⟨⟨by simp, by decide, by simp, .inl (by simp)⟩, by decide⟩, by decide, by decide, by decide, by decide +kernel, by decide +kernel⟩, .inr ?_⟩, by decide, by decide +kernel⟩
  unfold Alnum; decide
theorem rover_sound : roverOptical.Sound :=
  ⟨by unfold Alnum; decide, by decide +kernel, by decide +kernel, .inl (by decide), by decide, by decide +kernel⟩
/-- the coordinates without zeros in front -/
def roverPlace : Rover := { roverCoords with lat := c! " -1.234567" }
theorem valid_roverPlace : (Obs.rover roverOptical roverPlace).Valid := by
  obtain ⟨h1, h2, h3, h4⟩ := valid_roving
  exact ⟨h1, h2, h3, { h4 with lat := ⟨by decide, by decide⟩ }⟩

theorem signed_of {k : Nat} {v : Str} (n : Numeral) (h : Spec.Plain n) (e : v = n.text) (hw : n.whole ≠ []) (hk : width n ≤ k) : Signed k v := ⟨n, h, e, hw, hk⟩

theorem rover_place_sound : (Obs.rover roverOptical roverPlace).Sound :=
  ⟨rover_sound, signed_of ⟨none, c! "12", some (c! "345678")⟩ ⟨⟨by simp, by decide, by simp, .inl (by simp)⟩, by decide⟩ (by decide) (by simp) (by decide),
    signed_of ⟨some '-', c! "1", some (c! "234567")⟩ ⟨⟨by simp, by decide, by simp, .inl (by simp)⟩, by decide⟩ (by decide) (by simp) (by decide),
    signed_of ⟨none, c! "120", none⟩ ⟨⟨by simp, by decide, by simp, .inl (by simp)⟩, by decide⟩ (by decide) (by simp) (by decide)⟩

theorem delay_sound : radar.delayPart.Sound :=
  ⟨fun t => by simp [Radar.delayPart, radar], by unfold Alnum; decide, by unfold Alnum; decide,
    .inr ⟨⟨⟨none, c! "153", some (c! "0123456789")⟩, ⟨⟨by simp, by decide, by simp, .inl (by simp)⟩, by decide⟩, by decide +kernel, by decide, by simp, by decide, by decide +kernel, by decide +kernel⟩,
      ⟨⟨none, c! "1", some (c! "250")⟩, ⟨⟨by simp, by decide, by simp, .inl (by simp)⟩, by decide⟩, by decide +kernel, by decide, by simp, by decide, by decide +kernel, by decide +kernel⟩, by decide +kernel, by decide +kernel⟩,
    ⟨⟨none, c! "02380", some (c! "0")⟩, ⟨by simp, by decide, by simp, .inl (by simp)⟩, by decide +kernel, by decide, by decide, by decide +kernel⟩, by decide⟩
theorem doppler_sound : radar.dopplerPart.Sound :=
  ⟨fun t => by simp [Radar.dopplerPart, radar], by unfold Alnum; decide, by unfold Alnum; decide,
    .inl ⟨signed_of ⟨some '-', c! "1234", some (c! "567")⟩ ⟨⟨by simp, by decide, by simp, .inl (by simp)⟩, by decide⟩ (by decide +kernel) (by simp) (by decide),
      ⟨⟨none, c! "0", some (c! "500")⟩, ⟨⟨by simp, by decide, by simp, .inl (by simp)⟩, by decide⟩, by decide +kernel, by decide, by simp, by decide, by decide +kernel, by decide +kernel⟩, by decide +kernel, by decide +kernel⟩,
    ⟨⟨none, c! "02380", some (c! "0")⟩, ⟨by simp, by decide, by simp, .inl (by simp)⟩, by decide +kernel, by decide, by decide, by decide +kernel⟩, by decide⟩

def soundHeaders : List (Str × Str) := [(c! "COD", c! "F51"), (c! "CON", c! "A. B, Somewhere 1"), (c! "OBS", c! "A. B, C. D"), (c! "MEA", c! "C. D"), (c! "TEL", c! "1.8-m f/4.4"), (c! "ACK", c! "x"), (c! "COM", c! "hello")]

theorem headers_sound : HeadersSound soundHeaders := by
  refine ⟨⟨c! "F51", rfl, by decide, by decide, by unfold Alnum; decide⟩, ⟨_, rfl, fun h => absurd (by decide) h, fun _ => ⟨⟨by decide, 'A', by decide, by decide⟩, by decide, 'S', by decide, by decide⟩⟩,
    ⟨_, rfl, ?_⟩, ⟨_, rfl, by decide, '1', by decide, by decide⟩, ?_, ?_⟩
  · intro n hn
    have : n ∈ [c! "C. D"] := hn
    simp only [List.mem_singleton] at this
    subst this
    exact ⟨by decide, 'C', by decide, by decide⟩
  · intro v hv n hn
    have : some (c! "A. B, C. D") = some v := hv
    cases this
    have : n ∈ [c! "A. B", c! " C. D"] := hn
    simp only [List.mem_cons, List.not_mem_nil, or_false] at this
    rcases this with rfl | rfl
    · exact ⟨by decide, 'A', by decide, by decide⟩
    · exact ⟨by decide, 'C', by decide, by decide⟩
  · intro h hh hc
    have : ∀ h ∈ soundHeaders, h.1 = c! "COM" → h.2 = c! "hello" := by decide
    rw [this h hh hc]
    exact ⟨by decide, 'h', by decide, by decide⟩

def soundGroups : List RecGroup :=
  [⟨soundHeaders, [.optical (.ground firstOptical), .optical (.spacecraft satOptical satCoords), .optical (.rover roverOptical roverPlace)]⟩, ⟨soundHeaders, [.radar radar]⟩]

theorem sound_valid : ∀ g ∈ soundGroups, g.Valid := by
  have hh : ∀ h ∈ soundHeaders, h.1 ∈ headerWords ∧ h.2.length ≤ 76 ∧ noBreak h.2 := by unfold noBreak; decide
  intro g hg
  simp only [soundGroups, List.mem_cons, List.not_mem_nil, or_false] at hg
  rcases hg with rfl | rfl
  · refine ⟨by simp [soundHeaders], hh, by simp, ?_⟩
    intro b hb
    simp only [List.mem_cons, List.not_mem_nil, or_false] at hb
    rcases hb with rfl | rfl | rfl
    · exact valid_ground
    · exact valid_space
    · exact valid_roverPlace
  · refine ⟨by simp [soundHeaders], hh, by simp, ?_⟩
    intro b hb
    simp only [List.mem_singleton] at hb
    subst hb; exact valid_radar

theorem sound_sound : ∀ g ∈ soundGroups, g.Sound false := by
  intro g hg
  simp only [soundGroups, List.mem_cons, List.not_mem_nil, or_false] at hg
  rcases hg with rfl | rfl
  · refine ⟨headers_sound, ?_, .inr ?_⟩
    · intro b hb
      have : b ∈ [Rec.optical (.ground firstOptical), .optical (.spacecraft satOptical satCoords), .optical (.rover roverOptical roverPlace)] := hb
      simp only [List.mem_cons, List.not_mem_nil, or_false] at this
      rcases this with rfl | rfl | rfl
      · exact first_sound
      · exact sat_sound
      · exact rover_place_sound
    · intro b hb
      simp only [List.mem_cons, List.not_mem_nil, or_false] at hb
      rcases hb with rfl | rfl | rfl <;> rfl
  · refine ⟨headers_sound, ?_, .inl ?_⟩
    · intro b hb
      have e : RecGroup.taken ⟨soundHeaders, [.radar radar]⟩ false = [.radar radar.delayPart, .radar radar.dopplerPart] := by
        have : radar.split = [radar.delayPart, radar.dopplerPart] := if_pos (by decide +kernel)
        simp [RecGroup.taken, Rec.split, this]
      rw [e] at hb
      simp only [List.mem_cons, List.not_mem_nil, or_false] at hb
      rcases hb with rfl | rfl
      · exact delay_sound
      · exact doppler_sound
    · intro b hb
      simp only [List.mem_singleton] at hb
      subst hb; rfl

/-- a file of two groups is converted to a valid document; without splitting it is not -/
theorem sound_file : (∃ doc, (mpc80coltoxml anyLxml realAllowed false (fileText (soundGroups.flatMap RecGroup.lines))).doc = some doc ∧ ValidDocument xsd generalSchema doc) ∧
    ∃ doc, (mpc80coltoxml anyLxml realAllowed true (fileText (soundGroups.flatMap RecGroup.lines))).doc = some doc ∧ ¬ ValidDocument xsd generalSchema doc := by
  have hyp : ∀ nosplit, ∀ g ∈ soundGroups, g.Valid ∧ (∀ b ∈ g.taken nosplit, b.Accepted anyLxml) ∧ HeadersOk anyLxml g.headers := fun nosplit g hg =>
    ⟨sound_valid g hg, fun b _ e _ x _ => any_accepts _ _, fun x _ => ⟨any_accepts _ _, fun y _ => any_accepts _ _⟩⟩
  obtain ⟨d1, h1, -, h2⟩ := C52_file any_names (any_accepts _ _) (any_accepts _ _) false (hyp false)
  obtain ⟨d2, h3, -, h4⟩ := C52_file any_names (any_accepts _ _) (any_accepts _ _) true (hyp true)
  refine ⟨⟨d1, h1, h2.2 sound_sound⟩, d2, h3, fun hv => ?_⟩
  have := h4.1 hv ⟨soundHeaders, [.radar radar]⟩ (by simp [soundGroups])
  exact C52_both (by decide +kernel) (this.recs (.radar radar) (by simp [RecGroup.taken]))

def unreferenced : Radar := { radar.delayPart with ref := c! "      " }
theorem valid_unreferenced : unreferenced.Valid := { delayPart_valid valid_radar with ref := ⟨by decide, by unfold Mpc80.Plain; decide⟩ }
def submitGroup : RecGroup := ⟨soundHeaders, [.radar unreferenced]⟩

/-- a file of a radar observation without reference is converted to a document that is valid for submission -/
theorem submit_file : ∃ doc, (mpc80coltoxml anyLxml realAllowed true (fileText ([submitGroup].flatMap RecGroup.lines))).doc = some doc ∧ ValidDocument xsd submitSchema doc := by
  obtain ⟨ess, h1, h2, -⟩ := C43_file any_names (any_accepts _ _) (any_accepts _ _) true (gs := [submitGroup]) (by
    intro g hg
    cases List.mem_singleton.1 hg
    refine ⟨⟨by simp [submitGroup, soundHeaders], (sound_valid _ (List.mem_cons_self)).headers, by simp [submitGroup], ?_⟩, fun b _ e _ x _ => any_accepts _ _, fun x _ => ⟨any_accepts _ _, fun y _ => any_accepts _ _⟩⟩
    intro b hb
    cases List.mem_singleton.1 hb
    exact valid_unreferenced)
  refine ⟨_, h2, ?_⟩
  cases h1 with
  | cons a b =>
    cases b
    cases a with
    | cons a b =>
      cases b
      cases a
      exact ⟨c! "ADESType", Submission.ades_type, Xsd.isValid_sound (f := 80) (by decide +kernel)⟩

end Sample80

end Verif
