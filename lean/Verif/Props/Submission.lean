import Verif.Lemmas.Submission
import Verif.Lemmas.SimpleCheck
import Verif.Spec.Submission
import Verif.Props.XmlToPsv
import Verif.Props.Schema
/-!
  C50: documents that are valid for submission, written as PSV.
-/
namespace Verif
open Verif.Xml Verif.Spec Verif.Spec.Xsd Verif.Psv Verif.Master Verif.ToPsv Verif.Xsd

/-- the schema for submissions -/
abbrev submitSchema : Schema := schema .submit adesmaster
/-- the general schema -/
abbrev generalSchema : Schema := schema .general adesmaster
/-- XML Schema's meaning of types and facets.  (The types are based on the same built-in types in both schemas.) -/
abbrev xsd : Facets := standard generalSchema

namespace Submission

/-! ### content models -/

theorem part_ref {S : Schema} {r : Str} {o m : Bool} {w : List Letter'} (h : Matches S (.part (.elemRef r o m)) w) :
    (∀ l ∈ w, ∃ T, lookup S.elements r = some T ∧ l = some (r, T)) ∧ (o = false → w ≠ []) := by
  generalize hx : What.part (.elemRef r o m) = x at h
  induction h with
  | skip e => cases hx; exact ⟨by simp, fun c => by simp [Particle.opt, c] at e⟩
  | once h ih =>
    cases hx
    cases h with
    | ref e => exact ⟨fun l hl => ⟨_, e, by simpa using hl⟩, by simp⟩
  | more _ h _ _ ih =>
    cases hx
    cases h with
    | ref e =>
      refine ⟨fun l hl => ?_, by simp⟩
      simp only [List.singleton_append, List.mem_cons] at hl
      rcases hl with rfl | hl
      · exact ⟨_, e, rfl⟩
      · exact (ih rfl).1 l hl
  | _ => cases hx

theorem part_ref_one {S : Schema} {r T : Str} {w : List Letter'} (hl : lookup S.elements r = some T) (h : Matches S (.part (.elemRef r false false)) w) : w = [some (r, T)] := by
  cases h with
  | skip e => simp [Particle.opt] at e
  | once h => cases h with
    | ref e => rw [hl] at e; cases e; rfl
  | more e => simp [Particle.many] at e

theorem seq_one {S : Schema} {p : Particle} {w : List Letter'} (h : Matches S (.seq [p]) w) : Matches S (.part p) w := by
  cases h with
  | cons h1 h2 => cases h2; simpa using h1

theorem part_once {S : Schema} {p : Particle} {w : List Letter'} (ho : p.opt = false) (hm : p.many = false) (h : Matches S (.part p) w) : Matches S (.one p) w := by
  cases h with
  | skip e => simp [ho] at e
  | once h => exact h
  | more e => simp [hm] at e

/-! ### the content models that are needed -/

theorem ades_type : lookup submitSchema.elements (c! "ades") = some (c! "ADESType") := by kernel_rfl
theorem ades_content : lookup submitSchema.complex (c! "ADESType") = some ⟨[.choice true [.elemRef (c! "obsBlock") false false]], [⟨c! "version", c! "VersionType", true⟩]⟩ := by kernel_rfl
theorem block_content : lookup submitSchema.complex (c! "ObsBlockType") =
    some ⟨[.seq false [.elemRef (c! "obsContext") false false, .elemRef (c! "obsData") false false]], []⟩ := by kernel_rfl
theorem data_content : lookup submitSchema.complex (c! "ObsDataType") = some ⟨[.choice false (psvKinds.map fun t => .elemRef t false true)], []⟩ := by kernel_rfl
theorem block_kids : lookup submitSchema.elements (c! "obsContext") = some (c! "ObsContextType") ∧ lookup submitSchema.elements (c! "obsData") = some (c! "ObsDataType") :=
  ⟨by kernel_rfl, by kernel_rfl⟩

/-- the content of a type -/
def contentOf (T : Str) : List Particle := ((lookup submitSchema.complex T).map (·.content)).getD []

/-- every complex type has no attributes -/
def noAttributes (T : Str) : Bool := ((lookup submitSchema.complex T).map fun c => c.attributes.isEmpty).getD false

/-- what is computed about the fields of observations -/
def fieldOk (t : Str) (p : Str × Str) : Bool :=
  (lookup submitSchema.complex p.2).isNone
  && typeIs submitSchema generalSchema notString filled (fun v => !v.isEmpty) p.2
  && (typeIs submitSchema generalSchema notString (avoids '|') (fun v => !v.contains '|') p.2 || p.1 = c! "obsTime")
  && (markless submitSchema generalSchema p.2 || p.1 = c! "artSat" || p.1 = c! "obsSubID" || p.1 = c! "remarks")
  && (oneDot submitSchema generalSchema p.2 || (textCols t).contains p.1 || p.1 = c! "obsSubID" || p.1 = c! "artSat" && t = c! "radar")
  && (timeType submitSchema generalSchema p.2 || p.1 ≠ c! "obsTime")

def kindOk (t : Str) : Bool :=
  noAttributes (typeName t) && known submitSchema 40 (.seq (contentOf (typeName t))) && (letters submitSchema 40 (.seq (contentOf (typeName t)))).all (fieldOk t)
  && Check.needs submitSchema (fun n => n = c! "obsTime") 40 (.seq (contentOf (typeName t))) && lookup submitSchema.elements t = some (typeName t)

theorem kinds_ok : psvKinds.all kindOk = true := by decide +kernel

def wordB (w : Str) : Bool := !w.isEmpty && w.all fun c => !isSpace c

/-- what is computed about the elements of a context -/
def contextOk (p : Str × Str) : Bool :=
  wordB p.1 && ((lookup submitSchema.complex p.2).isNone
    || noAttributes p.2 && known submitSchema 40 (.seq (contentOf p.2)) && (letters submitSchema 40 (.seq (contentOf p.2))).all fun q => wordB q.1 && (lookup submitSchema.complex q.2).isNone)

def contextOkAll : Bool :=
  noAttributes (c! "ObsContextType") && known submitSchema 40 (.seq (contentOf (c! "ObsContextType"))) && (letters submitSchema 40 (.seq (contentOf (c! "ObsContextType")))).all contextOk

theorem context_ok : contextOkAll = true := by decide +kernel

theorem context_content : contentOf (c! "ObsContextType") = [.all false (.elemRef (c! "observatory") false false :: (match contentOf (c! "ObsContextType") with | [.all _ l] => l.tail | _ => []))] := by
  kernel_rfl

theorem all_needs {S : Schema} {r : Str} {m : Bool} {ps : List Particle} {w : List Letter'} (h : Matches S (.all ps) w) (hp : .elemRef r false m ∈ ps) : w ≠ [] := by
  generalize hx : What.all ps = x at h
  induction h generalizing ps with
  | none => cases hx; simp at hp
  | @pick a b p w w' h1 _ _ ih =>
    cases hx
    rcases List.mem_append.1 hp with hp | hp
    · have := ih (by simp [hp]) rfl
      simp [this]
    · rcases List.mem_cons.1 hp with rfl | hp
      · have := (part_ref h1).2 rfl
        simp [this]
      · have := ih (by simp [hp]) rfl
        simp [this]
  | _ => cases hx

/-! ### elements -/

theorem attributes_none {F : Facets} {S : Schema} {a : Attrib} (h : AttributesOk F S [] a) : a = [] := by
  cases a with
  | nil => rfl
  | cons p l => obtain ⟨d, hd, -⟩ := h.1 p (by simp); simp at hd

theorem complex_of {T : Str} (h : noAttributes T = true) : ∃ c, lookup submitSchema.complex T = some c ∧ c.attributes = [] ∧ contentOf T = c.content := by
  unfold noAttributes at h
  cases e : lookup submitSchema.complex T with
  | none => simp [e] at h
  | some c => exact ⟨c, rfl, by simpa [e] using h, by simp [contentOf, e]⟩

theorem neat_text {e : Elem} (h : Neat e) (hs : strip (e.text.getD []) = []) : e.text = none := by
  cases h with
  | @mk tag text attrib kids _ _ h2 _ =>
    cases text with
    | none => rfl
    | some v =>
      obtain ⟨h3, h4, -⟩ := h2 v rfl
      simp only [Elem.text, Option.getD_some, h4] at hs
      exact absurd hs h3

theorem Neat.kid {e : Elem} (h : Neat e) {k : Elem} (hk : k ∈ e.kids) : Neat k := by
  cases h with
  | mk _ _ _ h3 => exact h3 k hk

theorem neat_value {e : Elem} (h : Neat e) {v : Str} (hv : e.text = some v) : v ≠ [] ∧ strip v = v ∧ '\n' ∉ v ∧ '\r' ∉ v := by
  cases h with
  | mk _ _ h2 _ => exact h2 v hv

/-- an element of a complex type without attributes -/
theorem container {T : Str} (hT : noAttributes T = true) (hk : known submitSchema 40 (.seq (contentOf T)) = true) {e : Elem} (h : Valid xsd submitSchema (.typed T e)) (hn : Neat e) :
    e = .mk e.tag none [] e.kids ∧ ∃ w, Matches submitSchema (.seq (contentOf T)) w ∧ Valid xsd submitSchema (.kids w e.kids) ∧
      ∀ k ∈ e.kids, ∃ t, (k.tag, t) ∈ letters submitSchema 40 (.seq (contentOf T)) ∧ Valid xsd submitSchema (.typed t k) := by
  obtain ⟨c, hc, ha, hct⟩ := complex_of hT
  rw [hct] at hk ⊢
  obtain ⟨h1, h2, w, h3, h4, h5⟩ := complex_kids hc hk h
  rw [ha] at h2
  have e1 := attributes_none h2
  have e2 := neat_text hn h1
  refine ⟨?_, w, h3, h4, h5⟩
  cases e with
  | mk tag text attrib kids => simp only [Elem.text, Elem.attrib] at e1 e2; subst e1; subst e2; rfl

theorem simple_value {t : Str} (hc : lookup submitSchema.complex t = none) (hf : typeIs submitSchema generalSchema notString filled (fun v => !v.isEmpty) t = true) {k : Elem}
    (h : Valid xsd submitSchema (.typed t k)) (hn : Neat k) : ∃ v, k = .mk k.tag (some v) [] [] ∧ HasType xsd submitSchema t v ∧ v ≠ [] ∧ strip v = v ∧ '\n' ∉ v ∧ '\r' ∉ v := by
  obtain ⟨e, ht⟩ := simple_elem hc h
  cases hx : k.text with
  | none =>
    rw [hx] at ht
    exact absurd rfl (typeIs_sound (P := fun v => v ≠ []) (fun b x hb h => (builtin_text h (notString_sound hb)).1) (fun r v hr ht => filled_sound ht hr) (fun v hv => by simpa using hv) hf ht rfl)
  | some v =>
    rw [hx] at ht
    obtain ⟨h1, h2, h3, h4⟩ := neat_value hn hx
    exact ⟨v, by rw [hx] at e; exact e, ht, h1, h2, h3, h4⟩

theorem general_mono {c : Check} (h : Valid xsd submitSchema c) : Valid xsd generalSchema c := C34.valid_mono adesmaster_unions h

/-- observations -/
theorem observation {t : Str} (ht : t ∈ psvKinds) {o : Elem} (hv : Valid xsd submitSchema (.typed (typeName t) o)) (htag : o.tag = t) (hn : Neat o) (hs : PsvSafe o) :
    Cells (validObs xsd) t o ∧ ∀ k ∈ o.kids, ∀ v, k.text = some v → k.tag ∉ textCols t → v.count '.' ≤ 1 := by
  have hk := List.all_eq_true.1 kinds_ok t ht
  simp only [kindOk, Bool.and_eq_true, List.all_eq_true] at hk
  obtain ⟨⟨⟨⟨k1, k2⟩, k3⟩, k4⟩, k5⟩ := hk
  obtain ⟨e, w, hw, hkids, hl⟩ := container k1 k2 hv hn
  have field : ∀ k ∈ o.kids, ∃ T v, fieldOk t (k.tag, T) = true ∧ k = .mk k.tag (some v) [] [] ∧ HasType xsd submitSchema T v ∧ v ≠ [] ∧ strip v = v ∧ '\n' ∉ v ∧ '\r' ∉ v := by
    intro k hk
    obtain ⟨T, hT, hvk⟩ := hl k hk
    have hf := k3 _ hT
    have hf' := hf
    simp only [fieldOk, Bool.and_eq_true] at hf'
    obtain ⟨⟨⟨⟨⟨f1, f2⟩, -⟩, -⟩, -⟩, -⟩ := hf'
    obtain ⟨v, hv⟩ := simple_value (by simpa using f1) f2 hvk (Neat.kid hn hk)
    exact ⟨T, v, hf, hv⟩
  refine ⟨⟨?_, general_mono hv, ?_, ?_⟩, ?_⟩
  · rw [htag] at e; exact e
  · intro k hk
    obtain ⟨T, v, hf, e1, h1, h2, h3, h4, h5⟩ := field k hk
    have hx : k.text = some v := by rw [e1]; rfl
    obtain ⟨s1, s2, s3⟩ := hs k hk v hx
    simp only [fieldOk, Bool.and_eq_true, Bool.or_eq_true, decide_eq_true_eq] at hf
    obtain ⟨⟨⟨⟨⟨f1, f2⟩, f3⟩, f4⟩, -⟩, -⟩ := hf
    refine ⟨v, e1, ⟨h2, h3, ?_, h4, h5⟩, ?_⟩
    · rcases f3 with f3 | f3
      · exact typeIs_sound (P := fun v => '|' ∉ v) (fun b x hb h hc => absurd ((builtin_text h (notString_sound hb)).2.1 _ hc) (by decide)) (fun r v hr ht => avoids_sound ht hr)
          (fun v hv => by simpa using hv) f3 h1 h3
      · exact s3 f3
    · intro hr
      rcases f4 with ((f4 | f4) | f4) | f4
      · exact markless_sound f4 h1 h3
      · exact s1 (.inl f4)
      · exact s1 (.inr f4)
      · exact absurd f4 hr
  · obtain ⟨n, hn1, hn2⟩ := Check.needs_sound _ _ _ _ k4 w hw
    have hn1 : n = c! "obsTime" := by simpa using hn1
    subst hn1
    have hm := Check.kids_mem hkids hn2
    obtain ⟨k, hk, hkt⟩ := List.mem_map.1 hm
    obtain ⟨T, v, hf, e1, h1, h2, h3, h4, h5⟩ := field k hk
    simp only [fieldOk, Bool.and_eq_true, Bool.or_eq_true, decide_eq_true_eq] at hf
    obtain ⟨-, f6⟩ := hf
    have f6 := f6.resolve_right (fun c => c hkt)
    obtain ⟨c, hc, hL⟩ := timeType_sound f6 h1 h3
    exact ⟨k, hk, by rw [hkt]; decide, v, c, by rw [e1]; rfl, hc, hL⟩
  · intro k hk v hx hc
    obtain ⟨T, v', hf, e1, h1, h2, h3, h4, h5⟩ := field k hk
    have : v' = v := by rw [e1] at hx; simpa [Elem.text] using hx
    subst this
    obtain ⟨s1, s2, s3⟩ := hs k hk v' hx
    simp only [fieldOk, Bool.and_eq_true, Bool.or_eq_true, decide_eq_true_eq] at hf
    obtain ⟨⟨-, f5⟩, -⟩ := hf
    rcases f5 with ((f5 | f5) | f5) | f5
    · exact oneDot_sound f5 h1 h3
    · exact absurd (by simpa using f5) hc
    · exact s2 (.inl f5)
    · exact s2 (.inr ⟨f5.1, by rw [htag]; exact f5.2⟩)

theorem word_of {w : Str} (h : wordB w = true) : Word w := by
  simp only [wordB, Bool.and_eq_true, Bool.not_eq_true', List.isEmpty_eq_false_iff, List.all_eq_true] at h
  exact ⟨h.1, h.2⟩

/-- contexts -/
theorem context {e : Elem} (h : Valid xsd submitSchema (.typed (c! "ObsContextType") e)) (hn : Neat e) :
    e = .mk e.tag none [] e.kids ∧ e.kids ≠ [] ∧ ∀ c ∈ e.kids, ContextTree c := by
  have hk := context_ok
  simp only [contextOkAll, Bool.and_eq_true, List.all_eq_true] at hk
  obtain ⟨⟨k1, k2⟩, k3⟩ := hk
  obtain ⟨he, w, hw, hkids, hl⟩ := container k1 k2 h hn
  refine ⟨he, ?_, ?_⟩
  · rw [context_content] at hw
    have h1 := part_once rfl rfl (seq_one hw)
    cases h1 with
    | unordered h1 =>
      have := all_needs h1 (List.mem_cons_self)
      intro hc
      rw [hc] at hkids
      cases hkids
      exact this rfl
  · intro c hc
    obtain ⟨T, hT, hv⟩ := hl c hc
    have h1 := k3 _ hT
    simp only [contextOk, Bool.and_eq_true, Bool.or_eq_true, List.all_eq_true] at h1
    obtain ⟨h1, h2⟩ := h1
    have nc := Neat.kid hn hc
    rcases h2 with h2 | ⟨⟨h2, h3⟩, h4⟩
    · obtain ⟨e1, -⟩ := simple_elem (by simpa using h2) hv
      refine ⟨⟨word_of h1, by rw [e1]; rfl, fun v hv => neat_value nc hv⟩, ?_⟩
      rw [e1]; simp [Elem.kids]
    · obtain ⟨e1, w', -, -, hl'⟩ := container h2 h3 hv nc
      refine ⟨⟨word_of h1, by rw [e1]; rfl, fun v hv => neat_value nc hv⟩, ?_⟩
      intro k hk
      obtain ⟨T', hT', hv'⟩ := hl' k hk
      have h5 := h4 _ hT'
      obtain ⟨e2, -⟩ := simple_elem (by simpa using h5.2) hv'
      refine ⟨⟨word_of h5.1, by rw [e2]; rfl, fun v hv => neat_value (Neat.kid nc hk) hv⟩, by rw [e2]; rfl⟩

theorem kids_two {F : Facets} {S : Schema} {a b A B : Str} {es : List Elem} (h : Valid F S (.kids [some (a, A), some (b, B)] es)) :
    ∃ x y, es = [x, y] ∧ x.tag = a ∧ y.tag = b ∧ Valid F S (.typed A x) ∧ Valid F S (.typed B y) := by
  cases h with
  | cons h1 h2 h3 =>
    cases h3 with
    | cons h4 h5 h6 =>
      cases h6
      exact ⟨_, _, rfl, h1, h4, h2, h5⟩

theorem kids_same {F : Facets} {S : Schema} {a A : Str} : ∀ {w : List Letter'} {es : List Elem}, Valid F S (.kids w es) → (∀ l ∈ w, l = some (a, A)) →
    (∀ e ∈ es, e.tag = a ∧ Valid F S (.typed A e)) ∧ (w ≠ [] → es ≠ [])
  | _, _, .nil, _ => by simp
  | _, _, .cons h1 h2 h3, h => by
    have := h _ (List.mem_cons_self)
    cases this
    refine ⟨?_, by simp⟩
    intro e he
    rcases List.mem_cons.1 he with rfl | he
    · exact ⟨h1, h2⟩
    · exact (kids_same h3 fun l hl => h l (by simp [hl])).1 e he
  | _, _, .consAny _ _, h => by
    have := h none (by simp)
    cases this

/-- the observations of an obsData: of one type, and at least one -/
theorem data {e : Elem} (h : Valid xsd submitSchema (.typed (c! "ObsDataType") e)) (hn : Neat e) :
    e = .mk e.tag none [] e.kids ∧ e.kids ≠ [] ∧ ∃ t ∈ psvKinds, ∀ o ∈ e.kids, o.tag = t ∧ Valid xsd submitSchema (.typed (typeName t) o) := by
  have hc : contentOf (c! "ObsDataType") = [.choice false (psvKinds.map fun t => .elemRef t false true)] := by simp [contentOf, data_content]
  obtain ⟨he, w, hw, hkids, -⟩ := container (T := c! "ObsDataType") (by simp [noAttributes, data_content]) (by rw [hc]; rfl) h hn
  rw [hc] at hw
  have h1 := part_once rfl rfl (seq_one hw)
  cases h1 with
  | choice hp hm =>
    obtain ⟨t, ht, rfl⟩ := List.mem_map.1 hp
    obtain ⟨p1, p2⟩ := part_ref hm
    have hk := List.all_eq_true.1 kinds_ok t ht
    simp only [kindOk, Bool.and_eq_true, decide_eq_true_eq] at hk
    have h2 := kids_same (a := t) (A := typeName t) hkids (by
      intro l hl
      obtain ⟨T, hT, rfl⟩ := p1 l hl
      rw [hk.2] at hT; cases hT; rfl)
    exact ⟨he, h2.2 (p2 rfl), t, ht, h2.1⟩

/-- blocks -/
theorem block {e : Elem} (h : Valid xsd submitSchema (.typed (c! "ObsBlockType") e)) (htag : e.tag = c! "obsBlock") (hn : Neat e) (hs : ∀ o ∈ observationsIn e, PsvSafe o) :
    WBlock psvKinds (validObs xsd) e ∧ ∀ o ∈ observationsIn e, ∀ k ∈ o.kids, ∀ v, k.text = some v → k.tag ∉ textCols o.tag → v.count '.' ≤ 1 := by
  have hc : contentOf (c! "ObsBlockType") = [.seq false [.elemRef (c! "obsContext") false false, .elemRef (c! "obsData") false false]] := by simp [contentOf, block_content]
  obtain ⟨he, w, hw, hkids, -⟩ := container (T := c! "ObsBlockType") (by simp [noAttributes, block_content]) (by rw [hc]; rfl) h hn
  rw [hc] at hw
  have h1 := part_once rfl rfl (seq_one hw)
  cases h1 with
  | sequence h1 =>
    cases h1 with
    | cons h2 h3 =>
      have e1 := part_ref_one block_kids.1 h2
      have e2 := part_ref_one block_kids.2 (seq_one h3)
      subst e1; subst e2
      obtain ⟨x, y, hxy, tx, ty, vx, vy⟩ := kids_two hkids
      have nx : Neat x := Neat.kid hn (by rw [hxy]; simp)
      have ny : Neat y := Neat.kid hn (by rw [hxy]; simp)
      obtain ⟨c1, c2, c3⟩ := context vx nx
      obtain ⟨d1, d2, t, ht, d3⟩ := data vy ny
      have ho : observationsIn e = y.kids := by
        have n1 : ¬ c! "obsContext" = c! "obsData" := by decide
        simp [observationsIn, htag, hxy, tx, ty, n1]
      rw [ho] at hs ⊢
      have hobs : ∀ o ∈ y.kids, _ := fun o hm => observation ht (d3 o hm).2 (d3 o hm).1 (Neat.kid ny hm) (hs o hm)
      refine ⟨⟨x.kids, y.kids, c2, c3, d2, ⟨t, ht, fun o hm => (hobs o hm).1⟩, ?_⟩, ?_⟩
      · rw [he, hxy, htag, c1, d1, tx, ty]; rfl
      · intro o hm k hk v hv hc
        rw [(d3 o hm).1] at hc
        exact (hobs o hm).2 k hk v hv hc

/-- the version -/
theorem version_type {v : Str} (h : HasType xsd submitSchema (c! "VersionType") v) : v = c! "2022" := by
  have ha : Xsd.alts submitSchema generalSchema 9 (c! "VersionType") = some [(c! "xsd:string", [(c! "xsd:string", [(c! "xsd:enumeration", c! "2022")])])] := by kernel_rfl
  obtain ⟨a, ha, h1, h2⟩ := alts_of h ha
  simp only [List.mem_singleton] at ha
  subst ha
  have := (h2 _ (List.mem_singleton_self _)).enumeration
  simpa [values, Same] using this

end Submission

open Submission

/-- **C50.** A document that is valid for submission, without white space at the ends of texts and line breaks in them, whose free texts do not look like context lines or have several points in them
    and whose times have no bars, can be written as PSV; and reading that PSV gives the same document. -/
theorem C50_psv (lx : Lxml) (hl : Psv.Lxml.Sane lx) (doc : Elem) (hr : doc.tag = c! "ades") (hv : ValidDocument xsd submitSchema doc) (hn : Neat doc)
    (hs : ∀ o ∈ doc.kids.flatMap observationsIn, PsvSafe o) (ha : Accepted lx doc) :
    ∃ lines g, xmltopsv adesTables doc = .ok lines ∧ psvtoxml adesTab lx .initial (fileText lines) = .ok (doc, g) := by
  obtain ⟨T, hT, hv⟩ := hv
  rw [hr, ades_type] at hT
  cases hT
  obtain ⟨h1, h2, w, h3, h4, h5⟩ := complex_kids (f := 40) ades_content rfl hv
  have hblock : ∀ k ∈ doc.kids, k.tag = c! "obsBlock" ∧ Valid xsd submitSchema (.typed (c! "ObsBlockType") k) := by
    intro k hk
    obtain ⟨t, ht, hvk⟩ := h5 k hk
    have : letters submitSchema 40 (.seq [.choice true [.elemRef (c! "obsBlock") false false]]) = [(c! "obsBlock", c! "ObsBlockType")] := by decide +kernel
    rw [this] at ht
    simp only [List.mem_singleton, Prod.mk.injEq] at ht
    rw [ht.2] at hvk
    exact ⟨ht.1, hvk⟩
  have hb : ∀ k ∈ doc.kids, _ := fun k hk => block (hblock k hk).2 (hblock k hk).1 (Neat.kid hn hk) fun o ho => hs o (List.mem_flatMap.2 ⟨k, hk, ho⟩)
  have hat : doc.attrib = [(c! "version", c! "2022")] := by
    obtain ⟨a1, a2⟩ := h2
    obtain ⟨a, ha, hav⟩ := a2 _ (List.mem_singleton_self _) rfl
    have all : ∀ a ∈ doc.attrib, a = (c! "version", c! "2022") := by
      intro a ha
      obtain ⟨d, hd, e1, e2⟩ := a1 a ha
      simp only [List.mem_singleton] at hd
      subst hd
      have := version_type e2
      cases a; simp only at e1 this; subst this; rw [← e1]
    have nd : (doc.attrib.map (·.1)).Nodup := by cases hn with | mk h _ _ _ => exact h
    cases hd : doc.attrib with
    | nil => rw [hd] at ha; simp at ha
    | cons p l =>
      rw [hd] at all nd
      have hp := all p (by simp)
      cases l with
      | nil => rw [hp]
      | cons q l =>
        have hq := all q (by simp)
        rw [hp, hq] at nd
        simp at nd
  have hx : Expressible psvKinds (validObs xsd) doc := by
    refine ⟨c! "2022", doc.kids, ?_, by decide, by decide, fun k hk => .inl (hb k hk).1⟩
    have := neat_text hn h1
    cases doc with
    | mk tag text attrib kids => simp only [Elem.text, Elem.attrib, Elem.tag] at this hat hr; subst this; subst hat; subst hr; rfl
  have hdot : ∀ o ∈ doc.kids.flatMap observationsIn, ∀ k ∈ o.kids, ∀ v, k.text = some v → k.tag ∉ textCols o.tag → v.count '.' ≤ 1 := by
    intro o ho
    obtain ⟨k, hk, ho⟩ := List.mem_flatMap.1 ho
    exact (hb k hk).2 o ho
  obtain ⟨lines, hlines⟩ := C24_total xsd doc hx hdot
  obtain ⟨g, hg⟩ := C24_roundtrip xsd lx hl doc hx ha lines hlines
  exact ⟨lines, g, hlines, hg⟩

/-! ### the hypotheses -/

def neatB : Nat → Elem → Bool
  | 0, _ => false
  | f + 1, .mk _ text attrib kids =>
    decide (attrib.map (·.1)).Nodup && (kids.isEmpty || text.isNone) && (match text with
      | none => true
      | some v => !v.isEmpty && strip v = v && !v.contains '\n' && !v.contains '\r') && kids.all (neatB f)

theorem neatB_sound : ∀ {f : Nat} {e : Elem}, neatB f e = true → Neat e
  | 0, _, h => by simp [neatB] at h
  | f + 1, .mk tag text attrib kids, h => by
    simp only [neatB, Bool.and_eq_true, decide_eq_true_eq, Bool.or_eq_true, List.isEmpty_iff, List.all_eq_true] at h
    obtain ⟨⟨⟨h1, h2⟩, h3⟩, h4⟩ := h
    refine .mk h1 (fun hk => ?_) ?_ fun k hk => neatB_sound (h4 k hk)
    · exact Option.isNone_iff_eq_none.1 (h2.resolve_left hk)
    · intro v hv
      subst hv
      simpa [and_assoc] using h3

def psvSafeB (o : Elem) : Bool :=
  o.kids.all fun k => match k.text with
    | none => true
    | some v => (k.tag ≠ c! "artSat" && k.tag ≠ c! "obsSubID" || decide (v.head? ≠ some '#') && decide (v.head? ≠ some '!'))
      && (k.tag ≠ c! "obsSubID" && k.tag ≠ c! "artSat" || decide (v.count '.' ≤ 1)) && !v.contains '|'

theorem psvSafeB_sound {o : Elem} (h : psvSafeB o = true) : PsvSafe o := by
  intro k hk v hv
  have := List.all_eq_true.1 h k hk
  rw [hv] at this
  simp only [Bool.and_eq_true, Bool.or_eq_true, decide_eq_true_eq, Bool.not_eq_true'] at this
  obtain ⟨⟨h1, h2⟩, h3⟩ := this
  refine ⟨fun ht => ?_, fun ht => ?_, fun _ => by simpa using h3⟩
  · rcases h1 with h1 | h1
    · rcases ht with ht | ht
      · exact absurd ht h1.1
      · exact absurd ht h1.2
    · exact h1
  · rcases h2 with h2 | h2
    · rcases ht with ht | ht
      · exact absurd ht h2.1
      · exact absurd ht.1 h2.2
    · exact h2

/-- `sampleDoc` is valid for submission, by XML Schema's own meaning of types and facets -/
theorem sampleDoc_submit : ValidDocument xsd submitSchema sampleDoc := ⟨c! "ADESType", by kernel_rfl, isValid_sound (f := 80) (by decide +kernel)⟩

/-- the hypotheses of C50 are met -/
example : ∃ lines g, xmltopsv adesTables sampleDoc = .ok lines ∧ psvtoxml adesTab ⟨fun _ => true, fun _ => true⟩ .initial (fileText lines) = .ok (sampleDoc, g) :=
  C50_psv ⟨fun _ => true, fun _ => true⟩ ⟨rfl, rfl, rfl⟩ sampleDoc rfl sampleDoc_submit (neatB_sound (f := 9) (by decide +kernel))
    (fun o ho => psvSafeB_sound (List.all_eq_true.1 (show (sampleDoc.kids.flatMap observationsIn).all psvSafeB = true by decide +kernel) o ho)) (accepted_any _)

/-- a submission of one observation -/
def submission (kind : Str) (fields : List (Str × Str)) : Elem := .mk (c! "ades") none [(c! "version", c! "2022")] [.mk (c! "obsBlock") none [] [
  .mk (c! "obsContext") none [] [
    .mk (c! "observatory") none [] [leaf (c! "mpcCode") (c! "568")],
    .mk (c! "submitter") none [] [leaf (c! "name") (c! "D. J. Tholen")],
    .mk (c! "measurers") none [] [leaf (c! "name") (c! "D. J. Tholen")],
    .mk (c! "telescope") none [] [leaf (c! "design") (c! "reflector"), leaf (c! "aperture") (c! "2.2"), leaf (c! "detector") (c! "CCD")]],
  .mk (c! "obsData") none [] [.mk kind none [] (fields.map fun f => leaf f.1 f.2)]]]

/-- an optical observation with these identifications, at this time -/
def submitted (id : List (Str × Str)) (time : Str) : Elem :=
  submission (c! "optical") (id ++ [(c! "mode", c! "CCD"), (c! "stn", c! "568"), (c! "obsTime", time), (c! "ra", c! "15.1"), (c! "dec", c! "+1.5"), (c! "astCat", c! "Gaia3")])

theorem submitted_valid {kind : Str} {fields : List (Str × Str)} (h : isValid submitSchema generalSchema 80 (c! "ADESType") (submission kind fields) = true)
    (hn : neatB 9 (submission kind fields) = true) : ValidDocument xsd submitSchema (submission kind fields) ∧ Neat (submission kind fields) :=
  ⟨⟨c! "ADESType", by kernel_rfl, isValid_sound h⟩, neatB_sound hn⟩

/-- Bars: the submission schema lets any character stand for the point in the leap seconds of 2005, 2008 and 2016, so this document is valid.  A PSV file is written, but cannot be read. -/
theorem C50_bar : let doc := submitted [(c! "provID", c! "2004 MN4")] (c! "2016-12-31T23:59:60|5Z")
    ValidDocument xsd submitSchema doc ∧ Neat doc ∧ ∃ lines, xmltopsv adesTables doc = .ok lines ∧
      psvtoxml adesTab ⟨fun _ => true, fun _ => true⟩ .initial (fileText lines) = .error .nameError :=
  have h := submitted_valid (kind := c! "optical") (by decide +kernel) (by decide +kernel)
  ⟨h.1, h.2, [c! "# version=2022", c! "# observatory", c! "! mpcCode 568", c! "# submitter", c! "! name D. J. Tholen", c! "# measurers", c! "! name D. J. Tholen",
    c! "# telescope", c! "! design reflector", c! "! aperture 2.2", c! "! detector CCD",
    c! "provID     |mode|stn |obsTime                |ra          |dec         |astCat",
    c! "2004 MN4   | CCD|568 |2016-12-31T23:59:60|5Z | 15.1       | +1.5       | Gaia3"], by kernel_rfl, by kernel_rfl⟩

/-- Marks: a valid name of an artificial satellite may begin with '#'.  A PSV file is written, but cannot be read. -/
theorem C50_mark : let doc := submitted [(c! "artSat", c! "#1998-067A"), (c! "trkSub", c! "aa")] (c! "2016-12-31T23:59:59Z")
    ValidDocument xsd submitSchema doc ∧ Neat doc ∧ ∃ lines, xmltopsv adesTables doc = .ok lines ∧
      psvtoxml adesTab ⟨fun _ => true, fun _ => true⟩ .initial (fileText lines) = .error .nameError :=
  have h := submitted_valid (kind := c! "optical") (by decide +kernel) (by decide +kernel)
  ⟨h.1, h.2, [c! "# version=2022", c! "# observatory", c! "! mpcCode 568", c! "# submitter", c! "! name D. J. Tholen", c! "# measurers", c! "! name D. J. Tholen",
    c! "# telescope", c! "! design reflector", c! "! aperture 2.2", c! "! detector CCD",
    c! "artSat    |trkSub |mode|stn |obsTime                |ra          |dec         |astCat",
    c! "#1998-067A|     aa| CCD|568 |2016-12-31T23:59:59Z   | 15.1       | +1.5       | Gaia3"], by kernel_rfl, by kernel_rfl⟩

/-- Points: a valid identifier of an observation may have two points.  No PSV file is written. -/
theorem C50_points : let doc := submitted [(c! "provID", c! "2004 MN4"), (c! "obsSubID", c! "a.b.c")] (c! "2016-12-31T23:59:59Z")
    ValidDocument xsd submitSchema doc ∧ Neat doc ∧ xmltopsv adesTables doc = .error .runtimeError :=
  have h := submitted_valid (kind := c! "optical") (by decide +kernel) (by decide +kernel)
  ⟨h.1, h.2, by kernel_rfl⟩

/-- Root elements: every global element may stand alone, so the schema takes a single identification for a document.  No PSV file is written. -/
theorem C50_root : let doc := leaf (c! "permID") (c! "433")
    ValidDocument xsd submitSchema doc ∧ Neat doc ∧ xmltopsv adesTables doc = .error .runtimeError :=
  ⟨⟨c! "PermIDType", by kernel_rfl, isValid_sound (f := 80) (by decide +kernel)⟩, neatB_sound (f := 9) (by decide +kernel), by kernel_rfl⟩

end Verif
