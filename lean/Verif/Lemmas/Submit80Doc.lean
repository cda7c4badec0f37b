import Verif.Lemmas.Submit80Line
import Verif.Props.Written80
/-!
  Lemmas for C51: the blocks of valid submissions.
-/
namespace Verif.Submit80
open Verif.Xml Verif.Master Verif.PackUtil Verif.Spec Verif.Spec.Mpc80 Verif.ToPsv Verif.ToMpc80 Verif.Psv Verif.Submission Verif.Fields

theorem content_of {T : Str} {e : Elem} (h1 : (lookup submitSchema.complex T).isSome = true) (h2 : Xsd.known submitSchema 40 (.seq (contentOf T)) = true)
    (h : Valid xsd submitSchema (.typed T e)) : ∃ w, Matches submitSchema (.seq (contentOf T)) w ∧ Valid xsd submitSchema (.kids w e.kids) := by
  obtain ⟨c, hc⟩ := Option.isSome_iff_exists.1 h1
  have e' : contentOf T = c.content := by simp [contentOf, hc]
  rw [e'] at h2 ⊢
  obtain ⟨-, -, w, h3, h4, -⟩ := Xsd.complex_kids hc h2 h
  exact ⟨w, h3, h4⟩

theorem data_of {e : Elem} (h : Valid xsd submitSchema (.typed (c! "ObsDataType") e)) :
    e.kids ≠ [] ∧ ∃ t ∈ psvKinds, ∀ o ∈ e.kids, o.tag = t ∧ Valid xsd submitSchema (.typed (typeName t) o) := by
  have hc : contentOf (c! "ObsDataType") = [.choice false (psvKinds.map fun t => .elemRef t false true)] := by simp [contentOf, data_content]
  obtain ⟨w, hw, hkids⟩ := content_of (T := c! "ObsDataType") (by simp [data_content]) (by rw [hc]; rfl) h
  rw [hc] at hw
  have h1 := part_once rfl rfl (seq_one hw)
  cases h1 with
  | choice hp hm =>
    obtain ⟨t, ht, rfl⟩ := List.mem_map.1 hp
    obtain ⟨p1, p2⟩ := part_ref hm
    have hk := List.all_eq_true.1 kinds_ok t ht
    simp only [kindOk, Bool.and_eq_true, decide_eq_true_eq] at hk
    have h2 := kids_same (a := t) (A := typeName t) hkids (by
      intro l hl
      obtain ⟨T, hT, rfl⟩ := p1 l hl
      rw [hk.2] at hT; cases hT; rfl)
    exact ⟨h2.2 (p2 rfl), t, ht, h2.1⟩

theorem kinds_same : ∀ t ∈ psvKinds, t ∈ blockKinds := by decide

theorem block_of {e : Elem} (h : Valid xsd submitSchema (.typed (c! "ObsBlockType") e)) (htag : e.tag = c! "obsBlock") :
    WellBlock e ∧ ∃ x y, e.kids = [x, y] ∧ x.tag = c! "obsContext" ∧ y.tag = c! "obsData" := by
  have hc : contentOf (c! "ObsBlockType") = [.seq false [.elemRef (c! "obsContext") false false, .elemRef (c! "obsData") false false]] := by simp [contentOf, block_content]
  obtain ⟨w, hw, hkids⟩ := content_of (T := c! "ObsBlockType") (by simp [block_content]) (by rw [hc]; rfl) h
  rw [hc] at hw
  have h1 := part_once rfl rfl (seq_one hw)
  cases h1 with
  | sequence h1 =>
    cases h1 with
    | cons h2 h3 =>
      have e1 := part_ref_one block_kids.1 h2
      have e2 := part_ref_one block_kids.2 (seq_one h3)
      subst e1; subst e2
      obtain ⟨x, y, hxy, tx, ty, vx, vy⟩ := kids_two hkids
      obtain ⟨d2, t, ht, d3⟩ := data_of vy
      have ho : observationsOf e = y.kids := by
        have n1 : ¬ c! "obsContext" = c! "obsData" := by decide
        simp [observationsOf, hxy, tx, ty, n1]
      refine ⟨⟨htag, ?_, by rw [ho]; exact d2, t, kinds_same t ht, by rw [ho]; exact fun o h => (d3 o h).1⟩, x, y, hxy, tx, ty⟩
      intro d hd
      rw [hxy] at hd
      simp only [List.mem_cons, List.not_mem_nil, or_false] at hd
      rcases hd with rfl | rfl
      · exact .inl tx
      · exact .inr ty

theorem blocks_of {doc : Elem} (hr : doc.tag = c! "ades") (hv : ValidDocument xsd submitSchema doc) : ∀ b ∈ doc.kids, WellBlock b := by
  obtain ⟨p1, p2, p3, q1, q2, q3⟩ := paths
  obtain ⟨T, hT, hv⟩ := hv
  rw [hr, ades_type] at hT
  cases hT
  intro b hb
  obtain ⟨t, ht, hvb⟩ := kid_type q1 hv hb
  rw [p1, List.mem_singleton, Prod.mk.injEq] at ht
  obtain ⟨tb, rfl⟩ := ht
  exact (block_of hvb tb).1

/-! ### widths -/

variable {t : Str} {e : Elem}

theorem value_valid (h : Ok t e) {n : Str} {P : Str → Prop} (hp : (n, P) ∈ fieldValue) {v : Str} (hf : FieldValue e n v) : ∃ w, P w ∧ strip w = v := by
  obtain ⟨k, hk, x, rfl, h1, h2, -⟩ := hf
  have := (C49_fields _ hp _).1 (field_doc h hk)
  rw [h1] at this
  exact ⟨x, this, h2⟩

theorem value_absent (h : Ok t e) {n : Str} (hn : (kidTypes (typeName t)).all (fun p => p.1 ≠ n) = true) {v : Str} : ¬ FieldValue e n v := by
  rintro ⟨k, hk, x, rfl, -⟩
  obtain ⟨T, hT, -⟩ := kid_type (field_known h).1 h.valid hk
  have := List.all_eq_true.1 hn _ hT
  simp at this

theorem year_first {y : Nat} {x : Str} (h2 : y ≤ 9999) (h : 1000 ≤ digitsNat ((fixed 4 y ++ x).take 4)) : ∃ y' rest, 1000 ≤ y' ∧ y' ≤ 9999 ∧ fixed 4 y ++ x = Spec.dec y' ++ rest := by
  have l4 : (fixed 4 y).length = 4 := fixed_length (by omega) (by omega)
  rw [List.take_append_of_le_length (by omega), List.take_of_length_le (by omega), digitsNat_fixed] at h
  exact ⟨y, x, h, h2, by rw [dec_fixed h h2]⟩

theorem narrow_fits {w : Nat} (h : Ok t e) (ht : t = c! "optical" ∨ t = c! "occultation") (hn : Narrow w e) : FitsOptical w e where
  disc v hv := by
    obtain ⟨x, hx, rfl⟩ := value_valid h (n := c! "disc") (by infields) hv
    rcases hx with rfl | rfl <;> rfl
  deprecated v hv := absurd hv (value_absent h (by rcases ht with rfl | rfl <;> decide +kernel))
  artSat := hn.artSat
  stn := hn.stn
  years v hv := by
    obtain ⟨ha, hy⟩ := hn.time v hv
    obtain ⟨k, hk, x, h1, h2, h3, -⟩ := hv
    have := kid_time h hk h1 (by rw [h2]; exact h3) ha
    rcases this with ho | ho
    · obtain ⟨y, mo, d, hh, mi, s, f, -, y2, -, -, -, -, -, -, e'⟩ := ho
      simp only [List.append_assoc] at e'
      rw [e'] at hy ⊢
      exact year_first y2 hy
    · obtain ⟨y, m, f, y2, -, -, e'⟩ := ho
      simp only [List.append_assoc] at e'
      rw [e'] at hy ⊢
      exact year_first y2 hy
  ra v hv := by
    have : ∃ x, RightAscension (Spec.Xsd.trim x) ∧ strip x = v := by
      rcases hv with hv | hv
      · exact value_valid h (n := c! "ra") (by infields) hv
      · exact value_valid h (n := c! "raStar") (by infields) hv
    obtain ⟨x, ⟨n, n1, n2, n3, -, n4⟩, rfl⟩ := this
    refine ⟨n, n1.1, strip_numeral n1.1 n2, ?_⟩
    have : n.value = n.size := by unfold Numeral.value; rw [n3]; simp
    rw [← this]; exact le_of_lt n4
  dec v hv := by
    have : ∃ x, DeclinationValue (Spec.Xsd.trim x) ∧ strip x = v := by
      rcases hv with hv | hv
      · exact value_valid h (n := c! "dec") (by infields) hv
      · exact value_valid h (n := c! "decStar") (by infields) hv
    obtain ⟨x, ⟨n, n1, n2, -, n4⟩, rfl⟩ := this
    exact ⟨n, n1.1, strip_numeral n1.1 n2, n4⟩
  precTime v hv := absurd hv (value_absent h (by rcases ht with rfl | rfl <;> decide +kernel))
  precRA v hv := absurd hv (value_absent h (by rcases ht with rfl | rfl <;> decide +kernel))
  precDec v hv := absurd hv (value_absent h (by rcases ht with rfl | rfl <;> decide +kernel))
  pos3 := hn.pos3

theorem joined_lines {rs : List Outcome} {l : Str} (h : l ∈ (joined rs).lines) : ∃ r ∈ rs, l ∈ r.lines := by
  induction rs with
  | nil => cases h
  | cons r rs ih =>
    unfold joined at h
    split at h
    · rcases List.mem_append.1 h with h | h
      · exact ⟨r, by simp, h⟩
      · obtain ⟨x, h1, h2⟩ := ih h
        exact ⟨x, by simp [h1], h2⟩
    · exact ⟨r, by simp, h⟩

theorem header_lines {x : Elem} {l : Str} (h : l ∈ headerLines x) : IsHeader l := by
  rw [← context_lines] at h
  obtain ⟨i, -, h⟩ := List.mem_flatMap.1 h
  exact context_header h

end Verif.Submit80
