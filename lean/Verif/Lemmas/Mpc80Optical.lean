import Verif.Spec.Mpc80Optical
import Verif.Lemmas.Mpc80Doc
import Verif.Props.Sexagesimal
import Verif.Props.ObsDate
import Verif.Props.Codes
import Verif.Props.Designation
import Verif.Props.Mpc80Document
/-
  What becomes of an optical line.
-/
namespace Verif.Mpc80
open Verif Verif.PackUtil Verif.Spec.Mpc80 Verif.Spec Verif.Xml

/-! ### the columns of a line put together -/

theorem slice_part {pre mid post : Str} {i j : Nat} (h1 : pre.length = i) (h2 : mid.length = j - i) : slice (pre ++ (mid ++ post)) i j = mid := by
  unfold slice
  rw [← h1, List.drop_left, h1, ← h2, List.take_left]

theorem rightpad_length {w : Nat} {t : Str} (h : t.length ≤ w) : (List.rightpad w ' ' t).length = w := by
  simp [List.rightpad]; omega

theorem sex_text_length {r : Sexagesimal} {n : Nat} (h : r.Valid n) (hn : n ≤ 3) : r.text.length ≤ 9 + n ∧ r.text.length ≤ 12 := by
  cases r with
  | seconds h' m s d f =>
    obtain ⟨h1, h2, h3, h4, h5, h6⟩ := h
    simp only [Sexagesimal.text, List.length_append, fixed2 (show h' < 100 by omega), fixed2 (show m < 100 by omega), fixed2 (show s < 100 by omega), fixed_length h4 h6, List.length_cons, List.length_nil]
    omega
  | wholeSeconds h' m s =>
    obtain ⟨h1, h2, h3⟩ := h
    simp only [Sexagesimal.text, List.length_append, fixed2 (show h' < 100 by omega), fixed2 (show m < 100 by omega), fixed2 (show s < 100 by omega), List.length_cons, List.length_nil]
    omega
  | minutes h' m d f =>
    obtain ⟨h1, h2, h4, h5, h6⟩ := h
    simp only [Sexagesimal.text, List.length_append, fixed2 (show h' < 100 by omega), fixed2 (show m < 100 by omega), fixed_length h4 h6, List.length_cons, List.length_nil]
    omega
  | wholeMinutes h' m =>
    obtain ⟨h1, h2⟩ := h
    simp only [Sexagesimal.text, List.length_append, fixed2 (show h' < 100 by omega), fixed2 (show m < 100 by omega), List.length_cons, List.length_nil]
    omega

theorem numCh_digit {c : Char} (h : c ∈ digits10) : numCh c = true := by
  have : ∀ c ∈ digits10, numCh c = true := by decide
  exact this c h

theorem sex_text_chars (r : Sexagesimal) : ∀ c ∈ r.text, numCh c = true := by
  have f := fun k n c (h : c ∈ fixed k n) => numCh_digit (fixed_mem k n c h)
  have hb : numCh ' ' = true := by decide
  have hp : numCh '.' = true := by decide
  cases r <;> simp only [Sexagesimal.text, List.mem_append, List.mem_singleton] <;> intro c hc
  · rcases hc with (((((((hc | hc) | hc) | hc) | hc) | hc) | hc))
    all_goals first | exact f _ _ _ hc | (subst hc; assumption)
  · rcases hc with (((hc | hc) | hc) | hc) | hc
    all_goals first | exact f _ _ _ hc | (subst hc; assumption)
  · rcases hc with (((hc | hc) | hc) | hc) | hc
    all_goals first | exact f _ _ _ hc | (subst hc; assumption)
  · rcases hc with (hc | hc) | hc
    all_goals first | exact f _ _ _ hc | (subst hc; assumption)

theorem column_chars {w : Nat} {t : Str} (h : ∀ c ∈ t, numCh c = true) : ∀ c ∈ Spec.column w t, numCh c = true := by
  intro c hc
  simp only [Spec.column, List.rightpad, List.mem_append, List.mem_replicate] at hc
  rcases hc with hc | ⟨_, rfl⟩
  · exact h c hc
  · decide

/-- the parts of the line -/
structure Parts (o : Optical) (s : Str) : Prop where
  len : s.length = 80
  id : slice s 0 12 = o.desig.columns
  disc : slice s 12 13 = [o.disc]
  note : slice s 13 14 = [o.note]
  code : slice s 14 15 = [o.code]
  date : slice s 15 32 = o.date.column
  ra : slice s 32 44 = Spec.column 12 o.ra.text
  dec : slice s 44 56 = Spec.column 12 ((if o.south then '-' else '+') :: o.dec.text)
  spare : slice s 56 65 = o.spare
  mag : slice s 65 70 = o.mag
  band : slice s 70 71 = [o.band]
  cat : slice s 71 77 = o.cat :: o.ref.columns
  stn : slice s 77 80 = o.stn

theorem ref_length {r : RefCols} (h : r.Valid) : r.columns.length = 5 := by
  cases r with
  | page r => exact refCols_len h
  | other t => exact h.1

theorem date_length {d : ObsDate} (h : d.Valid) : d.column.length = 17 := by
  have o := Sex.Ok.of h
  obtain ⟨y, m, dd, n, f⟩ := d
  unfold ObsDate.column
  apply rightpad_length
  have h1 := o.hf
  have h31 := o.hd'
  have := Sex.monthDays_le (y := y) (m := m)
  have hm := o.hm'
  have hn := o.hn
  have hn' := o.hn'
  have hy := o.hy
  have hy' := o.hy'
  simp only at h1 h31 hm hn hn' hy hy' ⊢
  simp only [List.length_append, fixed_length hn h1, fixed2 (show m < 100 by omega), fixed2 (show dd < 100 by omega), Sex.year_text (show 1000 ≤ y by omega) hy', List.length_cons, List.length_nil]
  omega

theorem parts {o : Optical} (h : o.Valid) : Parts o o.line := by
  have l1 := columns_length h.desig
  have l2 := date_length h.date
  have l3 : (Spec.column 12 o.ra.text).length = 12 := rightpad_length (sex_text_length h.ra (by omega)).2
  have l4 : (Spec.column 12 ((if o.south then '-' else '+') :: o.dec.text)).length = 12 := rightpad_length (by have := (sex_text_length h.dec (by omega)).1; simp; omega)
  have l5 := h.spare.1
  have l6 := h.mag.1
  have l7 := ref_length h.ref
  have l8 := h.stn.1
  unfold Optical.line
  generalize ha1 : o.desig.columns = a1 at *
  generalize ha2 : o.date.column = a2 at *
  generalize ha3 : Spec.column 12 o.ra.text = a3 at *
  generalize ha4 : Spec.column 12 ((if o.south then '-' else '+') :: o.dec.text) = a4 at *
  generalize ha5 : o.ref.columns = a5 at *
  generalize hb1 : o.spare = b1 at *
  generalize hb2 : o.mag = b2 at *
  generalize hb3 : o.stn = b3 at *
  have key : ∀ (pre mid post : Str) (i j : Nat), a1 ++ [o.disc, o.note, o.code] ++ a2 ++ a3 ++ a4 ++ b1 ++ b2 ++ [o.band, o.cat] ++ a5 ++ b3 = pre ++ (mid ++ post) →
      pre.length = i → mid.length = j - i → slice (a1 ++ [o.disc, o.note, o.code] ++ a2 ++ a3 ++ a4 ++ b1 ++ b2 ++ [o.band, o.cat] ++ a5 ++ b3) i j = mid := by
    intro pre mid post i j h1 h2 h3
    rw [h1]; exact slice_part h2 h3
  constructor
  · simp [*]
  · rw [ha1]; exact key [] a1 _ 0 12 (by simp only [List.nil_append, List.append_assoc]; rfl) (by simp) (by simp [*])
  · exact key a1 [o.disc] _ 12 13 (by simp only [List.append_assoc, List.cons_append, List.nil_append]; rfl) (by simp [*]) (by simp [*])
  · exact key (a1 ++ [o.disc]) [o.note] _ 13 14 (by simp only [List.append_assoc, List.cons_append, List.nil_append]; rfl) (by simp [*]) (by simp [*])
  · exact key (a1 ++ [o.disc, o.note]) [o.code] _ 14 15 (by simp only [List.append_assoc, List.cons_append, List.nil_append]; rfl) (by simp [*]) (by simp [*])
  · rw [ha2]; exact key (a1 ++ [o.disc, o.note, o.code]) a2 _ 15 32 (by simp only [List.append_assoc, List.cons_append, List.nil_append]; rfl) (by simp [*]) (by simp [*])
  · rw [ha3]; exact key (a1 ++ [o.disc, o.note, o.code] ++ a2) a3 _ 32 44 (by simp only [List.append_assoc, List.cons_append, List.nil_append]; rfl) (by simp [*]) (by simp [*])
  · rw [ha4]; exact key (a1 ++ [o.disc, o.note, o.code] ++ a2 ++ a3) a4 _ 44 56 (by simp only [List.append_assoc, List.cons_append, List.nil_append]; rfl) (by simp [*]) (by simp [*])
  · rw [hb1]; exact key (a1 ++ [o.disc, o.note, o.code] ++ a2 ++ a3 ++ a4) b1 _ 56 65 (by simp only [List.append_assoc, List.cons_append, List.nil_append]; rfl) (by simp [*]) (by simp [*])
  · rw [hb2]; exact key (a1 ++ [o.disc, o.note, o.code] ++ a2 ++ a3 ++ a4 ++ b1) b2 _ 65 70 (by simp only [List.append_assoc, List.cons_append, List.nil_append]; rfl) (by simp [*]) (by simp [*])
  · exact key (a1 ++ [o.disc, o.note, o.code] ++ a2 ++ a3 ++ a4 ++ b1 ++ b2) [o.band] _ 70 71 (by simp only [List.append_assoc, List.cons_append, List.nil_append]; rfl) (by simp [*]) (by simp [*])
  · rw [ha5]; exact key (a1 ++ [o.disc, o.note, o.code] ++ a2 ++ a3 ++ a4 ++ b1 ++ b2 ++ [o.band]) (o.cat :: a5) _ 71 77 (by simp only [List.append_assoc, List.cons_append, List.nil_append]; rfl) (by simp [*]) (by simp [*])
  · rw [hb3]; exact key (a1 ++ [o.disc, o.note, o.code] ++ a2 ++ a3 ++ a4 ++ b1 ++ b2 ++ [o.band, o.cat] ++ a5) b3 [] 77 80 (by simp only [List.append_assoc, List.cons_append, List.nil_append, List.append_nil]) (by simp [*]) (by simp [*])

/-! ### the designation -/

/-- the characters of columns 2-12 the converter accepts -/
def idCh (c : Char) : Bool := alnum c || ch ' ' c

theorem digit_id {c : Char} (h : c ∈ digits10) : idCh c = true := by
  have : ∀ c ∈ digits10, idCh c = true := by decide
  exact this c h
theorem b62_id (k : Nat) (h : k < 62) : idCh (b62 k) = true := by
  have : ∀ k < 62, idCh (b62 k) = true := by decide
  exact this k h
theorem fixed_id (k n : Nat) : ∀ c ∈ fixed k n, idCh c = true := fun c hc => digit_id (fixed_mem k n c hc)
theorem b62x4_id (n : Nat) : ∀ c ∈ b62x4 n, idCh c = true := by
  intro c hc
  simp only [b62x4, List.mem_cons, List.not_mem_nil, or_false] at hc
  rcases hc with rfl | rfl | rfl | rfl <;> exact b62_id _ (Nat.mod_lt _ (by decide))
theorem upper_id : ∀ c ∈ upperCase, idCh c = true ∧ idCh (lower c) = true := by decide
theorem half_id : ∀ c ∈ halfMonths, idCh c = true := by decide
theorem orders_id : ∀ c ∈ orders, idCh c = true := by decide
theorem trk_id : ∀ c ∈ trkChars, c ≠ '-' → idCh c = true := by decide

/-- the first five columns of a number: none is blank; all but perhaps the first are letters or digits -/
theorem perm_cols_id {p : Perm} (h : p.Valid) : ∃ a b c d e, p.cols = [a, b, c, d, e] ∧ (idCh a = true ∨ a = '~') ∧ idCh b = true ∧ idCh c = true ∧ idCh d = true ∧ d ≠ ' ' ∧ idCh e = true := by
  have nb : ∀ c ∈ digits10, c ≠ ' ' := by decide
  have f4 : ∀ n, n < 10000 → ∃ a b c d, fixed 4 n = [a, b, c, d] ∧ idCh a = true ∧ idCh b = true ∧ idCh c = true ∧ idCh d = true ∧ c ≠ ' ' ∧ d ≠ ' ' := by
    intro n hn
    have hl := fixed_length (k := 4) (n := n) (by omega) (by omega)
    have hm := fixed_mem 4 n
    match hf : fixed 4 n, hl with
    | [a, b, c, d], _ =>
      rw [hf] at hm
      exact ⟨a, b, c, d, rfl, digit_id (hm a (by simp)), digit_id (hm b (by simp)), digit_id (hm c (by simp)), digit_id (hm d (by simp)), nb c (hm c (by simp)), nb d (hm d (by simp))⟩
  have f3 : ∀ n, n < 1000 → ∃ b c d, fixed 3 n = [b, c, d] ∧ idCh b = true ∧ idCh c = true ∧ idCh d = true ∧ d ≠ ' ' := by
    intro n hn
    have hl := fixed_length (k := 3) (n := n) (by omega) (by omega)
    have hm := fixed_mem 3 n
    match hf : fixed 3 n, hl with
    | [b, c, d], _ =>
      rw [hf] at hm
      exact ⟨b, c, d, rfl, digit_id (hm b (by simp)), digit_id (hm c (by simp)), digit_id (hm d (by simp)), nb d (hm d (by simp))⟩
  have nb62 : ∀ k < 62, b62 k ≠ ' ' := by decide
  cases p with
  | minor n =>
    simp only [Perm.cols]
    by_cases h6 : n < 620000
    · rw [if_pos h6]
      obtain ⟨a, b, c, d, e, h1, h2, h3, h4, h5, h6'⟩ := f4 (n % 10000) (Nat.mod_lt _ (by decide))
      rw [e]
      exact ⟨_, a, b, c, d, rfl, Or.inl (b62_id _ (by omega)), h1, h2, h3, h5, h4⟩
    · rw [if_neg h6]
      refine ⟨_, _, _, _, _, rfl, Or.inr rfl, ?_, ?_, ?_, ?_, ?_⟩
      · exact b62_id _ (Nat.mod_lt _ (by decide))
      · exact b62_id _ (Nat.mod_lt _ (by decide))
      · exact b62_id _ (Nat.mod_lt _ (by decide))
      · exact nb62 _ (Nat.mod_lt _ (by decide))
      · exact b62_id _ (Nat.mod_lt _ (by decide))
  | comet n ty =>
    obtain ⟨a, b, c, d, e, h1, h2, h3, h4, h5, h6⟩ := f4 n (by have := h.2.1; omega)
    exact ⟨a, b, c, d, ty, by simp [Perm.cols, e], Or.inl h1, h2, h3, h4, h6, by rcases h.2.2 with rfl | rfl <;> decide⟩
  | fragment n ty frag =>
    obtain ⟨a, b, c, d, e, h1, h2, h3, h4, h5, h6⟩ := f4 n (by have := h.2.1; omega)
    exact ⟨a, b, c, d, ty, by simp [Perm.cols, e], Or.inl h1, h2, h3, h4, h6, by rcases h.2.2.1 with rfl | rfl <;> decide⟩
  | satellite p n =>
    obtain ⟨b, c, d, e, h1, h2, h3, h4⟩ := f3 n (by have := h.2; omega)
    exact ⟨p.letter, b, c, d, 'S', by simp [Perm.cols, e], Or.inl (by cases p <;> decide), h1, h2, h3, h4, by decide⟩

theorem prov_cols_id {q : Prov} (h : q.Valid) (hu : '_' ∉ q.cols) : ∀ c ∈ q.cols, idCh c = true := by
  have hy : ∀ y, y ≤ 6199 → ∀ c ∈ yearCols y, idCh c = true := by
    intro y hy c hc
    simp only [yearCols, List.mem_cons] at hc
    rcases hc with rfl | hc
    · exact b62_id _ (by omega)
    · exact fixed_id _ _ c hc
  have hcc : ∀ n, n ≤ 619 → ∀ c ∈ countCols n, idCh c = true := by
    intro n hn c hc
    simp only [countCols, List.mem_cons, List.not_mem_nil, or_false] at hc
    rcases hc with rfl | rfl
    · exact b62_id _ (by omega)
    · exact b62_id _ (by omega)
  cases q with
  | minor y hf o cy =>
    obtain ⟨h1, h2, h3, h4, h5⟩ := h
    simp only [Prov.cols] at hu ⊢
    by_cases hc : cy ≤ 619
    · rw [if_pos hc]
      intro c hc'
      simp only [List.mem_append, List.mem_singleton] at hc'
      rcases hc' with (((rfl | hc') | rfl) | hc') | rfl
      · decide
      · exact hy y (by omega) c hc'
      · exact half_id _ h3
      · exact hcc cy hc c hc'
      · exact orders_id _ h4
    · rw [if_neg hc] at hu
      simp at hu
  | survey n s =>
    intro c hc
    simp only [Prov.cols, List.mem_append, List.mem_cons, List.not_mem_nil, or_false] at hc
    rcases hc with (rfl | rfl | rfl | rfl) | hc
    · decide
    · cases s <;> decide
    · cases s <;> decide
    · decide
    · exact fixed_id _ _ c hc
  | comet ty y hf o n =>
    obtain ⟨h1, h2, h3, h4, h5, h6⟩ := h
    intro c hc
    simp only [Prov.cols, List.mem_append, List.mem_singleton] at hc
    rcases hc with (((rfl | hc) | rfl) | hc) | rfl
    · have : ∀ c ∈ ['A','C','D','P','X'], idCh c = true := by decide
      exact this _ h1
    · exact hy y h3 c hc
    · exact half_id _ h4
    · exact hcc n h6 c hc
    · cases o with
      | none => decide
      | some o => exact (upper_id _ (h5 o rfl)).1
  | fragment ty y hf n f =>
    obtain ⟨h1, h2, h3, h4, h5, h6, h7⟩ := h
    intro c hc
    simp only [Prov.cols, List.mem_append, List.mem_singleton] at hc
    rcases hc with (((rfl | hc) | rfl) | hc) | rfl
    · have : ∀ c ∈ ['C','D','P','X'], idCh c = true := by decide
      exact this _ h1
    · exact hy y h3 c hc
    · exact half_id _ h4
    · exact hcc n h6 c hc
    · exact (upper_id _ h7).2
  | satellite y p n =>
    obtain ⟨h1, h2, h3, h4⟩ := h
    intro c hc
    simp only [Prov.cols, List.mem_append, List.mem_singleton] at hc
    rcases hc with (((rfl | hc) | rfl) | hc) | rfl
    · decide
    · exact hy y h2 c hc
    · cases p <;> decide
    · exact hcc n h4 c hc
    · decide

/-- columns 1-12 are as the converter wants them, and do not look like a header line -/
theorem columns_id {d : Designation} (h : d.Valid) (hu : '_' ∉ d.columns) (hm : '-' ∉ d.columns) :
    (∀ c ∈ d.columns.take 1, (idCh c = true ∨ c = '~')) ∧ (∀ c ∈ d.columns.drop 1, idCh c = true) ∧ (d.columns[3]? = some ' ' → d.columns.take 3 = c! "   ") := by
  cases d with
  | perm p =>
    obtain ⟨a, b, c, d, e, hc, h1, h2, h3, h4, h5, h6⟩ := perm_cols_id (p := p) h
    have ht : ∀ c ∈ p.tail, idCh c = true := by
      cases p with
      | fragment n ty frag =>
        intro c hc
        simp only [Perm.tail, List.leftpad, List.mem_append, List.mem_replicate, List.mem_map] at hc
        rcases hc with ⟨_, rfl⟩ | ⟨x, hx, rfl⟩
        · decide
        · exact (upper_id _ (h.2.2.2.2 x hx)).2
      | _ => intro c hc; simp only [Perm.tail, List.mem_replicate] at hc; rw [hc.2]; decide
    simp only [Designation.columns, hc]
    refine ⟨?_, ?_, ?_⟩
    · intro x hx; simp at hx; subst hx; exact h1
    · intro x hx
      simp only [List.cons_append, List.drop_succ_cons, List.drop_zero, List.nil_append, List.mem_cons] at hx
      rcases hx with rfl | rfl | rfl | rfl | hx
      all_goals first | assumption | exact ht _ hx
    · intro hx; simp at hx; exact absurd hx h5
  | prov q =>
    simp only [Designation.columns, List.mem_append, not_or] at hu ⊢
    refine ⟨?_, ?_, ?_⟩
    · intro x hx; simp [List.replicate] at hx; subst hx; left; decide
    · intro x hx
      simp only [List.replicate, List.cons_append, List.nil_append, List.drop_succ_cons, List.drop_zero, List.mem_cons] at hx
      rcases hx with rfl | rfl | rfl | hx
      · decide
      · decide
      · decide
      · exact prov_cols_id h hu.2 x hx
    · intro _; simp [List.replicate]
  | both p q =>
    obtain ⟨a, b, c, d, e, hc, h1, h2, h3, h4, h5, h6⟩ := perm_cols_id (p := p) h.1
    have hq : '_' ∉ q.cols := by
      simp only [Designation.columns, List.mem_append, not_or] at hu
      intro hx
      cases q with
      | minor y hf o cy =>
        simp only [Prov.cols] at hx hu
        by_cases hc : cy ≤ 619
        · rw [if_pos hc] at hx hu
          simp only [List.cons_append, List.nil_append, List.mem_cons, List.drop_succ_cons, List.drop_zero] at hx hu
          rcases hx with hx | hx
          · simp at hx
          · exact hu.2 hx
        · rw [if_neg hc] at hu; simp at hu
      | survey n s =>
        simp only [Prov.cols, List.cons_append, List.nil_append, List.mem_cons, List.drop_succ_cons, List.drop_zero] at hx hu
        rcases hx with hx | hx
        · simp at hx
        · exact hu.2 (by simpa using hx)
      | comet ty y hf o n =>
        simp only [Prov.cols, List.cons_append, List.nil_append, List.mem_cons, List.drop_succ_cons, List.drop_zero] at hx hu
        rcases hx with hx | hx
        · subst hx; have := h.2.1.1; simp at this
        · exact hu.2 hx
      | fragment ty y hf n f =>
        simp only [Prov.cols, List.cons_append, List.nil_append, List.mem_cons, List.drop_succ_cons, List.drop_zero] at hx hu
        rcases hx with hx | hx
        · subst hx; have := h.2.1.1; simp at this
        · exact hu.2 hx
      | satellite y p n =>
        simp only [Prov.cols, List.cons_append, List.nil_append, List.mem_cons, List.drop_succ_cons, List.drop_zero] at hx hu
        rcases hx with hx | hx
        · simp at hx
        · exact hu.2 hx
    simp only [Designation.columns, hc]
    refine ⟨?_, ?_, ?_⟩
    · intro x hx; simp at hx; subst hx; exact h1
    · intro x hx
      simp only [List.cons_append, List.drop_succ_cons, List.drop_zero, List.nil_append, List.mem_cons] at hx
      rcases hx with rfl | rfl | rfl | rfl | hx
      all_goals first | assumption | exact prov_cols_id h.2.1 hq _ (List.mem_of_mem_drop hx)
    · intro hx; simp at hx; exact absurd hx h5
  | tracklet t =>
    obtain ⟨h1, h2, h3, h4⟩ := h
    simp only [Designation.columns, List.mem_append, not_or] at hm ⊢
    refine ⟨?_, ?_, ?_⟩
    · intro x hx; simp [List.replicate] at hx; subst hx; left; decide
    · intro x hx
      simp only [List.replicate, List.cons_append, List.nil_append, List.drop_succ_cons, List.drop_zero, List.mem_cons, List.mem_append] at hx
      rcases hx with rfl | rfl | rfl | rfl | hx | hx
      · decide
      · decide
      · decide
      · decide
      · exact trk_id x (h3 x hx) (fun e => hm.1.2 (e ▸ hx))
      · have := List.mem_replicate.1 hx; rw [this.2]; decide
    · intro _; simp [List.replicate]

/-! ### the line is read -/

theorem any_of_plain {t : Str} (h : Plain t) : ∀ c ∈ t, anyCh c = true := by
  intro c hc
  by_cases he : c = '\n'
  · subst he; exact absurd (h _ hc (by decide)) (by decide)
  · simp only [anyCh, Bool.not_eq_true', ch, beq_eq_false_iff_ne, ne_eq]
    intro e; exact he (Char.toNat_inj.1 e)

theorem any_ne {c : Char} (h : c ≠ '\n') : anyCh c = true := by
  simp only [anyCh, Bool.not_eq_true', ch, beq_eq_false_iff_ne, ne_eq]
  intro e; exact h (Char.toNat_inj.1 e)

theorem ne_nl_of {c : Char} (h : c = ' ' ∨ isSpace c = false) : c ≠ '\n' := by
  rintro rfl
  rcases h with h | h
  · revert h; decide
  · revert h; decide

theorem ref_plain {r : RefCols} (h : r.Valid) : ∀ c ∈ r.columns, c ≠ '\n' := by
  cases r with
  | other t => exact fun c hc e => absurd (h.2.2 c hc (e ▸ by decide)) (by rw [e]; decide)
  | page r =>
    have hd : ∀ c ∈ digits10, c ≠ '\n' := by decide
    have hb : ∀ k < 62, b62 k ≠ '\n' := by decide
    have hf : ∀ k n c, c ∈ fixed k n → c ≠ '\n' := fun k n c hc => hd c (fixed_mem k n c hc)
    have h4 : ∀ n c, c ∈ b62x4 n → c ≠ '\n' := by
      intro n c hc
      simp only [b62x4, List.mem_cons, List.not_mem_nil, or_false] at hc
      rcases hc with rfl | rfl | rfl | rfl <;> exact hb _ (Nat.mod_lt _ (by decide))
    have hl : ∀ k < 26, letter k ≠ '\n' := by decide
    intro c hc
    cases r with
    | mpc n =>
      simp only [RefCols.columns, Ref.columns] at hc
      split at hc
      · exact hf _ _ c hc
      · split at hc
        · simp only [List.mem_cons] at hc
          rcases hc with rfl | hc
          · decide
          · exact hf _ _ c hc
        · simp only [List.mem_cons] at hc
          rcases hc with rfl | hc
          · decide
          · exact h4 _ c hc
    | mps n =>
      simp only [RefCols.columns, Ref.columns] at hc
      split at hc
      · simp only [List.mem_cons] at hc
        rcases hc with rfl | hc
        · exact hl _ (by omega)
        · exact hf _ _ c hc
      · simp only [List.mem_cons] at hc
        rcases hc with rfl | hc
        · decide
        · exact h4 _ c hc

/-- the date's characters -/
theorem date_chars {d : ObsDate} (h : d.Valid) : (∀ c ∈ slice d.column 0 4, isDec c = true) ∧ slice d.column 4 5 = [' '] ∧ ∀ c ∈ slice d.column 5 17, numCh c = true := by
  have o := Sex.Ok.of h
  obtain ⟨y, m, dd, n, f⟩ := d
  have h1 := o.hf
  have h31 := o.day31
  have hm := o.hm'
  have hn := o.hn
  have hn' := o.hn'
  have hy := o.hy
  have hy' := o.hy'
  simp only at h1 h31 hm hn hn' hy hy'
  rw [Sex.date_text (by omega) hy' (by omega) (by omega) hn hn' h1]
  have hl : (Spec.dec y).length = 4 := by rw [Sex.year_text (by omega) hy']; rfl
  refine ⟨?_, ?_, ?_⟩
  · intro c hc
    have : slice (Spec.dec y ++ [' '] ++ Spec.fixed 2 m ++ [' '] ++ Spec.fixed 2 dd ++ ['.'] ++ Spec.fixed n f ++ List.replicate (6 - n) ' ') 0 4 = Spec.dec y := by
      simp only [List.append_assoc]
      exact slice_part (pre := []) rfl (by omega)
    rw [this, dec_eq] at hc
    exact natStr_isDec y c hc
  · simp only [List.append_assoc]
    exact slice_part hl rfl
  · intro c hc
    have e : slice (Spec.dec y ++ [' '] ++ Spec.fixed 2 m ++ [' '] ++ Spec.fixed 2 dd ++ ['.'] ++ Spec.fixed n f ++ List.replicate (6 - n) ' ') 5 17 =
        (Spec.fixed 2 m ++ ([' '] ++ (Spec.fixed 2 dd ++ (['.'] ++ (Spec.fixed n f ++ List.replicate (6 - n) ' '))))) := by
      simp only [List.append_assoc]
      rw [← List.append_assoc (Spec.dec y)]
      have := slice_part (pre := Spec.dec y ++ [' ']) (mid := Spec.fixed 2 m ++ ([' '] ++ (Spec.fixed 2 dd ++ (['.'] ++ (Spec.fixed n f ++ List.replicate (6 - n) ' ')))))
        (post := []) (i := 5) (j := 17) (by simp [hl]) (by simp [fixed2 (show m < 100 by omega), fixed2 (show dd < 100 by omega), fixed_length hn h1]; omega)
      simpa using this
    rw [e] at hc
    have fx := fun k n c (h : c ∈ fixed k n) => numCh_digit (fixed_mem k n c h)
    simp only [List.mem_append, List.mem_singleton, List.mem_replicate] at hc
    rcases hc with hc | rfl | hc | rfl | hc | ⟨_, rfl⟩
    · exact fx _ _ _ hc
    · decide
    · exact fx _ _ _ hc
    · decide
    · exact fx _ _ _ hc
    · decide

theorem slice_of_slice (s : Str) {a b i j : Nat} (h : a + j ≤ b) : slice (slice s a b) i j = slice s (a + i) (a + j) := by
  unfold slice
  rw [List.drop_take, List.drop_drop, List.take_take]
  congr 1; omega

theorem note_ne {o : Optical} (h : o.Valid) : o.note ≠ '\n' := by
  intro e
  have := h.note
  rw [e] at this
  split at this
  · revert this; decide
  · revert this; decide

theorem line_ok {o : Optical} (h : o.Valid) : normalL.ok o.line := by
  have p := parts h
  obtain ⟨i1, i2, i3⟩ := columns_id h.desig h.noExt.1 h.noExt.2
  obtain ⟨d1, d2, d3⟩ := date_chars h.date
  have hid := columns_length h.desig
  refine (common_ok _ _ _).2 ⟨?_, ?_, ?_, ?_, ?_, ?_, ?_, ?_, ?_⟩
  · intro c hc
    have : slice o.line 0 1 = o.desig.columns.take 1 := by rw [← p.id]; simp [slice, List.take_take]
    rw [this] at hc
    rcases i1 c hc with hc | rfl
    · simp only [idCh, Bool.or_eq_true] at hc ⊢
      rcases hc with hc | hc <;> simp [hc]
    · decide
  · intro c hc
    have : slice o.line 1 12 = o.desig.columns.drop 1 := by rw [← p.id]; simp [slice, List.drop_take]
    rw [this] at hc
    exact i2 c hc
  · intro c hc
    rw [p.disc] at hc
    simp at hc; subst hc
    exact (oneOf_iff _ _).2 h.disc
  · intro c hc
    rw [p.note] at hc
    simp at hc; subst hc
    exact any_ne (note_ne h)
  · intro c hc
    rw [p.code] at hc
    simp at hc; subst hc
    refine (oneOf_iff _ _).2 ?_
    have := h.code
    have hs : ∀ c ∈ c! "A PeCBTMcEOHNnXSV", c ∈ c! "A PeCBTMcEOHNnSVXx" := by decide
    exact hs _ this
  · intro c hc
    have : slice o.line 15 19 = slice o.date.column 0 4 := by rw [← p.date, slice_of_slice _ (by omega)]
    rw [this] at hc; exact d1 c hc
  · intro c hc
    have : slice o.line 19 20 = slice o.date.column 4 5 := by rw [← p.date, slice_of_slice _ (by omega)]
    rw [this, d2] at hc
    simp at hc; subst hc; decide
  · intro c hc
    have : slice o.line 20 32 = slice o.date.column 5 17 := by rw [← p.date, slice_of_slice _ (by omega)]
    rw [this] at hc; exact d3 c hc
  · have q : ∀ a b : Nat, ((o.line.drop 32).drop a).take b = slice o.line (32 + a) (32 + a + b) := by
      intro a b; simp [slice, List.drop_drop]
    simp only [Layout.ok, Field.width, subsWidth, Sub.width, subsOk, Sub.ok, Nat.add_zero, and_true, List.drop_drop, List.take_take, List.drop_take]
    simp only [Nat.reduceAdd, Nat.reduceSub, Nat.min_self]
    refine ⟨?_, ⟨?_, ?_⟩, ?_, ?_, ?_, ?_, ?_⟩
    · intro c hc
      change c ∈ slice o.line 32 44 at hc
      rw [p.ra] at hc
      exact column_chars (sex_text_chars _) c hc
    · intro c hc
      have e : slice o.line 44 45 = [if o.south then '-' else '+'] := by
        have : slice o.line 44 45 = (slice o.line 44 56).take 1 := by simp [slice, List.take_take]
        rw [this, p.dec, Sex.column_sign]; rfl
      have hc' : c ∈ slice o.line 44 45 := by simpa [slice] using hc
      rw [e] at hc'
      simp at hc'; subst hc'
      cases o.south <;> decide
    · intro c hc
      have e : slice o.line 45 56 = Spec.column 11 o.dec.text := by
        have : slice o.line 45 56 = (slice o.line 44 56).drop 1 := by simp [slice, List.drop_take]
        rw [this, p.dec, Sex.column_sign]; rfl
      have hc' : c ∈ slice o.line 45 56 := by simpa [slice] using hc
      rw [e] at hc'
      exact column_chars (sex_text_chars _) c hc'
    · intro c hc
      change c ∈ slice o.line 56 65 at hc
      rw [p.spare] at hc
      exact any_ne (fun e => h.spare.2.1 (e ▸ hc))
    · intro c hc
      change c ∈ slice o.line 65 70 at hc
      rw [p.mag] at hc
      exact any_of_plain h.mag.2 c hc
    · intro c hc
      change c ∈ slice o.line 70 71 at hc
      rw [p.band] at hc
      simp at hc; subst hc
      exact any_ne (ne_nl_of h.band)
    · intro c hc
      change c ∈ slice o.line 71 77 at hc
      rw [p.cat] at hc
      simp at hc
      rcases hc with rfl | hc
      · exact any_ne (ne_nl_of h.cat)
      · exact any_ne (ref_plain h.ref c hc)
    · intro c hc
      change c ∈ slice o.line 77 80 at hc
      rw [p.stn] at hc
      exact any_ne (ne_nl_of (Or.inr (h.stn.2 c hc)))

theorem line_no_header {o : Optical} (h : o.Valid) : reMatch headerRegex o.line = none := by
  have hn : '\n' ∉ o.line := by
    have hd : '\n' ∉ o.desig.columns := by
      obtain ⟨i1, i2, _⟩ := columns_id h.desig h.noExt.1 h.noExt.2
      intro hm
      rw [← List.take_append_drop 1 o.desig.columns, List.mem_append] at hm
      rcases hm with hm | hm
      · rcases i1 _ hm with h | h
        · revert h; decide
        · revert h; decide
      · have := i2 _ hm; revert this; decide
    have hnum : ∀ t : Str, (∀ c ∈ t, numCh c = true) → '\n' ∉ t := fun t ht hm => by have := ht _ hm; revert this; decide
    have hdate : '\n' ∉ o.date.column := by
      obtain ⟨d1, d2, d3⟩ := date_chars h.date
      have hl := date_length h.date
      have e : o.date.column = slice o.date.column 0 4 ++ slice o.date.column 4 5 ++ slice o.date.column 5 17 := by
        rw [slice_append _ (by omega) (by omega), slice_append _ (by omega) (by omega)]
        simp [slice, ← hl]
      rw [e]
      simp only [List.mem_append, not_or]
      refine ⟨⟨fun hm => ?_, by rw [d2]; decide⟩, hnum _ d3⟩
      have := d1 _ hm; revert this; decide
    unfold Optical.line
    simp only [List.mem_append, List.mem_cons, List.not_mem_nil, or_false, not_or]
    refine ⟨⟨⟨⟨⟨⟨⟨⟨⟨hd, ?_, (note_ne h).symm, ?_⟩, hdate⟩, hnum _ (column_chars (sex_text_chars _))⟩, ?_⟩, h.spare.2.1⟩, ?_⟩, (ne_nl_of h.band).symm, (ne_nl_of h.cat).symm⟩, ?_⟩, ?_⟩
    · intro e; have := h.disc; rw [← e] at this; revert this; decide
    · intro e; have := h.code; rw [← e] at this; revert this; decide
    · rw [Sex.column_sign, List.mem_cons, not_or]
      exact ⟨by cases o.south <;> decide, hnum _ (column_chars (sex_text_chars _))⟩
    · intro hm; have := any_of_plain h.mag.2 _ hm; revert this; decide
    · intro hm; exact ref_plain h.ref _ hm rfl
    · intro hm; have := h.stn.2 _ hm; revert this; decide
  have hm := header_match (t := []) hn (Or.inl rfl)
  rw [List.append_nil] at hm
  rw [hm, if_neg]
  rintro ⟨h1, h2⟩
  have hl := columns_length h.desig
  have e : o.line.take 12 = o.desig.columns := by have := (parts h).id; simpa [slice] using this
  have e3 : o.desig.columns.take 3 = o.line.take 3 := by rw [← e, List.take_take]; rfl
  have e4 : o.desig.columns[3]? = o.line[3]? := by rw [← e, List.getElem?_take]; simp
  have := (columns_id h.desig h.noExt.1 h.noExt.2).2.2 (by rw [e4]; exact h2)
  rw [← e3, this] at h1
  revert h1; decide

/-! ### the values read -/

theorem inStr_one (c : Char) (s : Str) : inStr [c] s = true ↔ c ∈ s := by
  unfold inStr
  induction s with
  | nil => simp [strFind]
  | cons d s ih =>
    by_cases h : c = d
    · subst h; simp [strFind]
    · have e : List.isPrefixOf [c] (d :: s) = false := by simp [List.isPrefixOf, h]
      rw [strFind]
      simp [e, h, ih]

theorem note_ok {o : Optical} (h : o.Valid) : noteOk o.stn [o.note] := by
  have hv := h.note
  refine ⟨?_, ?_⟩
  · by_cases hu : o.usesPrograms
    · exact Or.inl hu
    · rw [if_neg hu] at hv
      refine Or.inr ((inStr_one _ _).2 ?_)
      have : ∀ c ∈ noteLetters, c ∈ validNotes := by decide +kernel
      exact this _ hv
  · refine (inStr_one _ _).2 ?_
    by_cases hu : o.usesPrograms
    · rw [if_pos hu] at hv
      have : ∀ c ∈ programLetters, c ∈ validProgramCodes := by decide +kernel
      rcases hv with hv | hv
      · rw [hv]; decide
      · exact this _ hv
    · rw [if_neg hu] at hv
      have : ∀ c ∈ noteLetters, c ∈ validProgramCodes := by decide +kernel
      exact this _ hv

theorem code_ok {o : Optical} (h : o.Valid) : inStr [o.code] validCodes = true := by
  refine (inStr_one _ _).2 ?_
  have : ∀ c ∈ c! "A PeCBTMcEOHNnXSV", c ∈ validCodes := by decide
  exact this _ h.code

/-- the item read from an optical line, given the time and the angles -/
def lineItem (o : Optical) (time ra dec : Str) : Item :=
  checked (normalItem o.line time (.int (10 ^ (6 - o.date.digits))) ra (precOf o.ra) dec (precOf o.dec)) time (.int (10 ^ (6 - o.date.digits))) o.cat
    ⟨o.desig.permText, o.desig.provText, trkRead o.desig⟩

/-- the time and angles are what the converter makes of the columns -/
structure Converted (o : Optical) (time ra dec : Str) : Prop where
  time : Sex.checkDate o.date.column = .ok (time, .int (10 ^ (6 - o.date.digits)))
  ra : Sex.checkRa (Spec.column 12 o.ra.text) = .ok (ra, precOf o.ra)
  dec : Sex.checkDec (Spec.column 12 ((if o.south then '-' else '+') :: o.dec.text)) = .ok (dec, precOf o.dec)

theorem reading {o : Optical} (h : o.Valid) : ∃ time ra dec, Converted o time ra dec ∧ o.Reading time ra dec := by
  obtain ⟨w, ms, h1, h2, h3, h4, h5⟩ := C32_round_trip o.date h.date h.notLate
  obtain ⟨K, h6, h7⟩ := C30_accepted o.ra h.ra
  obtain ⟨L, h8, h9⟩ := C31_accepted o.south o.dec h.dec
  refine ⟨_, _, _, ⟨h4, h6, h8⟩, ⟨w, ms, h1, h2, ?_, rfl⟩, ⟨K, rfl, ?_⟩, ⟨L, ?_, ?_⟩⟩
  · rw [abs_le] at h3
    constructor <;> linarith [h3.1, h3.2]
  · rw [abs_le] at h7
    push_cast
    constructor <;> linarith [h7.1, h7.2]
  · cases o.south <;> rfl
  · rw [abs_le] at h9
    push_cast
    constructor <;> linarith [h9.1, h9.2]

theorem decode_line {o : Optical} (h : o.Valid) {time ra dec : Str} (hc : Converted o time ra dec) : decode80ColumnDataLine o.line = .ok (lineItem o time ra dec) := by
  have p := parts h
  rw [decode_ok]
  have hcol : decodeColumns o.line = .ok (normalItem o.line time (.int (10 ^ (6 - o.date.digits))) ra (precOf o.ra) dec (precOf o.dec)) := by
    refine (decodeColumns_ok p.len).2 (Or.inl ⟨line_ok h, decodeNormal_ok.2 ⟨_, _, _, _, _, _, ?_, ?_, ?_, rfl⟩⟩)
    · rw [p.date]; exact hc.time
    · rw [p.ra]; exact hc.ra
    · rw [p.dec]; exact hc.dec
  refine Or.inr (Or.inr ⟨p.len, line_no_header h, _, hcol, ?_⟩)
  · have hu := unpack_valid h.desig
    refine decodeChecks_ok.2 ⟨o.date.column, time, _, [o.code], o.stn, [o.note], o.cat, o.ref.columns, o.desig.columns, _, ?_, ?_, ?_, ?_, ?_, code_ok h, note_ok h, ?_, ?_, hu, rfl⟩
    · simp [normalItem, normalColumns, commonItem, get?_put, get?_set, p.date]
    · have : (Item.get? (normalItem o.line time (.int (10 ^ (6 - o.date.digits))) ra (precOf o.ra) dec (precOf o.dec)) (c! "trx")).isSome = false := by
        simp [normalItem, normalColumns, commonItem, get?_put, get?_set, get?_nil]
      rw [this]; exact hc.time
    · simp [normalItem, normalColumns, commonItem, get?_put, get?_set, p.code]
    · simp [normalItem, normalColumns, commonItem, get?_put, get?_set, p.stn]
    · simp [normalItem, normalColumns, commonItem, get?_put, get?_set, p.note]
    · simp [normalItem, normalColumns, commonItem, get?_put, get?_set, p.cat]
    · simp [normalItem, normalColumns, commonItem, get?_put, get?_set, p.id]

end Verif.Mpc80
