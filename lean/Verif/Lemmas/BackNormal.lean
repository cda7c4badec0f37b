import Verif.Lemmas.BackRun
/-
  Lemmas for C39: the normal form is stable.
-/
namespace Verif.ToMpc80
open Verif Verif.Mpc80 Verif.PackUtil Verif.Spec.Mpc80 Verif.Xml
open Verif.Spec hiding Item Group fileText Group.lines contextElem

/-- without the blanks at the end -/
def rtrim (t : Str) : Str := (t.reverse.dropWhile (· = ' ')).reverse

theorem drop_blanks (t : Str) : ∃ i, t = List.replicate i ' ' ++ t.dropWhile (· = ' ') ∧ ∀ c ∈ (t.dropWhile (· = ' ')).head?, c ≠ ' ' := by
  induction t with
  | nil => exact ⟨0, rfl, by simp⟩
  | cons c t ih =>
    by_cases h : c = ' '
    · subst h
      obtain ⟨i, h1, h2⟩ := ih
      refine ⟨i + 1, ?_, ?_⟩
      · rw [List.dropWhile_cons_of_pos (by simp), List.replicate_succ, List.cons_append, ← h1]
      · rw [List.dropWhile_cons_of_pos (by simp)]; exact h2
    · refine ⟨0, ?_, ?_⟩
      · rw [List.dropWhile_cons_of_neg (by simpa using h)]; rfl
      · rw [List.dropWhile_cons_of_neg (by simpa using h)]; simpa using h

theorem rtrim_split (t : Str) : ∃ j, t = rtrim t ++ List.replicate j ' ' ∧ ∀ c ∈ (rtrim t).getLast?, c ≠ ' ' := by
  obtain ⟨j, h1, h2⟩ := drop_blanks t.reverse
  refine ⟨j, ?_, ?_⟩
  · have := congrArg List.reverse h1
    rw [List.reverse_reverse, List.reverse_append, List.reverse_replicate] at this
    exact this
  · unfold rtrim
    rw [List.getLast?_reverse]
    exact h2

theorem trim_split (t : Str) : ∃ i j, t = List.replicate i ' ' ++ trim t ++ List.replicate j ' ' := by
  obtain ⟨i, h1, _⟩ := drop_blanks t
  obtain ⟨j, h3, _⟩ := rtrim_split (t.dropWhile (· = ' '))
  refine ⟨i, j, ?_⟩
  rw [List.append_assoc]
  exact h1.trans (congrArg _ h3)

theorem trim_ends (t : Str) : (∀ c ∈ (trim t).head?, c ≠ ' ') ∧ ∀ c ∈ (trim t).getLast?, c ≠ ' ' := by
  obtain ⟨i, h1, h2⟩ := drop_blanks t
  obtain ⟨j, h3, h4⟩ := rtrim_split (t.dropWhile (· = ' '))
  refine ⟨?_, h4⟩
  intro c hc
  refine h2 c ?_
  rw [h3]
  change c ∈ (rtrim (t.dropWhile (· = ' '))).head? at hc
  cases hx : rtrim (t.dropWhile (· = ' ')) with
  | nil => rw [hx] at hc; simp at hc
  | cons x l => rw [hx] at hc; simpa using hc

theorem drop_rep (i : Nat) (t : Str) : (List.replicate i ' ' ++ t).dropWhile (· = ' ') = t.dropWhile (· = ' ') := by
  induction i with
  | zero => rfl
  | succ i ih => rw [List.replicate_succ, List.cons_append, List.dropWhile_cons_of_pos (by simp), ih]

theorem drop_none {t : Str} (h : ∀ c ∈ t.head?, c ≠ ' ') : t.dropWhile (· = ' ') = t := by
  cases t with
  | nil => rfl
  | cons c t => exact List.dropWhile_cons_of_neg (by simpa using h)

theorem trim_pad (i j : Nat) {s : Str} (h1 : ∀ c ∈ s.head?, c ≠ ' ') (h2 : ∀ c ∈ s.getLast?, c ≠ ' ') : trim (List.replicate i ' ' ++ s ++ List.replicate j ' ') = s := by
  unfold trim
  rw [List.append_assoc, drop_rep]
  cases s with
  | nil =>
    have := drop_rep j []
    simp only [List.append_nil, List.dropWhile_nil] at this
    simp [this]
  | cons c s =>
    rw [List.cons_append, List.dropWhile_cons_of_neg (by simpa using h1), ← List.cons_append, List.reverse_append, List.reverse_replicate, drop_rep,
      drop_none (by rw [List.head?_reverse]; exact h2), List.reverse_reverse]

theorem trim_of_ends {s : Str} (h1 : ∀ c ∈ s.head?, c ≠ ' ') (h2 : ∀ c ∈ s.getLast?, c ≠ ' ') : trim s = s := by
  have := trim_pad 0 0 h1 h2
  simpa using this

theorem trim_trim (t : Str) : trim (trim t) = trim t := trim_of_ends (trim_ends t).1 (trim_ends t).2

theorem left_eq (w : Nat) (t : Str) : List.leftpad w ' ' t = List.replicate (w - t.length) ' ' ++ t := rfl
theorem right_eq (w : Nat) (t : Str) : List.rightpad w ' ' t = t ++ List.replicate (w - t.length) ' ' := rfl

/-- the column of a number without point -/
theorem column_plain {w k : Nat} {t : Str} (h : '.' ∉ t) (hl : t.length ≤ w + k) :
    pointColumn w k t = List.replicate (w - t.length) ' ' ++ t ++ List.replicate (w + k - max w t.length) ' ' := by
  unfold pointColumn
  have e1 : t.takeWhile (· ≠ '.') = t := by
    have := List.takeWhile_append_of_pos (p := (· ≠ '.')) (l₁ := t) (l₂ := []) (by intro c hc; simp; rintro rfl; exact h hc)
    simpa using this
  have e2 : t.dropWhile (· ≠ '.') = [] := by
    have := List.dropWhile_append_of_pos (p := (· ≠ '.')) (l₁ := t) (l₂ := []) (by intro c hc; simp; rintro rfl; exact h hc)
    simpa using this
  rw [e1, e2, left_eq, right_eq, List.take_append, List.take_of_length_le (by simp; omega)]
  congr 1
  rw [List.nil_append, List.take_replicate]
  congr 1
  simp
  omega

theorem column_point {w k : Nat} {a b : Str} (h : '.' ∉ a) (hl : a.length + 1 ≤ w + k) (hk : 1 ≤ k) :
    pointColumn w k (a ++ '.' :: b) = List.replicate (w - a.length) ' ' ++ a ++ '.' :: (List.rightpad (k - 1) ' ' b).take (w + k - max w a.length - 1) := by
  unfold pointColumn
  have e1 : (a ++ '.' :: b).takeWhile (· ≠ '.') = a := by
    rw [List.takeWhile_append_of_pos (by intro c hc; simp; rintro rfl; exact h hc)]
    simp
  have e2 : (a ++ '.' :: b).dropWhile (· ≠ '.') = '.' :: b := by
    rw [List.dropWhile_append_of_pos (by intro c hc; simp; rintro rfl; exact h hc)]
    simp
  rw [e1, e2, left_eq, right_eq, List.take_append, List.take_of_length_le (by simp; omega)]
  congr 1
  rw [right_eq]
  obtain ⟨n, hn⟩ : ∃ n, w + k - (List.replicate (w - a.length) ' ' ++ a).length = n + 1 := ⟨w + k - (List.replicate (w - a.length) ' ' ++ a).length - 1, by simp; omega⟩
  rw [hn, List.cons_append, List.take_succ_cons]
  have : n = w + k - max w a.length - 1 := by
    simp at hn; omega
  rw [this]
  congr 4
  simp
  omega

theorem rightpad_rtrim {n : Nat} {y : Str} (h : y.length ≤ n) : (List.rightpad n ' ' (rtrim y)).take y.length = y := by
  obtain ⟨j, h1, _⟩ := rtrim_split y
  rw [right_eq]
  have hl : y.length = (rtrim y).length + j := by
    have := congrArg List.length h1
    simpa using this
  rw [List.take_append, List.take_of_length_le (by omega), List.take_replicate]
  conv => rhs; rw [h1]
  congr 2
  omega

theorem column_stable {w k : Nat} {t : Str} (hk : 1 ≤ k) (hl : t.length ≤ w + k) (h1 : ∀ c ∈ t.head?, c ≠ ' ') (h2 : ∀ c ∈ t.getLast?, c ≠ ' ') :
    pointColumn w k (trim (pointColumn w k t)) = pointColumn w k t := by
  by_cases hd : '.' ∈ t
  · obtain ⟨a, b, rfl, ha⟩ := exists_split hd
    have la : a.length + 1 ≤ w + k := by simp at hl; omega
    rw [column_point ha la hk]
    generalize hy : (List.rightpad (k - 1) ' ' b).take (w + k - max w a.length - 1) = y
    have ly : y.length = w + k - max w a.length - 1 := by
      rw [← hy, List.length_take, right_eq]; simp; omega
    obtain ⟨j, e1, e2⟩ := rtrim_split y
    have ht : trim (List.replicate (w - a.length) ' ' ++ a ++ '.' :: y) = a ++ '.' :: rtrim y := by
      have := trim_pad (w - a.length) j (s := a ++ '.' :: rtrim y) (by
        cases a with
        | nil => simp
        | cons x a => simpa using h1) (by
        intro c hc
        rw [List.getLast?_append, List.getLast?_cons] at hc
        cases hr : (rtrim y).getLast? with
        | none => rw [hr] at hc; simp at hc; subst hc; decide
        | some z => rw [hr] at hc; simp at hc; subst hc; exact e2 z (by simp [hr]))
      rw [← this]
      congr 1
      conv => lhs; rw [e1]
      simp [List.append_assoc]
    rw [ht, column_point ha la hk]
    congr 2
    rw [← ly]
    exact rightpad_rtrim (by rw [ly]; omega)
  · rw [column_plain hd hl, trim_pad _ _ h1 h2, column_plain hd hl]

theorem column_length (w k : Nat) (t : Str) : (pointColumn w k t).length = w + k := by
  unfold pointColumn
  rw [List.length_take, List.length_append, left_eq, right_eq]
  simp; omega

theorem column_sub {w k : Nat} {t : Str} {c : Char} (hc : c ∈ pointColumn w k t) : c = ' ' ∨ c ∈ t := by
  unfold pointColumn at hc
  have := List.mem_of_mem_take hc
  rw [left_eq, right_eq] at this
  simp only [List.mem_append, List.mem_replicate] at this
  rcases this with (⟨_, h⟩ | h) | (h | ⟨_, h⟩)
  · exact Or.inl h
  · exact Or.inr ((List.takeWhile_sublist _).subset h)
  · exact Or.inr ((List.dropWhile_sublist _).subset h)
  · exact Or.inl h

theorem column_count {w k : Nat} {t : Str} : (pointColumn w k t).count '.' ≤ t.count '.' := by
  unfold pointColumn
  refine Nat.le_trans ((List.take_sublist _ _).count_le _) ?_
  rw [left_eq, right_eq]
  conv => rhs; rw [← List.takeWhile_append_dropWhile (p := (· ≠ '.')) (l := t)]
  simp only [List.count_append, List.count_replicate]
  simp

theorem column_fits {w k : Nat} {t : Str} (hk : 1 ≤ k) (hl : max w (t.takeWhile (· ≠ '.')).length + (t.dropWhile (· ≠ '.')).length ≤ w + k) (h1 : ∀ c ∈ t.head?, c ≠ ' ') (h2 : ∀ c ∈ t.getLast?, c ≠ ' ') :
    trim (pointColumn w k t) = t := by
  have e : pointColumn w k t = List.replicate (w - (t.takeWhile (· ≠ '.')).length) ' ' ++ t ++ List.replicate (w + k - max w (t.takeWhile (· ≠ '.')).length - (t.dropWhile (· ≠ '.')).length) ' ' := by
    unfold pointColumn
    rw [left_eq, right_eq]
    have ht := List.takeWhile_append_dropWhile (p := (· ≠ '.')) (l := t)
    generalize List.takeWhile _ t = a at *
    generalize List.dropWhile _ t = b at *
    rw [← ht, List.take_append, List.take_of_length_le (by simp; omega), List.take_append, List.take_of_length_le (by simp; omega), List.take_replicate]
    simp only [List.append_assoc]
    congr 4
    simp only [List.length_append, List.length_replicate]
    omega
  rw [e, trim_pad _ _ h1 h2]

theorem column_empty {w k : Nat} {t : Str} (hk : 1 ≤ k) (hl : t.length ≤ w + k) (h1 : ∀ c ∈ t.head?, c ≠ ' ') (h2 : ∀ c ∈ t.getLast?, c ≠ ' ') (hn : t ≠ []) :
    trim (pointColumn w k t) ≠ [] := by
  intro h
  have hb : ∀ c ∈ pointColumn w k t, c = ' ' := by
    obtain ⟨i, j, e⟩ := trim_split (pointColumn w k t)
    rw [h] at e
    intro c hc
    rw [e, List.append_nil, List.mem_append] at hc
    rcases hc with h | h <;> exact (List.mem_replicate.1 h).2
  by_cases hd : '.' ∈ t
  · obtain ⟨a, b, rfl, ha⟩ := exists_split hd
    rw [column_point ha (by simp at hl; omega) hk] at hb
    exact absurd (hb '.' (by simp)) (by decide)
  · rw [column_plain hd hl] at hb
    cases t with
    | nil => exact hn rfl
    | cons x t => exact h1 x (by simp) (hb x (by simp))

theorem cat_stable (c : Char) : normalCat (normalCat c) = normalCat c := by
  unfold normalCat
  by_cases h : c ∈ PackUtil.catCodes.map Prod.fst
  · rw [if_pos h, if_pos h]
  · rw [if_neg h, ite_self]

theorem ref_stable (r : RefCols) : r.normal.normal = r.normal := by
  cases r with
  | page r => rfl
  | other t =>
    simp only [RefCols.normal]
    have := trim_pad 0 (5 - (trim t).length) (trim_ends t).1 (trim_ends t).2
    simp only [List.replicate_zero, List.nil_append] at this
    rw [right_eq 5 (trim t), this, ← right_eq]

theorem trim_len5 {t : Str} (h : t.length = n) : (trim t).length ≤ n := h ▸ trim_length t

theorem optical_stable {o : Optical} (hm : o.mag.length = 5) : o.normal.normal = o.normal := by
  have h5 : (trim o.mag).length ≤ 2 + 3 := trim_len5 hm
  have hs : pointColumn 2 3 (trim (pointColumn 2 3 (trim o.mag))) = pointColumn 2 3 (trim o.mag) := column_stable (by omega) h5 (trim_ends _).1 (trim_ends _).2
  have hb : normalBand (pointColumn 2 3 (trim o.mag)) (normalBand o.mag o.band) = normalBand o.mag o.band := by
    unfold normalBand
    by_cases he : trim o.mag = []
    · rw [if_pos he, if_pos (by rw [he]; decide)]
    · rw [if_neg he, if_neg (column_empty (by omega) h5 (trim_ends _).1 (trim_ends _).2 he)]
      by_cases hx : o.band = ' '
      · simp [hx]
      · simp [hx]
  simp only [Optical.normal, hs, hb, cat_stable, ref_stable]

theorem plain_trim {t : Str} (h : Plain t) : Plain (trim t) := fun c hc => h c ((trim_sublist t).subset hc)

theorem ref_valid {r : RefCols} (h : r.Valid) (hr : r.Restorable) : r.normal.Valid ∧ r.normal.Restorable := by
  cases r with
  | page r => exact ⟨h, hr⟩
  | other t =>
    obtain ⟨h1, _, h3⟩ := h
    obtain ⟨r1, r2, r3⟩ := hr
    have e := trim_pad 0 (5 - (trim t).length) (trim_ends t).1 (trim_ends t).2
    simp only [List.replicate_zero, List.nil_append] at e
    refine ⟨⟨?_, ?_, ?_⟩, ?_⟩
    · have := trim_len5 h1
      rw [right_eq]; simp; omega
    · intro c hc
      rw [right_eq] at hc
      cases ht : trim t with
      | nil => rw [ht] at hc; simp at hc; subst hc; decide
      | cons x l => rw [ht] at hc r3; exact r3 c (by simpa using hc)
    · intro c hc hs
      rw [right_eq, List.mem_append] at hc
      rcases hc with hc | hc
      · exact plain_trim h3 c hc hs
      · exact (List.mem_replicate.1 hc).2
    · simp only [RefCols.normal, RefCols.Restorable]
      rw [right_eq, e]
      exact ⟨r1, r2, r3⟩

theorem uses_normal (o : Optical) : o.normal.usesPrograms ↔ o.usesPrograms := Iff.rfl

theorem cat_blank {c : Char} (h : c = ' ' ∨ isSpace c = false) : normalCat c = ' ' ∨ isSpace (normalCat c) = false := by
  unfold normalCat; split
  · exact h
  · exact Or.inl rfl

theorem optical_valid {o : Optical} (h : o.Valid) (hr : o.Restorable) : o.normal.Valid ∧ o.normal.Restorable := by
  refine ⟨⟨h.desig, h.noExt, h.disc, h.note, h.code, h.date, h.notLate, h.ra, h.dec, ?_, ?_, ?_, cat_blank h.cat, (ref_valid h.ref hr.ref).1, h.stn⟩, ⟨hr.stn, ?_, (ref_valid h.ref hr.ref).2⟩⟩
  · exact ⟨by simp [Optical.normal], by simp [Optical.normal], by simp [Optical.normal]⟩
  · refine ⟨column_length 2 3 _, ?_⟩
    intro c hc hs
    rcases column_sub hc with h' | h'
    · exact h'
    · exact plain_trim h.mag.2 c h' hs
  · show normalBand o.mag o.band = ' ' ∨ _
    simp only [Optical.normal, normalBand]
    split
    · exact Or.inl rfl
    · split
      · exact Or.inr (by decide)
      · exact h.band
  · exact Nat.le_trans column_count (Nat.le_trans ((trim_sublist _).count_le _) hr.mag)

theorem ref_break {o : Optical} (h : o.Valid) : o.ref.columns.length = 5 ∧ noBreak o.ref.columns := by
  have h1 := line_noBreak h (Or.inl rfl)
  have h2 := line_noBreak h (Or.inr rfl)
  refine ⟨ref_length h.ref, ?_, ?_⟩
  · exact fun hm => h1 (by unfold Optical.line; simp [hm])
  · exact fun hm => h2 (by unfold Optical.line; simp [hm])

theorem obs_stable {b : Obs} (h : b.Valid) (hr : b.Restorable) : b.normal.Valid ∧ b.normal.Restorable ∧ b.normal.normal = b.normal := by
  cases b with
  | ground o => exact ⟨⟨(optical_valid h.1 hr).1, h.2⟩, (optical_valid h.1 hr).2, congrArg Obs.ground (optical_stable h.1.mag.1)⟩
  | spacecraft o s =>
    obtain ⟨h1, h2, h3⟩ := h
    refine ⟨⟨(optical_valid h1 hr).1, h2, ⟨h1.disc, h1.note, h3.x, h3.y, h3.z, ref_break (optical_valid h1 hr).1⟩⟩, (optical_valid h1 hr).2, ?_⟩
    simp only [Obs.normal, optical_stable h1.mag.1]
    simp only [Spacecraft.normal, Optical.normal, ref_stable]
  | rover o r =>
    obtain ⟨h1, h2, h3, h4⟩ := h
    obtain ⟨r1, f1, f2⟩ := hr
    have e1 := column_fits (w := 3) (k := 7) (by omega) f1.2.2 (trim_ends _).1 (trim_ends _).2
    have e2 := column_fits (w := 3) (k := 7) (by omega) f2.2.2 (trim_ends _).1 (trim_ends _).2
    have e3 : trim (List.leftpad 5 ' ' (trim r.alt)) = trim r.alt := by
      have := trim_pad (5 - (trim r.alt).length) 0 (trim_ends r.alt).1 (trim_ends r.alt).2
      simpa [left_eq] using this
    have num : ∀ {w k : Nat} {t : Str}, (∀ c ∈ t, c ∈ numberChars) → ∀ c ∈ pointColumn w k (trim t), c ∈ numberChars := by
      intro w k t ht c hc
      rcases column_sub hc with rfl | h'
      · decide
      · exact ht c ((trim_sublist _).subset h')
    have fit : ∀ {t : Str}, Fits t → trim (pointColumn 3 7 (trim t)) = trim t → Fits (pointColumn 3 7 (trim t)) := by
      intro t ht e
      refine ⟨by rw [e]; exact ht.1, Nat.le_trans column_count (Nat.le_trans ((trim_sublist _).count_le _) ht.2.1), by rw [e]; exact ht.2.2⟩
    obtain ⟨b1, b2⟩ := ref_break (optical_valid h1 r1).1
    refine ⟨⟨(optical_valid h1 r1).1, h2, h3, ⟨h1.disc, h1.note, ⟨column_length 3 7 _, num h4.lon.2⟩, ⟨column_length 3 7 _, num h4.lat.2⟩, ⟨?_, ?_, ?_⟩, ?_⟩⟩,
      ⟨(optical_valid h1 r1).2, fit f1 e1, fit f2 e2⟩, ?_⟩
    · have := trim_len5 h4.alt.1
      simp only [Rover.normal, left_eq]; simp; omega
    · intro c hc
      simp only [Rover.normal, left_eq, List.mem_append] at hc
      rcases hc with hc | hc
      · rw [(List.mem_replicate.1 hc).2]; decide
      · exact h4.alt.2.1 c ((trim_sublist _).subset hc)
    · simp only [Rover.normal]; rw [e3]; exact h4.alt.2.2
    · have hc : normalCat o.cat ≠ '\n' ∧ normalCat o.cat ≠ '\r' := by
        have := cat_blank h1.cat
        constructor <;> intro e <;> rw [e] at this <;> revert this <;> decide
      refine ⟨congrArg (· + 1) b1, ?_, ?_⟩
      · simp only [Rover.normal, List.mem_cons, not_or]; exact ⟨hc.1.symm, b2.1⟩
      · simp only [Rover.normal, List.mem_cons, not_or]; exact ⟨hc.2.symm, b2.2⟩
    · simp only [Obs.normal, optical_stable h1.mag.1]
      simp only [Rover.normal, Optical.normal, ref_stable, cat_stable, e1, e2, e3]

/-! ### header lines -/

theorem comma_none : ∀ {a : Str}, ',' ∉ a → commaNames a = [a]
  | [], _ => rfl
  | c :: a, h => by
    have hc : c ≠ ',' := by rintro rfl; exact h (by simp)
    rw [commaNames, comma_none (a := a) fun hm => h (by simp [hm])]
    simp [hc]

theorem comma_cons : ∀ {a s : Str}, ',' ∉ a → commaNames (a ++ ',' :: s) = a :: commaNames s
  | [], s, _ => by
    rw [List.nil_append, commaNames]
    cases hs : commaNames s with
    | nil => exact absurd hs (by cases s <;> simp [commaNames]; split <;> (try split) <;> simp)
    | cons w ws => simp
  | c :: a, s, h => by
    have hc : c ≠ ',' := by rintro rfl; exact h (by simp)
    rw [List.cons_append, commaNames, comma_cons (a := a) fun hm => h (by simp [hm])]
    simp [hc]

theorem comma_parts : ∀ v : Str, commaNames v ≠ [] ∧ ∀ w ∈ commaNames v, ',' ∉ w
  | [] => by simp [commaNames]
  | c :: v => by
    obtain ⟨h1, h2⟩ := comma_parts v
    rw [commaNames]
    cases hn : commaNames v with
    | nil => exact absurd hn h1
    | cons w ws =>
      rw [hn] at h2
      simp only
      split
      · exact ⟨by simp, by intro x hx; rcases List.mem_cons.1 hx with rfl | hx; · simp
                           exact h2 x hx⟩
      · rename_i hc
        refine ⟨by simp, ?_⟩
        intro x hx
        rcases List.mem_cons.1 hx with rfl | hx
        · rw [List.mem_cons, not_or]; exact ⟨fun e => hc e.symm, h2 w (by simp)⟩
        · exact h2 x (by simp [hx])

theorem names_join : ∀ {x : Str} {l : List Str}, ',' ∉ x → (∀ w ∈ l, ',' ∉ w) → commaNames (joinNames (x :: l)) = x :: l.map (' ' :: ·)
  | x, [], h, _ => comma_none h
  | x, y :: l, h, hl => by
    have e : joinNames (x :: y :: l) = x ++ ',' :: (' ' :: joinNames (y :: l)) := by simp [joinNames]
    rw [e, comma_cons h]
    have ih := names_join (x := y) (l := l) (hl y (by simp)) fun w hw => hl w (by simp [hw])
    rw [commaNames, ih]
    simp

theorem trim_blank (t : Str) : trim (' ' :: t) = trim t := by
  unfold trim
  rw [List.dropWhile_cons_of_pos (by simp)]

theorem trim_comma {t : Str} (h : ',' ∉ t) : ',' ∉ trim t := fun hm => h ((trim_sublist t).subset hm)

theorem value_stable (k v : Str) : normalValue k (normalValue k v) = normalValue k v := by
  unfold normalValue
  by_cases h1 : k = c! "OBS" ∨ k = c! "MEA"
  · simp only [if_pos h1]
    obtain ⟨c1, c2⟩ := comma_parts v
    cases hn : commaNames v with
    | nil => exact absurd hn c1
    | cons x l =>
      rw [hn] at c2
      rw [List.map_cons, names_join (trim_comma (c2 x (by simp))) (by
        intro w hw
        obtain ⟨z, hz, rfl⟩ := List.mem_map.1 hw
        exact trim_comma (c2 z (by simp [hz]))), List.map_cons, trim_trim, List.map_map, List.map_map]
      congr 2
      exact List.map_congr_left fun z _ => by simp [trim_blank, trim_trim]
  · simp only [if_neg h1]
    by_cases h2 : k = c! "CON" ∧ ',' ∈ v
    · rw [if_pos h2]
      have ha : ',' ∉ trim (v.takeWhile (· ≠ ',')) := trim_comma fun hm => by
        have : ∀ (l : Str) c, c ∈ l.takeWhile (· ≠ ',') → c ≠ ',' := by
          intro l
          induction l with
          | nil => simp
          | cons a l ih =>
            intro c hc
            rw [List.takeWhile_cons] at hc
            split at hc
            · rename_i h
              rcases List.mem_cons.1 hc with rfl | hc
              · simpa using h
              · exact ih c hc
            · simp at hc
        exact this _ _ hm rfl
      have e : joinNames [trim (v.takeWhile (· ≠ ',')), trim (v.dropWhile (· ≠ ',')).tail] = trim (v.takeWhile (· ≠ ',')) ++ ',' :: ' ' :: trim (v.dropWhile (· ≠ ',')).tail := by simp [joinNames]
      rw [e]
      have ea := trim_trim (v.takeWhile (· ≠ ','))
      generalize trim (v.takeWhile (· ≠ ',')) = a at *
      have e1 : (a ++ ',' :: ' ' :: trim (v.dropWhile (· ≠ ',')).tail).takeWhile (· ≠ ',') = a := by
        rw [List.takeWhile_append_of_pos (by intro c hc; simp; rintro rfl; exact ha hc)]
        simp
      have e2 : (a ++ ',' :: ' ' :: trim (v.dropWhile (· ≠ ',')).tail).dropWhile (· ≠ ',') = ',' :: ' ' :: trim (v.dropWhile (· ≠ ',')).tail := by
        rw [List.dropWhile_append_of_pos (by intro c hc; simp; rintro rfl; exact ha hc)]
        simp
      rw [if_pos ⟨h2.1, by simp⟩, e1, e2, List.tail_cons, trim_blank, trim_trim, ea]
      simp [joinNames]
    · rw [if_neg h2]
      rw [if_neg (fun h => h2 ⟨h.1, (trim_sublist v).subset h.2⟩), trim_trim]

theorem first_com {seen : List Str} : ∀ {l : List (Str × Str)}, (∀ x ∈ l, x.1 = c! "COM") → firstHeaders seen l = []
  | [], _ => rfl
  | (k, v) :: l, h => by
    have : k = c! "COM" := h (k, v) (by simp)
    subst this
    rw [firstHeaders, if_neg (by rintro ⟨h, _⟩; revert h; decide)]
    exact first_com fun x hx => h x (by simp [hx])

theorem first_stable : ∀ {hs : List (Str × Str)} {seen : List Str} {l : List (Str × Str)}, (∀ x ∈ l, x.1 = c! "COM") → firstHeaders seen (firstHeaders seen hs ++ l) = firstHeaders seen hs
  | [], seen, l, h => by rw [firstHeaders, List.nil_append, first_com h]
  | (k, v) :: hs, seen, l, h => by
    rw [firstHeaders]
    split
    · rename_i hc
      rw [List.cons_append, firstHeaders, if_pos hc, value_stable, first_stable h]
    · exact first_stable h

theorem first_words : ∀ {hs : List (Str × Str)} {seen : List Str}, ∀ x ∈ firstHeaders seen hs, x.1 ∈ contextWords
  | [], _, x, hx => by simp [firstHeaders] at hx
  | (k, v) :: hs, seen, x, hx => by
    rw [firstHeaders] at hx
    split at hx
    · rcases List.mem_cons.1 hx with rfl | hx
      · rename_i h; exact h.1
      · exact first_words x hx
    · exact first_words x hx

theorem comments_normal (hs : List (Str × Str)) : commentLines (normalHeaders hs) = (commentLines hs).map trim := by
  unfold normalHeaders
  generalize commentLines hs = cs
  unfold commentLines
  rw [List.filter_append, List.filter_eq_nil_iff.2 (by
    intro x hx
    have := first_words x hx
    simp only [decide_eq_true_eq]
    rintro e; rw [e] at this; revert this; decide), List.nil_append, List.filter_eq_self.2 (by
    intro x hx
    obtain ⟨t, _, rfl⟩ := List.mem_map.1 hx
    simp), List.map_map]
  rfl

theorem headers_stable (hs : List (Str × Str)) : normalHeaders (normalHeaders hs) = normalHeaders hs := by
  have e := comments_normal hs
  have e1 : normalHeaders (normalHeaders hs) = firstHeaders [] (normalHeaders hs) ++ (commentLines (normalHeaders hs)).map fun t => (c! "COM", trim t) := rfl
  rw [e1, e, List.map_map]
  unfold normalHeaders
  rw [first_stable (by intro x hx; obtain ⟨t, _, rfl⟩ := List.mem_map.1 hx; rfl)]
  congr 1
  exact List.map_congr_left fun t _ => by simp [trim_trim]

theorem join_plain : ∀ {l : List Str}, (∀ w ∈ l, Plain w) → Plain (joinNames l)
  | [], _ => by intro c hc; simp [joinNames] at hc
  | [x], h => h x (by simp)
  | x :: y :: l, h => by
    have ih := join_plain (l := y :: l) fun w hw => h w (by simp [hw])
    intro c hc hs
    rw [joinNames] at hc
    · simp only [List.mem_append, List.mem_cons, List.not_mem_nil, or_false] at hc
      rcases hc with (hc | hc | hc) | hc
      · exact h x (by simp) c hc hs
      · subst hc; revert hs; decide
      · exact hc
      · exact ih c hc hs
    · simp

theorem value_plain {k v : Str} (h : Plain v) : Plain (normalValue k v) := by
  unfold normalValue
  split
  · exact join_plain (by intro w hw; obtain ⟨z, hz, rfl⟩ := List.mem_map.1 hw; exact plain_trim (comma_plain h z hz))
  · split
    · refine join_plain ?_
      intro w hw
      simp only [List.mem_cons, List.not_mem_nil, or_false] at hw
      rcases hw with rfl | rfl
      · exact plain_trim fun c hc => h c ((List.takeWhile_sublist _).subset hc)
      · exact plain_trim fun c hc => h c ((List.dropWhile_sublist _).subset (List.mem_of_mem_tail hc))
    · exact plain_trim h

theorem first_plain : ∀ {hs : List (Str × Str)} {seen : List Str}, (∀ h ∈ hs, Plain h.2) → ∀ x ∈ firstHeaders seen hs, Plain x.2
  | [], _, _, x, hx => by simp [firstHeaders] at hx
  | (k, v) :: hs, seen, h, x, hx => by
    rw [firstHeaders] at hx
    split at hx
    · rcases List.mem_cons.1 hx with rfl | hx
      · exact value_plain (h (k, v) (by simp))
      · exact first_plain (fun y hy => h y (by simp [hy])) x hx
    · exact first_plain (fun y hy => h y (by simp [hy])) x hx

theorem headers_plain {hs : List (Str × Str)} (h : ∀ x ∈ hs, Plain x.2) : ∀ x ∈ normalHeaders hs, Plain x.2 ∧ x.1 ∈ headerWords := by
  intro x hx
  rcases List.mem_append.1 hx with hx | hx
  · refine ⟨first_plain h x hx, ?_⟩
    have := first_words x hx
    have e : ∀ k ∈ contextWords, k ∈ headerWords := by decide
    exact e _ this
  · obtain ⟨t, ht, rfl⟩ := List.mem_map.1 hx
    obtain ⟨y, hy, rfl⟩ := List.mem_map.1 ht
    exact ⟨plain_trim (h y (List.mem_of_mem_filter hy)), by show c! "COM" ∈ headerWords; decide⟩

theorem plain_break {t : Str} (h : Plain t) : noBreak t := by
  constructor <;> intro hm
  · have := h _ hm (by decide); revert this; decide
  · have := h _ hm (by decide); revert this; decide

end Verif.ToMpc80
