import Verif.Lemmas.Sent
import Verif.Props.Mpc80Back
/-
  Lemmas for C44: what is read from the lines written for arbitrary observations.
-/
namespace Verif.ToMpc80
open Verif Verif.Mpc80 Verif.PackUtil Verif.Spec.Mpc80 Verif.Xml Verif.Master
open Verif.Spec hiding Item Group fileText Group.lines contextElem

section
variable {a : Sent} {o : Optical} {pt pr pd : Str} {e : Elem}

theorem unit_ok {u : Nat × Nat} (h : u ∈ timeUnits) : 1 ≤ u.2 ∧ u.2 ≤ 6 := by
  revert u; decide

theorem date_ok (h : a.Writable) (hl : a.Line o) : o.date.Valid := by
  obtain ⟨d1, d2, d3⟩ := hl.day
  obtain ⟨u, u1, u2, u3⟩ := hl.digits
  obtain ⟨k, k1, _⟩ := hl.time
  have hu := unit_ok u1
  refine ⟨by rw [d1]; exact h.year.1, by rw [d1]; exact h.year.2, by rw [d2]; exact h.month.1, by rw [d2]; exact h.month.2, by rw [d3]; exact h.day.1,
    by rw [d1, d2, d3]; exact h.day.2, by omega, by omega, ?_⟩
  rw [k1]
  exact Nat.mod_lt _ (by positivity)

/-- the fraction does not wrap around -/
theorem date_frac (hr : a.Readable) (hl : a.Line o) : 
    a.seconds / 86400 * 10 ^ o.date.digits - o.date.frac ≤ 1 / 2 + 1 / 1000000000 ∧ -(a.seconds / 86400 * 10 ^ o.date.digits - o.date.frac) ≤ 1 / 2 + 1 / 1000000000 := by
  obtain ⟨u, u1, u2, u3⟩ := hl.digits
  obtain ⟨k, k1, k2, k3⟩ := hl.time
  have hm := hr.midnight u u1 u2
  push_cast at k2 k3 hm
  rw [← u3] at hm
  have hpos : (0 : ℚ) < 10 ^ o.date.digits := by positivity
  have hlt : k < 10 ^ o.date.digits := by
    have : a.seconds / 86400 * 10 ^ o.date.digits < 10 ^ o.date.digits - (1 / 2 + 1 / 1000000000) := by
      have := mul_lt_mul_of_pos_right hm (show (0 : ℚ) < 10 ^ o.date.digits / 86400 by positivity)
      have e1 : a.seconds * (10 ^ o.date.digits / 86400) = a.seconds / 86400 * 10 ^ o.date.digits := by ring
      have e2 : (86400 - 86400 / (10 : ℚ) ^ o.date.digits * (1 / 2 + 1 / 1000000000)) * (10 ^ o.date.digits / 86400) = 10 ^ o.date.digits - (1 / 2 + 1 / 1000000000) := by
        field_simp
      rw [e1, e2] at this
      exact this
    have h2 : (k : ℚ) < 10 ^ o.date.digits := by linarith
    exact_mod_cast h2
  rw [Nat.mod_eq_of_lt hlt] at k1
  rw [k1]
  exact ⟨k2, k3⟩

theorem not_late (hr : a.Readable) (hl : a.Line o) : ¬ o.date.late := by
  rintro ⟨j, hj, e⟩
  obtain ⟨u, u1, u2, u3⟩ := hl.digits
  obtain ⟨f1, f2⟩ := date_frac hr hl
  have := hr.late u u1 u2 j hj
  push_cast at this
  rw [← u3] at this
  have hpos : (0 : ℚ) < 10 ^ o.date.digits := by positivity
  have e' : (o.date.frac : ℚ) = j * 10 ^ o.date.digits / 1600 := by
    have : (o.date.frac : ℚ) * 1600 = j * 10 ^ o.date.digits := by exact_mod_cast e
    linarith
  rw [e'] at f1 f2
  have hs : ∀ x : ℚ, x * (86400 / 10 ^ o.date.digits) = 86400 / 10 ^ o.date.digits * x := fun x => mul_comm _ _
  have g1 := mul_le_mul_of_nonneg_left f1 (show (0 : ℚ) ≤ 86400 / 10 ^ o.date.digits by positivity)
  have g2 := mul_le_mul_of_nonneg_left f2 (show (0 : ℚ) ≤ 86400 / 10 ^ o.date.digits by positivity)
  have e1 : 86400 / 10 ^ o.date.digits * (a.seconds / 86400 * 10 ^ o.date.digits - (j : ℚ) * 10 ^ o.date.digits / 1600) = a.seconds - 54 * j := by
    field_simp; ring
  rw [mul_neg, e1] at g2
  rw [e1] at g1
  rcases this with t | t <;> linarith

theorem two_digits {r : Sexagesimal} (hr : r.Valid 3) (h : r.unit ≠ 1 / 1000) : r.Valid 2 := by
  cases r with
  | seconds a m s d f =>
    obtain ⟨a1, a2, a3, a4, a5, a6⟩ := hr
    refine ⟨a1, a2, a3, a4, ?_, a6⟩
    rcases Nat.lt_or_eq_of_le a5 with h' | h'
    · omega
    · subst h'
      exact absurd (by rw [Sexagesimal.unit]; push_cast; norm_num) h
  | wholeSeconds a m s => exact hr
  | minutes a m d f => exact hr
  | wholeMinutes a m => exact hr

theorem ra_ok (hr : a.Readable) (hl : a.Line o) : o.ra.Valid 3 := by
  obtain ⟨h1, h2, h3, h4⟩ := hl.ra
  have hf := hr.raFull
  push_cast at h3 h4 hf
  exact carried h2 h1 (abs_le.2 ⟨by linarith, h3⟩) hf

theorem dec_ok (hr : a.Readable) (hl : a.Line o) : o.dec.Valid 2 := by
  obtain ⟨h1, h2, h3, h4⟩ := hl.dec
  have hf := hr.decFull
  push_cast at h3 h4 hf
  refine two_digits (carried h2 h1 (abs_le.2 ⟨by linarith, h3⟩) hf) ?_
  rw [h1]
  have := hr.precDec
  push_cast at this
  norm_num at this ⊢
  exact this

theorem uses_iff (hl : a.Line o) : o.usesPrograms ↔ a.stn ∈ programCodeSites := by unfold Optical.usesPrograms; rw [hl.stn]

theorem program_mem {i : Nat} (h : i < 94) : programLetters.getD i ' ' ∈ programLetters ∧ programLetters.idxOf (programLetters.getD i ' ') = i ∧ programLetters.getD i ' ' ≠ ' ' := by
  have q : (List.range 94).all (fun i => decide (programLetters.getD i ' ' ∈ programLetters ∧ programLetters.idxOf (programLetters.getD i ' ') = i ∧ programLetters.getD i ' ' ≠ ' ')) = true := by
    decide +kernel
  have := List.all_eq_true.1 q i (List.mem_range.2 h)
  simpa using this

/-- no programme at an observatory without, no note at one with -/
theorem note_cases (hr : a.Readable) (hi : a.In pt pr pd e) (hl : a.Line o) :
    (a.stn ∈ programCodeSites ∧ a.notes = none ∧ ((a.prog = none ∧ o.note = ' ') ∨ ∃ i < 94, a.prog = some i ∧ o.note = programLetters.getD i ' ')) ∨
    (a.stn ∉ programCodeSites ∧ a.prog = none ∧ ((a.notes = none ∧ o.note = ' ') ∨ ∃ c t, a.notes = some (c :: t) ∧ o.note = c ∧ c ∈ noteLetters ∧ c ≠ ' ')) := by
  have hn := hl.note
  unfold Sent.noteLetter at hn
  by_cases hs : a.stn ∈ programCodeSites
  · left
    have hno : a.notes = none := by
      cases h : a.notes with
      | none => rfl
      | some t => exact absurd hs (hr.notes t (by simp [h])).1
    refine ⟨hs, hno, ?_⟩
    cases h : a.prog with
    | none => rw [h, hno] at hn; exact .inl ⟨rfl, hn⟩
    | some i => rw [h] at hn; exact .inr ⟨i, (hr.prog i (by simp [h])).2, rfl, hn⟩
  · right
    have hno : a.prog = none := by
      cases h : a.prog with
      | none => rfl
      | some t => exact absurd (hr.prog t (by simp [h])).1 hs
    refine ⟨hs, hno, ?_⟩
    rw [hno] at hn
    cases h : a.notes with
    | none => rw [h] at hn; exact .inl ⟨rfl, hn⟩
    | some t =>
      rw [h] at hn
      have hg := hi.notes
      rw [h] at hg
      cases t with
      | nil => exact absurd rfl (field_good hg).1
      | cons c t => exact .inr ⟨c, t, rfl, hn, (hr.notes (c :: t) (by simp [h])).2 c rfl⟩

theorem numeral_chars {m : Numeral} (h : m.Valid) {c : Char} (hc : c ∈ m.text) : c ∈ c! "+-.0123456789" := by
  obtain ⟨h1, h2, h3, _⟩ := h
  have hd : ∀ c : Char, c ∈ c! "0123456789" → c ∈ c! "+-.0123456789" := by
    intro c hc; simp only [List.mem_cons, List.not_mem_nil, or_false] at hc ⊢; tauto
  unfold Numeral.text at hc
  rcases List.mem_append.1 hc with hc | hc
  · rcases List.mem_append.1 hc with hc | hc
    · have := h1 c (by simpa using hc)
      rcases this with rfl | rfl <;> decide
    · exact hd c (h2 c hc)
  · cases hf : m.frac with
    | none => rw [hf] at hc; simp at hc
    | some f =>
      rw [hf] at hc
      rcases List.mem_cons.1 hc with rfl | hc
      · decide
      · exact hd c (h3 f (by simp [hf]) c hc)

theorem chars_space {c : Char} (h : c ∈ c! "+-.0123456789") : isSpace c = false := by
  revert c; decide

theorem chars_blank {c : Char} (h : c ∈ c! "+-.0123456789") : c ≠ ' ' := by
  rintro rfl; revert h; decide

theorem mag_plain (h : a.Writable) : Plain (pointColumn 2 3 ((a.mag.map Numeral.text).getD [])) := by
  intro c hc hs
  rcases column_sub hc with h' | h'
  · exact h'
  · cases hm : a.mag with
    | none => rw [hm] at h'; simp at h'
    | some m =>
      rw [hm] at h'
      have := chars_space (numeral_chars (h.mag m (by simp [hm])) h')
      rw [this] at hs; exact absurd hs (by decide)

theorem trim_take {i n : Nat} {t : Str} (j : Nat) (hi : i ≤ n) (h : ∀ c ∈ t, c ≠ ' ') : trim ((List.replicate i ' ' ++ t ++ List.replicate j ' ').take n) = t.take (n - i) := by
  rw [List.append_assoc, List.take_append, List.take_append, List.take_replicate, List.take_replicate, List.length_replicate, Nat.min_eq_right hi, ← List.append_assoc]
  refine trim_pad i _ ?_ ?_
  · intro c hc; exact h c (List.mem_of_mem_take (List.mem_of_mem_head? hc))
  · intro c hc; exact h c (List.mem_of_mem_take (List.mem_of_mem_getLast? hc))

theorem mag_kept {m : Numeral} (h : m.Valid) : trim (pointColumn 2 3 m.text) = magKept m := by
  have hb : ∀ c ∈ m.text, c ≠ ' ' := fun c hc => chars_blank (numeral_chars h hc)
  have hw : m.text.takeWhile (· ≠ '.') = m.sign.toList ++ m.whole ∧ m.text.dropWhile (· ≠ '.') = (match m.frac with | some f => '.' :: f | none => []) := by
    have hn : ∀ c ∈ m.sign.toList ++ m.whole, decide (c ≠ '.') = true := by
      intro c hc
      obtain ⟨h1, h2, _⟩ := h
      rcases List.mem_append.1 hc with hc | hc
      · rcases h1 c (by simpa using hc) with rfl | rfl <;> decide
      · have q : ∀ c ∈ c! "0123456789", decide (c ≠ '.') = true := by decide
        exact q c (h2 c hc)
    unfold Numeral.text
    rw [List.takeWhile_append_of_pos hn, List.dropWhile_append_of_pos hn]
    cases m.frac <;> simp
  unfold pointColumn
  rw [hw.1, hw.2, left_eq, right_eq, ← List.append_assoc, List.append_assoc (List.replicate _ _) (m.sign.toList ++ m.whole)]
  rw [show m.sign.toList ++ m.whole ++ (match m.frac with | some f => '.' :: f | none => []) = m.text from rfl, trim_take _ (by omega) hb]
  unfold magKept
  congr 1
  rw [List.length_append]; omega

theorem kept_ne {m : Numeral} (h : m.Valid) : magKept m ≠ [] := by
  unfold magKept
  have : m.text ≠ [] := by
    obtain ⟨_, _, _, h4⟩ := h
    unfold Numeral.text
    rcases h4 with h4 | h4
    · simp [h4]
    · cases hf : m.frac with
      | none => rw [hf] at h4; simp at h4
      | some f => simp
  intro h'
  rw [List.take_eq_nil_iff] at h'
  rcases h' with h' | h'
  · omega
  · exact this h'

theorem ref_ok (hr : a.Readable) : ((a.ref.map RefText.cols).getD (.other (c! "     "))).Valid := by
  cases h : a.ref with
  | none => exact ⟨rfl, by decide, by intro c hc _; revert c; decide⟩
  | some r =>
    have := hr.ref r (by simp [h])
    cases r with
    | page r => exact this
    | other t =>
      obtain ⟨h1, h2, h3⟩ := this
      simp only [Option.map_some, Option.getD_some, RefText.cols]
      rw [show t.length - 5 = 0 by omega, List.drop_zero]
      refine ⟨by rw [right_eq]; simp; omega, ?_, ?_⟩
      · intro c hc
        cases t with
        | nil => rw [show (List.rightpad 5 ' ' []).head? = some ' ' from rfl] at hc; obtain rfl : ' ' = c := by simpa using hc
                 decide
        | cons x t => exact h2 c (by simpa [right_eq] using hc)
      · intro c hc hs
        rw [right_eq] at hc
        rcases List.mem_append.1 hc with hc | hc
        · exact h3 c hc hs
        · simpa using (List.mem_replicate.1 hc).2

theorem ref_kept (hr : a.Readable) (hi : a.In pt pr pd e) : opt ((a.ref.map RefText.cols).getD (.other (c! "     "))).text = a.ref.map RefText.text := by
  have hg := hi.ref
  cases h : a.ref with
  | none => decide
  | some r =>
    have := hr.ref r (by simp [h])
    rw [h] at hg
    obtain ⟨g1, g2⟩ := field_good hg
    cases r with
    | page r =>
      simp only [RefText.text] at g1
      simp only [Option.map_some, Option.getD_some, RefText.cols, RefCols.text, RefText.text]
      exact if_neg g1
    | other t =>
      obtain ⟨h1, h2, h3⟩ := this
      simp only [RefText.text] at g1 g2
      simp only [Option.map_some, Option.getD_some, RefText.cols, RefCols.text, RefText.text]
      have hs := trim_of_strip g2
      rw [show t.length - 5 = 0 by omega, List.drop_zero, right_eq]
      have := trim_pad 0 (5 - t.length) (s := t) (hs ▸ (trim_ends t).1) (hs ▸ (trim_ends t).2)
      simp only [List.replicate_zero, List.nil_append] at this
      rw [this, opt, if_neg g1]

theorem cat_kept (n : Str) : catName (catLetter n) = (if n ∈ catCodes.map Prod.snd then n else c! "UNK") ∧ (catLetter n = ' ' ∨ isSpace (catLetter n) = false) := by
  by_cases h : n ∈ catCodes.map Prod.snd
  · rw [if_pos h]
    have q : ∀ n ∈ catCodes.map Prod.snd, catName (catLetter n) = n ∧ (catLetter n = ' ' ∨ isSpace (catLetter n) = false) := by decide +kernel
    exact q n h
  · rw [if_neg h]
    have : catLetter n = ' ' := by
      unfold catLetter
      rw [List.find?_eq_none.2]
      · rfl
      · intro x hx; simp only [decide_eq_true_eq]; rintro rfl; exact h (List.mem_map.2 ⟨x, hx, rfl⟩)
    rw [this]
    exact ⟨by decide +kernel, .inl rfl⟩

theorem mode_kept {m : Str} (h : m ∈ modeLetters.map Prod.fst) :
    let c := ((modeLetters.find? fun x => x.1 = m).map Prod.snd).getD ' '
    modeOf c = m ∧ c ∈ c! "A PeCBTMcEOHNnXSV" ∧ c ≠ 'A' ∧ c ≠ 'X' ∧ c ≠ 'S' ∧ c ≠ 'V' := by
  revert m; decide


theorem code_kept (h : a.Writable) (hr : a.Readable) (hl : a.Line o) :
    o.code ∈ c! "A PeCBTMcEOHNnXSV" ∧
    modeOf o.code = (if a.deprecated = false ∧ a.place.isGround then (if a.subFrm.isNone then a.mode else c! "PHo") else c! "CCD") ∧
    (o.code = 'A' ↔ a.deprecated = false ∧ a.place.isGround ∧ a.subFrm.isSome) ∧ (o.code = 'X' ↔ a.deprecated = true) ∧
    (match a.place with | .ground => o.code ≠ 'S' ∧ o.code ≠ 'V' | .spacecraft _ _ _ _ => o.code = 'S' | .rover _ _ _ => o.code = 'V') := by
  rw [hl.code]
  unfold Sent.codeLetter
  cases hd : a.deprecated with
  | true =>
    rw [hr.deprecated hd]
    simp only [if_true]
    simp; decide
  | false =>
    have hm := h.mode hd
    cases hp : a.place with
    | ground =>
      cases hs : a.subFrm with
      | none =>
        obtain ⟨m1, m2, m3, m4, m5, m6⟩ := mode_kept (hm hp hs)
        simp only [Option.isSome_none, Option.isNone_none, Bool.false_eq_true, if_false, if_true, Place.isGround, and_self, and_false, iff_false]
        exact ⟨m2, m1, m3, m4, m5, m6⟩
      | some f => simp [Place.isGround]; decide
    | spacecraft au x y z => simp [Place.isGround]; decide
    | rover lon lat alt => simp [Place.isGround]; decide

theorem optical_ok (h : a.Writable) (hr : a.Readable) (hi : a.In pt pr pd e) (hl : a.Line o) : o.Valid where
  desig := by rw [hl.desig]; exact h.desig
  noExt := by rw [hl.desig]; exact hr.noExt
  disc := by
    rw [hl.disc]
    cases hd : a.disc with
    | none => decide
    | some c => rcases hr.disc c (by simp [hd]) with rfl | rfl <;> decide
  note := by
    rcases note_cases hr hi hl with ⟨h1, _, h2⟩ | ⟨h1, _, h2⟩
    · rw [if_pos ((uses_iff hl).2 h1)]
      rcases h2 with ⟨_, h2⟩ | ⟨i, hi, _, h2⟩
      · exact .inl h2
      · rw [h2]; exact .inr (program_mem hi).1
    · rw [if_neg (fun h' => h1 ((uses_iff hl).1 h'))]
      rcases h2 with ⟨_, h2⟩ | ⟨c, t, _, h2, h3, _⟩
      · rw [h2]; decide
      · rw [h2]; exact h3
  code := (code_kept h hr hl).1
  date := date_ok h hl
  notLate := not_late hr hl
  ra := ra_ok hr hl
  dec := dec_ok hr hl
  spare := by rw [hl.spare]; decide
  mag := by rw [hl.mag]; exact ⟨column_length 2 3 _, mag_plain h⟩
  band := by
    rw [hl.band]
    cases hb : a.band with
    | none => exact .inl rfl
    | some b => exact .inr (hr.band b (by simp [hb]))
  cat := by rw [hl.cat]; exact (cat_kept _).2
  ref := by rw [hl.ref]; exact ref_ok hr
  stn := by rw [hl.stn]; exact hr.stn

theorem number_col {w k : Nat} {t : Str} (h : ∀ c ∈ t, c ∈ numberChars) : ∀ c ∈ pointColumn w k t, c ∈ numberChars := by
  intro c hc
  rcases column_sub hc with rfl | hc
  · decide
  · exact h c hc

theorem obs_ok (h : a.Writable) (hr : a.Readable) (hi : a.In pt pr pd e) (hl : a.Line o) : (a.obs o).Valid := by
  have ho := optical_ok h hr hi hl
  have hc := (code_kept h hr hl).2.2.2.2
  have hrl := ref_break ho
  have hw := h.place
  have hrd := hr.place
  have hpf := hi.place
  unfold Sent.obs
  cases hp : a.place with
  | ground => rw [hp] at hc; exact ⟨ho, hc⟩
  | spacecraft au x y z =>
    rw [hp] at hc hw
    exact ⟨ho, hc, ⟨ho.disc, ho.note, hw.1, hw.2.1, hw.2.2, hrl⟩⟩
  | rover lon lat alt =>
    rw [hp] at hc hw hrd hpf
    obtain ⟨r1, r2, r3⟩ := hrd
    obtain ⟨f0, f1, f2, f3⟩ := hpf
    refine ⟨ho, hc, by rw [hl.stn]; exact r1, ⟨ho.disc, ho.note, ⟨column_length _ _ _, number_col fun c hc => r2 c (by simp [hc])⟩,
      ⟨column_length _ _ _, number_col fun c hc => r2 c (by simp [hc])⟩, ⟨by rw [left_eq]; simp; omega, ?_, ?_⟩, ?_⟩⟩
    · intro c hc
      rw [left_eq] at hc
      rcases List.mem_append.1 hc with hc | hc
      · rw [(List.mem_replicate.1 hc).2]; decide
      · exact r2 c (by simp [hc])
    · rw [left_eq]
      have hs := trim_of_strip (field_good f3).2
      have := trim_pad (5 - alt.length) 0 (s := alt) (hs ▸ (trim_ends alt).1) (hs ▸ (trim_ends alt).2)
      simp only [List.replicate_zero, List.append_nil] at this
      rw [this]
      exact (field_good f3).1
    · have hcat := ho.cat
      refine ⟨by simp [hrl.1], ?_, ?_⟩
      · intro hm
        rcases List.mem_cons.1 hm with hm | hm
        · rw [← hm] at hcat; revert hcat; decide
        · exact hrl.2.1 hm
      · intro hm
        rcases List.mem_cons.1 hm with hm | hm
        · rw [← hm] at hcat; revert hcat; decide
        · exact hrl.2.2 hm


theorem opt_get {x : Option Str} (h : x ≠ some []) : opt (x.getD []) = x := by
  cases x with
  | none => rfl
  | some t => exact opt_some (by rintro rfl; exact h rfl)

/-- the precision, as a number -/
theorem unit_numeral {r : Sexagesimal} (h : r.Valid 3) : ∃ n : Numeral, n.Valid ∧ n.text = precText r ∧ n.value = r.unit := by
  have q : ∀ (w : Str) (f : Option Str) (v : ℚ), (w ++ (match f with | some f => '.' :: f | none => [])) = precText r → (∀ c ∈ w, c ∈ c! "0123456789") →
      (∀ x ∈ f, ∀ c ∈ x, c ∈ c! "0123456789") → w ≠ [] → (⟨none, w, f⟩ : Numeral).value = v → v = r.unit → ∃ n : Numeral, n.Valid ∧ n.text = precText r ∧ n.value = r.unit := by
    intro w f v h1 h2 h3 h4 h5 h6
    refine ⟨⟨none, w, f⟩, ⟨by simp, h2, h3, .inl h4⟩, ?_, h5.trans h6⟩
    rw [← h1]; rfl
  have dig : ∀ x : Str, (x.all fun c => decide (c ∈ c! "0123456789")) = true → ∀ y ∈ some x, ∀ c ∈ y, c ∈ c! "0123456789" := by
    intro x hx y hy c hc
    obtain rfl : x = y := by simpa using hy
    simpa using List.all_eq_true.1 hx c hc
  have v1 : (⟨none, c! "0", some (c! "1")⟩ : Numeral).value = mkRat 1 10 := by decide +kernel
  have v2 : (⟨none, c! "0", some (c! "01")⟩ : Numeral).value = mkRat 1 100 := by decide +kernel
  have v3 : (⟨none, c! "0", some (c! "001")⟩ : Numeral).value = mkRat 1 1000 := by decide +kernel
  have v4 : (⟨none, c! "1", none⟩ : Numeral).value = mkRat 1 1 := by decide +kernel
  have v5 : (⟨none, c! "6", none⟩ : Numeral).value = mkRat 6 1 := by decide +kernel
  have v6 : (⟨none, c! "0", some (c! "6")⟩ : Numeral).value = mkRat 6 10 := by decide +kernel
  have v7 : (⟨none, c! "60", none⟩ : Numeral).value = mkRat 60 1 := by decide +kernel
  cases r with
  | seconds a m s d f =>
    obtain ⟨-, -, -, h1, h2, -⟩ := h
    obtain rfl | rfl | rfl : d = 1 ∨ d = 2 ∨ d = 3 := by omega
    · exact q (c! "0") (some (c! "1")) _ rfl (by decide) (dig _ (by decide)) (by decide) v1 (by rw [Sexagesimal.unit, Rat.mkRat_eq_div]; norm_num)
    · exact q (c! "0") (some (c! "01")) _ rfl (by decide) (dig _ (by decide)) (by decide) v2 (by rw [Sexagesimal.unit, Rat.mkRat_eq_div]; norm_num)
    · exact q (c! "0") (some (c! "001")) _ rfl (by decide) (dig _ (by decide)) (by decide) v3 (by rw [Sexagesimal.unit, Rat.mkRat_eq_div]; norm_num)
  | wholeSeconds a m s => exact q (c! "1") none _ rfl (by decide) (by simp) (by decide) v4 (by rw [Sexagesimal.unit, Rat.mkRat_eq_div]; norm_num)
  | minutes a m d f =>
    obtain ⟨-, -, h1, h2, -⟩ := h
    obtain rfl | rfl : d = 1 ∨ d = 2 := by omega
    · exact q (c! "6") none _ rfl (by decide) (by simp) (by decide) v5 (by rw [Sexagesimal.unit, Rat.mkRat_eq_div]; norm_num)
    · exact q (c! "0") (some (c! "6")) _ rfl (by decide) (dig _ (by decide)) (by decide) v6 (by rw [Sexagesimal.unit, Rat.mkRat_eq_div]; norm_num)
  | wholeMinutes a m => exact q (c! "60") none _ rfl (by decide) (by simp) (by decide) v7 (by rw [Sexagesimal.unit, Rat.mkRat_eq_div]; norm_num)

theorem ra_fine {r : Sexagesimal} (h : r.Valid 3) : 120 / 10 ^ r.raDecimals ≤ r.unit / 5 := by
  cases r with
  | seconds a m s d f =>
    obtain ⟨-, -, -, h1, h2, -⟩ := h
    simp only [Sexagesimal.raDecimals, Sexagesimal.unit]
    obtain rfl | rfl | rfl : d = 1 ∨ d = 2 ∨ d = 3 := by omega
    all_goals norm_num
  | wholeSeconds a m s => norm_num [Sexagesimal.raDecimals, Sexagesimal.unit]
  | minutes a m d f =>
    obtain ⟨-, -, h1, h2, -⟩ := h
    simp only [Sexagesimal.raDecimals, Sexagesimal.unit]
    obtain rfl | rfl : d = 1 ∨ d = 2 := by omega
    all_goals norm_num
  | wholeMinutes a m => norm_num [Sexagesimal.raDecimals, Sexagesimal.unit]

theorem dec_fine {r : Sexagesimal} (h : r.Valid 3) : 1800 / 10 ^ r.decDecimals ≤ r.unit * 3 / 10 := by
  cases r with
  | seconds a m s d f =>
    obtain ⟨-, -, -, h1, h2, -⟩ := h
    simp only [Sexagesimal.decDecimals, Sexagesimal.unit]
    obtain rfl | rfl | rfl : d = 1 ∨ d = 2 ∨ d = 3 := by omega
    all_goals norm_num
  | wholeSeconds a m s => norm_num [Sexagesimal.decDecimals, Sexagesimal.unit]
  | minutes a m d f =>
    obtain ⟨-, -, h1, h2, -⟩ := h
    simp only [Sexagesimal.decDecimals, Sexagesimal.unit]
    obtain rfl | rfl : d = 1 ∨ d = 2 := by omega
    all_goals norm_num
  | wholeMinutes a m => norm_num [Sexagesimal.decDecimals, Sexagesimal.unit]

theorem valid_three {r : Sexagesimal} (h : r.Valid 2) : r.Valid 3 := by
  cases r with
  | seconds a m s d f =>
    obtain ⟨a1, a2, a3, a4, a5, a6⟩ := h
    exact ⟨a1, a2, a3, a4, by omega, a6⟩
  | wholeSeconds a m s => exact h
  | minutes a m d f => exact h
  | wholeMinutes a m => exact h

theorem back_ok (h : a.Writable) (hr : a.Readable) (hi : a.In pt pr pd e) (hl : a.Line o) {e' : Elem} (he : (a.obs o).Element e') : a.Back e' := by
  obtain ⟨time, ra, dec, hrd, rfl⟩ := he
  have hv := obs_ok h hr hi hl
  have ho := optical_ok h hr hi hl
  obtain ⟨pg, pn⟩ := place_good hv
  have hf : (a.obs o).first = o := by unfold Sent.obs; cases a.place <;> rfl
  rw [hf] at hrd ⊢
  have hd : ∀ k, fieldOf (o.elem (a.obs o).place time ra dec) k = dictGet (o.values (a.obs o).place time ra dec) k := by
    intro k; rw [← field_get, dict_values ho pg pn hrd]
  have H := holds (o := o) (place := (a.obs o).place) pn (time := time) (ra := ra) (dec := dec)
  obtain ⟨c1, c2, c3, c4, c5⟩ := code_kept h hr hl
  have hn : ∀ {k : Str} {x : Option Str}, fieldOf e k = x → opt (x.getD []) = x := by
    intro k x hk
    refine opt_get ?_
    rintro rfl
    exact (field_good hk).1 rfl
  have hmag : opt (trim o.mag) = a.mag.map magKept ∧ (trim o.mag = [] ↔ a.mag = none) := by
    rw [hl.mag]
    cases hm : a.mag with
    | none => decide
    | some m =>
      simp only [Option.map_some, Option.getD_some]
      have := h.mag m (by simp [hm])
      rw [mag_kept this]
      exact ⟨opt_some (kept_ne this), by simp [kept_ne this]⟩
  constructor
  case tag => rfl
  case permID => rw [hd, H.permID, hl.desig]; exact hn hi.permID
  case provID => rw [hd, H.provID, hl.desig]; exact hn hi.provID
  case trkSub => rw [hd, H.trkSub, hl.desig]; 
                 cases ht : a.desig.trkText with
                 | none => rfl
                 | some t => exact hn (hi.trkSub t ht)
  case stn => rw [hd, H.stn, hl.stn]
  case disc =>
    rw [hd, H.disc, hl.disc]
    cases hx : a.disc with
    | none => decide
    | some c => rcases hr.disc c (by simp [hx]) with rfl | rfl <;> decide
  case prog =>
    rw [hd, H.prog]
    rcases note_cases hr hi hl with ⟨h1, _, h2⟩ | ⟨h1, h3, _⟩
    · rcases h2 with ⟨h3, h2⟩ | ⟨i, hi, h3, h2⟩
      · rw [h3, if_neg (fun x => x.2 h2)]; rfl
      · obtain ⟨p1, p2, p3⟩ := program_mem hi
        rw [h3, h2, if_pos ⟨(uses_iff hl).2 h1, p3⟩, progText, p2]; rfl
    · rw [h3, if_neg (fun h' => h1 ((uses_iff hl).1 h'.1))]; rfl
  case notes =>
    rw [hd, H.notes]
    rcases note_cases hr hi hl with ⟨h1, h3, _⟩ | ⟨h1, _, h2⟩
    · rw [h3, if_pos ((uses_iff hl).2 h1)]; rfl
    · rw [if_neg (fun h' => h1 ((uses_iff hl).1 h'))]
      rcases h2 with ⟨h3, h2⟩ | ⟨c, t, h3, h2, _, h4⟩
      · rw [h2, h3]; decide
      · rw [h2, h3]
        have : trim [c] = [c] := trim_of_ends (by simpa using h4) (by simpa using h4)
        rw [this]; rfl
  case deprecated =>
    rw [hd, H.deprecated]
    by_cases hx : a.deprecated = true
    · rw [if_pos (c4.2 hx), if_pos hx]; rfl
    · rw [if_neg (fun y => hx (c4.1 y)), if_neg hx]; rfl
  case mode => rw [hd, H.mode, c2]
  case subFrm =>
    rw [hd, H.subFrm]
    by_cases hx : a.deprecated = false ∧ a.place.isGround ∧ a.subFrm.isSome
    · rw [if_pos (c3.2 hx), if_pos hx]; rfl
    · rw [if_neg (fun y => hx (c3.1 y)), if_neg hx]; rfl
  case cat => rw [hd, H.astCat, hl.cat, (cat_kept _).1]
  case mag => rw [hd, H.mag, hmag.1]
  case band =>
    rw [hd, H.band]
    unfold bandText
    cases hm : a.mag with
    | none => rw [if_pos (hmag.2.2 hm)]; rfl
    | some m =>
      rw [if_neg (by rw [hmag.2, hm]; simp), hl.band]
      cases hb : a.band with
      | none => rfl
      | some b =>
        have := hr.band b (by simp [hb])
        rw [Option.getD_some, if_neg (by intro hx; rw [hx] at this; revert this; decide)]
        rfl
  case ref => rw [hd, H.ref, hl.ref]; exact ref_kept hr hi
  case time =>
    obtain ⟨w, ms, w1, w2, ⟨w3, w4⟩, rfl⟩ := hrd.time
    obtain ⟨d1, d2, d3⟩ := hl.day
    obtain ⟨u, u1, u2, u3⟩ := hl.digits
    obtain ⟨f1, f2⟩ := date_frac hr hl
    refine ⟨w, ms, by rw [hd, H.obsTime, d1, d2, d3], w1, w2, u, u1, u2, by rw [hd, H.precTime, u3], ?_⟩
    unfold ObsDate.seconds at w3 w4
    push_cast at w3 w4 ⊢
    rw [← u3]
    have hpos : (0 : ℚ) < 10 ^ o.date.digits := by positivity
    have g1 := mul_le_mul_of_nonneg_left f1 (show (0 : ℚ) ≤ 86400 / 10 ^ o.date.digits by positivity)
    have g2 := mul_le_mul_of_nonneg_left f2 (show (0 : ℚ) ≤ 86400 / 10 ^ o.date.digits by positivity)
    have e1 : 86400 / 10 ^ o.date.digits * (a.seconds / 86400 * 10 ^ o.date.digits - (o.date.frac : ℚ)) = a.seconds - o.date.frac / 10 ^ o.date.digits * 86400 := by
      field_simp
    rw [mul_neg, e1] at g2
    rw [e1] at g1
    constructor <;> linarith
  case ra =>
    obtain ⟨k, k1, k2, k3⟩ := hrd.ra
    obtain ⟨r1, r2, r3, r4⟩ := hl.ra
    push_cast at k2 k3 r3 r4
    refine ⟨o.ra.raDecimals, k, by rw [hd, H.ra, k1], ?_⟩
    push_cast
    rw [← r1] at r3 r4 ⊢
    refine ⟨?_, ?_, ra_fine (ra_ok hr hl)⟩
    all_goals
      have e1 : (1 : ℚ) / 2 / 10 ^ o.ra.raDecimals = 120 / 10 ^ o.ra.raDecimals / 240 := by ring
      rw [e1] at k2 k3
      linarith
  case dec =>
    obtain ⟨k, k1, k2, k3⟩ := hrd.dec
    obtain ⟨r1, r2, r3, r4⟩ := hl.dec
    push_cast at k2 k3 r3 r4
    refine ⟨o.dec.decDecimals, k, by rw [hd, H.dec, k1, hl.south]; simp, ?_⟩
    push_cast
    rw [← r1] at r3 r4 ⊢
    refine ⟨?_, ?_, dec_fine (valid_three (dec_ok hr hl))⟩
    all_goals
      have e1 : (1 : ℚ) / 2 / 10 ^ o.dec.decDecimals = 1800 / 10 ^ o.dec.decDecimals / 3600 := by ring
      rw [e1] at k2 k3
      linarith
  case precRA =>
    obtain ⟨n, n1, n2, n3⟩ := unit_numeral (ra_ok hr hl)
    exact ⟨_, by rw [hd, H.precRA], n, n1, n2, n3.trans hl.ra.1⟩
  case precDec =>
    obtain ⟨n, n1, n2, n3⟩ := unit_numeral (valid_three (dec_ok hr hl))
    exact ⟨_, by rw [hd, H.precDec], n, n1, n2, n3.trans hl.dec.1⟩
  case place =>
    have hpf := hi.place
    have hw := h.place
    simp only [hd]
    have hp1 := H.place (c! "pos1") (by decide)
    have hp2 := H.place (c! "pos2") (by decide)
    have hp3 := H.place (c! "pos3") (by decide)
    have hp0 := H.place (c! "sys") (by decide)
    rw [hp0, hp1, hp2, hp3]
    unfold Sent.obs
    cases hp : a.place with
    | ground => exact ⟨rfl, rfl⟩
    | spacecraft au x y z => exact ⟨rfl, rfl, rfl, rfl⟩
    | rover lon lat alt =>
      rw [hp] at hpf hw
      obtain ⟨f0, f1, f2, f3⟩ := hpf
      obtain ⟨g1, g1'⟩ := field_good f1
      obtain ⟨g2, g2'⟩ := field_good f2
      obtain ⟨g3, g3'⟩ := field_good f3
      have t1 := trim_of_strip g1'
      have t2 := trim_of_strip g2'
      have t3 := trim_of_strip g3'
      have w1 := hw.1.2.2; have w2 := hw.2.2.2
      rw [t1] at w1; rw [t2] at w2
      have k1 : trim (pointColumn 3 7 lon) = lon := column_fits (by omega) w1 (t1 ▸ (trim_ends lon).1) (t1 ▸ (trim_ends lon).2)
      have k2 : trim (pointColumn 3 7 lat) = lat := column_fits (by omega) w2 (t2 ▸ (trim_ends lat).1) (t2 ▸ (trim_ends lat).2)
      have k3 : trim (List.leftpad 5 ' ' alt) = alt := by
        have := trim_pad (5 - alt.length) 0 (s := alt) (t3 ▸ (trim_ends alt).1) (t3 ▸ (trim_ends alt).2)
        simp only [List.replicate_zero, List.append_nil] at this
        rw [left_eq]; exact this
      simp only [Obs.place, Rover.values, k1, k2, k3, val, if_neg g1, if_neg g2, if_neg g3]
      exact ⟨rfl, rfl, rfl, rfl⟩

end
end Verif.ToMpc80
