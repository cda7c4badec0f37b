import Verif.Lemmas.References
/-!
  C58: references.
-/
namespace Verif
open Verif.PackUtil Verif.Spec Verif.Spec.References Verif.References

theorem shown_eq (n : Int) : shown n = intStr n := by
  unfold shown intStr
  split <;> rw [dec_eq]

theorem letter_cases (c : Char) : (∃ i, i < 62 ∧ c = b62 i ∧ unpackLetter c = .ok i) ∨ (¬ Digit62 c ∧ unpackLetter c = .error .keyError) := by
  cases h : unpackLetter c with
  | ok i =>
    obtain ⟨h1, h2⟩ := unpackLetter_inv h
    exact .inl ⟨i, h1, h2.symm, rfl⟩
  | error e =>
    refine .inr ⟨?_, ?_⟩
    · rintro ⟨i, hi, rfl⟩
      rw [unpackLetter_b62 hi] at h
      cases h
    · unfold unpackLetter at h
      split at h <;> cases h
      rfl

theorem digit62_ok {c : Char} (h : Digit62 c) : ∃ i, unpackLetter c = .ok i := by
  obtain ⟨i, hi, rfl⟩ := h
  exact ⟨i, unpackLetter_b62 hi⟩

theorem digit62_not {c : Char} (h : ¬ Digit62 c) : unpackLetter c = .error .keyError := by
  rcases letter_cases c with ⟨i, h1, h2, -⟩ | h'
  · exact absurd ⟨i, h1, h2⟩ h
  · exact h'.2

theorem rad_ok {c0 : Char} {x : Nat} (h : x < 62 ^ 4) (r : Str) : unRadix62_4 (c0 :: b62x4 x ++ r) = .ok x := by
  have := unRadix_b62x4 (c := c0) h
  simpa [unRadix62_4, charAt, b62x4] using this

theorem rad_short {c0 : Char} {ds : Str} (hl : ds.length < 4) (hd : ∀ d ∈ ds, Digit62 d) : unRadix62_4 (c0 :: ds) = .error .indexError := by
  rcases ds with _ | ⟨a, _ | ⟨b, _ | ⟨c, _ | ⟨d, t⟩⟩⟩⟩
  · rfl
  · obtain ⟨i, hi⟩ := digit62_ok (hd a (by simp))
    simp [unRadix62_4, charAt, bind, Except.bind, hi]
  · obtain ⟨i, hi⟩ := digit62_ok (hd a (by simp))
    obtain ⟨j, hj⟩ := digit62_ok (hd b (by simp))
    simp [unRadix62_4, charAt, bind, Except.bind, hi, hj]
  · obtain ⟨i, hi⟩ := digit62_ok (hd a (by simp))
    obtain ⟨j, hj⟩ := digit62_ok (hd b (by simp))
    obtain ⟨k, hk⟩ := digit62_ok (hd c (by simp))
    simp [unRadix62_4, charAt, bind, Except.bind, hi, hj, hk]
  · simp at hl; omega

theorem rad_key {c0 x : Char} {ds r : Str} (hl : ds.length < 4) (hd : ∀ d ∈ ds, Digit62 d) (hx : ¬ Digit62 x) : unRadix62_4 (c0 :: ds ++ x :: r) = .error .keyError := by
  have hx := digit62_not hx
  rcases ds with _ | ⟨a, _ | ⟨b, _ | ⟨c, _ | ⟨d, t⟩⟩⟩⟩
  · simp [unRadix62_4, charAt, bind, Except.bind, hx]
  · obtain ⟨i, hi⟩ := digit62_ok (hd a (by simp))
    simp [unRadix62_4, charAt, bind, Except.bind, hi, hx]
  · obtain ⟨i, hi⟩ := digit62_ok (hd a (by simp))
    obtain ⟨j, hj⟩ := digit62_ok (hd b (by simp))
    simp [unRadix62_4, charAt, bind, Except.bind, hi, hj, hx]
  · obtain ⟨i, hi⟩ := digit62_ok (hd a (by simp))
    obtain ⟨j, hj⟩ := digit62_ok (hd b (by simp))
    obtain ⟨k, hk⟩ := digit62_ok (hd c (by simp))
    simp [unRadix62_4, charAt, bind, Except.bind, hi, hj, hk, hx]
  · simp at hl; omega

theorem four_digits {i j k m : Nat} (hi : i < 62) (hj : j < 62) (hk : k < 62) (hm : m < 62) :
    [b62 i, b62 j, b62 k, b62 m] = b62x4 (((i * 62 + j) * 62 + k) * 62 + m) ∧ ((i * 62 + j) * 62 + k) * 62 + m < 62 ^ 4 := by
  refine ⟨?_, by omega⟩
  have e1 : (((i * 62 + j) * 62 + k) * 62 + m) / 62 ^ 3 % 62 = i := by omega
  have e2 : (((i * 62 + j) * 62 + k) * 62 + m) / 62 ^ 2 % 62 = j := by omega
  have e3 : (((i * 62 + j) * 62 + k) * 62 + m) / 62 % 62 = k := by omega
  have e4 : (((i * 62 + j) * 62 + k) * 62 + m) % 62 = m := by omega
  simp only [b62x4, e1, e2, e3, e4]

/-- four digits, or what is wrong with them -/
theorem rad_cases (r : Str) : (∃ x r', x < 62 ^ 4 ∧ r = b62x4 x ++ r') ∨ (r.length < 4 ∧ ∀ d ∈ r, Digit62 d) ∨
    ∃ ds d r', r = ds ++ d :: r' ∧ ds.length < 4 ∧ (∀ d ∈ ds, Digit62 d) ∧ ¬ Digit62 d := by
  rcases r with _ | ⟨a, r⟩
  · exact .inr (.inl ⟨by simp, by simp⟩)
  by_cases ha : Digit62 a
  rotate_left
  · exact .inr (.inr ⟨[], a, r, rfl, by simp, by simp, ha⟩)
  rcases r with _ | ⟨b, r⟩
  · exact .inr (.inl ⟨by simp, by simp [ha]⟩)
  by_cases hb : Digit62 b
  rotate_left
  · exact .inr (.inr ⟨[a], b, r, rfl, by simp, by simp [ha], hb⟩)
  rcases r with _ | ⟨c, r⟩
  · exact .inr (.inl ⟨by simp, by simp [ha, hb]⟩)
  by_cases hc : Digit62 c
  rotate_left
  · exact .inr (.inr ⟨[a, b], c, r, rfl, by simp, by simp [ha, hb], hc⟩)
  rcases r with _ | ⟨d, r⟩
  · exact .inr (.inl ⟨by simp, by simp [ha, hb, hc]⟩)
  by_cases hd : Digit62 d
  rotate_left
  · exact .inr (.inr ⟨[a, b, c], d, r, rfl, by simp, by simp [ha, hb, hc], hd⟩)
  obtain ⟨i, hi, rfl⟩ := ha
  obtain ⟨j, hj, rfl⟩ := hb
  obtain ⟨k, hk, rfl⟩ := hc
  obtain ⟨m, hm, rfl⟩ := hd
  obtain ⟨h1, h2⟩ := four_digits hi hj hk hm
  exact .inl ⟨_, r, h2, by rw [← h1]; rfl⟩

theorem refLetter_facts {k : Nat} (h : k < 26) : (c! "0123456789").contains (letter k) = false ∧ letter k ≠ '@' ∧ letter k ≠ '#' ∧ letter k ≠ '~' ∧ lower26.contains (letter k) = true ∧ lower26.idxOf (letter k) = k := by
  have := forall_lt_of_all (P := fun k => !(c! "0123456789").contains (letter k) && decide (letter k ≠ '@') && decide (letter k ≠ '#') && decide (letter k ≠ '~') && lower26.contains (letter k) &&
    decide (lower26.idxOf (letter k) = k)) 26 (by decide +kernel) k h
  simp only [Bool.and_eq_true, decide_eq_true_eq, Bool.not_eq_true'] at this
  obtain ⟨⟨⟨⟨⟨a, b⟩, c⟩, d⟩, e⟩, f⟩ := this
  exact ⟨a, b, c, d, e, f⟩

theorem lower_letter {c : Char} (h : lower26.contains c = true) : ∃ k, k < 26 ∧ c = letter k := by
  have hall : lower26.all (fun c => (List.range 26).any fun k => c == letter k) = true := by decide +kernel
  have := List.all_eq_true.1 hall c (by simpa using h)
  rw [List.any_eq_true] at this
  obtain ⟨k, h1, h2⟩ := this
  exact ⟨k, List.mem_range.1 h1, eq_of_beq h2⟩

theorem means_ok {s t : Str} (h : Means s t) : unpackRef s = .ok t := by
  cases h with
  | page hc hn =>
    rename_i c r n
    have h1 : (c! "0123456789").contains c = true := by simpa using hc
    simp only [unpackRef, charAt, List.getElem?_cons_zero, bind, Except.bind, h1, if_true, pyInt_iff.2 hn, shown_eq]
    rfl
  | pageAt hn =>
    rename_i r n
    simp only [unpackRef, charAt, List.getElem?_cons_zero, bind, Except.bind, List.drop_one, List.tail_cons, pyInt_iff.2 hn, shown_eq]
    rfl
  | pageHash hx =>
    rename_i x r
    have h1 := rad_ok (c0 := '#') hx r
    simp only [unpackRef, charAt, List.cons_append, List.getElem?_cons_zero, bind, Except.bind] at h1 ⊢
    rw [h1, dec_eq]
    rfl
  | supplement hk hn =>
    rename_i k r n
    obtain ⟨f1, f2, f3, f4, f5, f6⟩ := refLetter_facts hk
    simp only [unpackRef, charAt, List.getElem?_cons_zero, bind, Except.bind, f1, f2, f3, f5, f6, if_true, if_false, Bool.false_eq_true, List.drop_one, List.tail_cons, pyInt_iff.2 hn, shown_eq]
    rfl
  | supplementTilde hx =>
    rename_i x r
    have h1 := rad_ok (c0 := '~') hx r
    have h2 : lower26.contains '~' = false := by decide
    simp only [unpackRef, charAt, List.cons_append, List.getElem?_cons_zero, bind, Except.bind, h2] at h1 ⊢
    rw [h1, dec_eq]
    rfl
  | other hc =>
    rename_i c r
    have n1 : (c! "0123456789").contains c = false := by
      rw [Bool.eq_false_iff]; intro hh
      refine hc (.inl ?_)
      show c ∈ (c! "0123456789") ++ (c! "@#~")
      exact List.mem_append_left _ (List.contains_iff_mem.1 hh)
    have n2 : c ≠ '@' := by rintro rfl; exact hc (.inl (by decide))
    have n3 : c ≠ '#' := by rintro rfl; exact hc (.inl (by decide))
    have n4 : c ≠ '~' := by rintro rfl; exact hc (.inl (by decide))
    have n5 : lower26.contains c = false := by
      rw [Bool.eq_false_iff]; intro hh
      exact hc (.inr (lower_letter hh))
    simp only [unpackRef, charAt, List.getElem?_cons_zero, bind, Except.bind, n1, n2, n3, n4, n5, if_false, Bool.false_eq_true]
    rfl

theorem meaningless_error {s : Str} {e : PyErr} (h : Meaningless s e) : unpackRef s = .error e := by
  cases h with
  | empty => rfl
  | page hc hn =>
    rename_i c r
    have h1 : (c! "0123456789").contains c = true := by simpa using hc
    simp only [unpackRef, charAt, List.getElem?_cons_zero, bind, Except.bind, h1, if_true, pyInt_error.2 ⟨rfl, hn⟩]
  | number hc hn =>
    rename_i c r
    rcases hc with rfl | ⟨k, hk, rfl⟩
    · simp only [unpackRef, charAt, List.getElem?_cons_zero, bind, Except.bind, List.drop_one, List.tail_cons, pyInt_error.2 ⟨rfl, hn⟩]
      rfl
    · obtain ⟨f1, f2, f3, f4, f5, f6⟩ := refLetter_facts hk
      simp only [unpackRef, charAt, List.getElem?_cons_zero, bind, Except.bind, f1, f2, f3, f5, if_true, if_false, Bool.false_eq_true, List.drop_one, List.tail_cons, pyInt_error.2 ⟨rfl, hn⟩]
  | short hc hl hd =>
    rename_i c ds
    have h1 := rad_short (c0 := c) hl hd
    have h2 : lower26.contains '~' = false := by decide
    rcases hc with rfl | rfl
    · simp only [unpackRef, charAt, List.getElem?_cons_zero, bind, Except.bind, h1]; rfl
    · simp only [unpackRef, charAt, List.getElem?_cons_zero, bind, Except.bind, h2, h1]; rfl
  | digit hc hl hd hx =>
    rename_i c x ds r
    have h1 := rad_key (c0 := c) (r := r) hl hd hx
    have h2 : lower26.contains '~' = false := by decide
    rcases hc with rfl | rfl
    · simp only [unpackRef, charAt, List.cons_append, List.getElem?_cons_zero, bind, Except.bind] at h1 ⊢
      rw [h1]; rfl
    · simp only [unpackRef, charAt, List.cons_append, List.getElem?_cons_zero, bind, Except.bind, h2] at h1 ⊢
      rw [h1]; rfl

theorem means_cases (s : Str) : (∃ t, Means s t) ∨ ∃ e, Meaningless s e := by
  rcases s with _ | ⟨c, r⟩
  · exact .inr ⟨_, .empty⟩
  by_cases hs : Special c
  rotate_left
  · exact .inl ⟨_, .other hs⟩
  have num : ∀ q : Str, (∃ n, IsInt q n) ∨ ∀ n, ¬ IsInt q n := fun q => by
    by_cases h : ∃ n, IsInt q n
    · exact .inl h
    · exact .inr fun n hn => h ⟨n, hn⟩
  have hash : c = '#' ∨ c = '~' → (∃ t, Means (c :: r) t) ∨ ∃ e, Meaningless (c :: r) e := by
    intro hc
    rcases rad_cases r with ⟨x, r', hx, rfl⟩ | ⟨h1, h2⟩ | ⟨ds, d, r', rfl, h1, h2, h3⟩
    · rcases hc with rfl | rfl
      · exact .inl ⟨_, .pageHash hx⟩
      · exact .inl ⟨_, .supplementTilde hx⟩
    · exact .inr ⟨_, .short hc h1 h2⟩
    · exact .inr ⟨_, .digit hc h1 h2 h3⟩
  rcases hs with hs | ⟨k, hk, rfl⟩
  · have : c ∈ (c! "0123456789") ∨ c = '@' ∨ (c = '#' ∨ c = '~') := by
      have hs : c ∈ (c! "0123456789") ++ (c! "@#~") := hs
      rcases List.mem_append.1 hs with h | h
      · exact .inl h
      · exact .inr (by simpa using h)
    rcases this with h | rfl | h
    · rcases num (c :: r) with ⟨n, hn⟩ | hn
      · exact .inl ⟨_, .page h hn⟩
      · exact .inr ⟨_, .page h hn⟩
    · rcases num r with ⟨n, hn⟩ | hn
      · exact .inl ⟨_, .pageAt hn⟩
      · exact .inr ⟨_, .number (.inl rfl) hn⟩
    · exact hash h
  · rcases num r with ⟨n, hn⟩ | hn
    · exact .inl ⟨_, .supplement hk hn⟩
    · exact .inr ⟨_, .number (.inr ⟨k, hk, rfl⟩) hn⟩

/-- C58: what every text in columns 73-77 stands for -/
theorem C58_unpack (s t : Str) : unpackRef s = .ok t ↔ Means s t := by
  refine ⟨fun h => ?_, means_ok⟩
  rcases means_cases s with ⟨t', h'⟩ | ⟨e, h'⟩
  · rw [means_ok h'] at h; cases h; exact h'
  · rw [meaningless_error h'] at h; cases h

/-- C58: which texts stand for nothing, and the exceptions -/
theorem C58_unpack_fails (s : Str) (e : PyErr) : unpackRef s = .error e ↔ Meaningless s e := by
  refine ⟨fun h => ?_, meaningless_error⟩
  rcases means_cases s with ⟨t', h'⟩ | ⟨e, h'⟩
  · rw [means_ok h'] at h; cases h
  · rw [meaningless_error h'] at h; cases h; exact h'

/-! ### packing -/

theorem starts_word {t : Str} (h : t.take 3 = c! "MPC" ∨ t.take 3 = c! "MPS") : t ≠ [] ∧ ∀ c ∈ t.head?, isSpace c = false := by
  rcases t with _ | ⟨c, t⟩
  · simp at h
  · refine ⟨by simp, ?_⟩
    have : c = 'M' := by rcases h with h | h <;> simp at h <;> exact h.1
    subst this
    simp; decide

/-- the page number of a reference, or the exception -/
theorem page_cases {t : Str} (h : t.take 3 = c! "MPC" ∨ t.take 3 = c! "MPS") :
    (∃ w n, SecondWord t w ∧ IsInt w n ∧ (listAt (splitWs t) 1 >>= pyInt) = .ok n) ∨ (∃ w, SecondWord t w ∧ (∀ n, ¬ IsInt w n) ∧ (listAt (splitWs t) 1 >>= pyInt) = .error .valueError) ∨
      ((∀ w, ¬ SecondWord t w) ∧ (listAt (splitWs t) 1 >>= pyInt) = .error .indexError) := by
  rcases second_cases (starts_word h).1 (starts_word h).2 with ⟨w, hw⟩ | hn
  · by_cases hi : ∃ n, IsInt w n
    · obtain ⟨n, hi⟩ := hi
      exact .inl ⟨w, n, hw, hi, by rw [second_ok hw]; exact pyInt_iff.2 hi⟩
    · exact .inr (.inl ⟨w, hw, fun n hn => hi ⟨n, hn⟩, by rw [second_ok hw]; exact pyInt_error.2 ⟨rfl, fun n hn => hi ⟨n, hn⟩⟩⟩)
  · refine .inr (.inr ⟨fun w hw => ?_, by rw [hn]; rfl⟩)
    rw [second_ok hw] at hn
    cases hn

theorem page_of {t w : Str} {n : Int} (hw : SecondWord t w) (hn : IsInt w n) : (listAt (splitWs t) 1 >>= pyInt) = .ok n := by
  rw [second_ok hw]; exact pyInt_iff.2 hn

theorem mps_not {t : Str} (h : t.take 3 = c! "MPS") : ¬ t.take 3 = c! "MPC" := by rw [h]; decide

/-- C58: a reference that begins with MPC (MPS) and whose second word is the page n is packed as the page n, however it is written -/
theorem C58_pack_mpc {t w : Str} {n : Nat} (h : t.take 3 = c! "MPC") (hw : SecondWord t w) (hn : IsInt w n) : packRef t = packRef (Ref.mpc n).text := by
  have e : (Ref.mpc n).text.take 3 = c! "MPC" := rfl
  have e2 : (listAt (splitWs (Ref.mpc n).text) 1 >>= pyInt) = .ok (n : Int) := by
    rw [Ref.text, dec_eq, show splitWs (['M', 'P', 'C', ' ', ' '] ++ natStr n) = _ from splitWs_MPC n]
    exact pyInt_natStr n
  rw [packRef_eq, packRef_eq, if_pos h, if_pos e, page_of hw hn, e2]

theorem C58_pack_mps {t w : Str} {n : Nat} (h : t.take 3 = c! "MPS") (hw : SecondWord t w) (hn : IsInt w n) : packRef t = packRef (Ref.mps n).text := by
  have e : (Ref.mps n).text.take 3 = c! "MPS" := rfl
  have e2 : (listAt (splitWs (Ref.mps n).text) 1 >>= pyInt) = .ok (n : Int) := by
    rw [Ref.text, dec_eq, show splitWs (['M', 'P', 'S', ' ', ' '] ++ natStr n) = _ from splitWs_MPS n]
    exact pyInt_natStr n
  rw [packRef_eq, packRef_eq, if_neg (mps_not h), if_neg (mps_not e), if_pos h, if_pos e, page_of hw hn, e2]

/-- C58: anything else is cut to its last five characters, or filled up with blanks -/
theorem C58_pack_other {t : Str} (h : t.take 3 ≠ c! "MPC") (h' : t.take 3 ≠ c! "MPS") :
    ∃ cols, packRef t = .ok cols ∧ cols.length = 5 ∧ (t.length ≤ 5 → cols = t ++ List.replicate (5 - t.length) ' ') ∧ (5 ≤ t.length → ∃ lost, t = lost ++ cols) := by
  refine ⟨out t, by rw [packRef_eq, if_neg h, if_neg h'], ?_, ?_, ?_⟩
  · simp [out, ljust]; omega
  · intro hl
    rw [out, ljust, show t.length - 5 = 0 by omega]
    rfl
  · intro hl
    refine ⟨t.take (t.length - 5), ?_⟩
    have : 5 - (t.drop (t.length - 5)).length = 0 := by simp; omega
    rw [out, ljust, this]
    simp

theorem tdiv_low {n : Int} (h : n < 259999) : n.tdiv 10000 < 26 ∧ (n.tdiv 10000 < -26 ↔ n ≤ -270000) := by
  by_cases hn : 0 ≤ n
  · rw [Int.tdiv_eq_ediv_of_nonneg hn]
    omega
  · have : n.tdiv 10000 = -((-n) / 10000) := by
      have e : n = -(-n) := by omega
      rw [e, Int.neg_tdiv, Int.tdiv_eq_ediv_of_nonneg (by omega)]
      omega
    rw [this]
    omega

theorem mps_error {n : Int} {e : PyErr} : (mpsCols n >>= fun r => (.ok (out r) : Py Str)) = .error e ↔ e = .indexError ∧ n ≤ -270000 := by
  unfold mpsCols
  split
  · rename_i hn
    obtain ⟨h1, h2⟩ := tdiv_low hn
    rw [← h2, ← letters_error h1]
    cases charAtInt lower26 (n.tdiv 10000) <;> simp [Except.map, bind, Except.bind]
  · simp only [bind, Except.bind, reduceCtorEq, false_iff]
    omega

/-- C58: which references cannot be packed, and the exceptions -/
theorem C58_pack_fails (t : Str) (e : PyErr) : packRef t = .error e ↔ Unpackable t e := by
  rw [packRef_eq]
  by_cases h1 : t.take 3 = c! "MPC"
  · rw [if_pos h1]
    have h3 : ¬ t.take 3 = c! "MPS" := by rw [h1]; decide
    rcases page_cases (.inl h1) with ⟨w, n, hw, hn, hp⟩ | ⟨w, hw, hn, hp⟩ | ⟨hw, hp⟩
    · rw [hp]
      simp only [bind, Except.bind, reduceCtorEq, false_iff]
      intro hu
      cases hu with
      | noPage _ h => exact h w hw
      | noNumber _ h h' =>
        rw [second_ok hw] at *
        have := second_ok h
        rw [second_ok hw] at this
        cases this
        exact h' n hn
      | negative h => exact h3 h
    · rw [hp]
      simp only [bind, Except.bind, Except.error.injEq]
      constructor
      · rintro rfl; exact .noNumber (.inl h1) hw hn
      · intro hu
        cases hu with
        | noPage _ h => exact absurd hw (h w)
        | noNumber => rfl
        | negative h => exact absurd h h3
    · rw [hp]
      simp only [bind, Except.bind, Except.error.injEq]
      constructor
      · rintro rfl; exact .noPage (.inl h1) hw
      · intro hu
        cases hu with
        | noPage => rfl
        | noNumber _ h => exact absurd h (hw _)
        | negative h => exact absurd h h3
  · rw [if_neg h1]
    by_cases h2 : t.take 3 = c! "MPS"
    · rw [if_pos h2]
      rcases page_cases (.inr h2) with ⟨w, n, hw, hn, hp⟩ | ⟨w, hw, hn, hp⟩ | ⟨hw, hp⟩
      · rw [hp]
        have : ((Except.ok n : Py Int) >>= fun s => mpsCols s >>= fun r => (.ok (out r) : Py Str)) = (mpsCols n >>= fun r => (.ok (out r) : Py Str)) := rfl
        rw [this, mps_error]
        have one : ∀ {w' : Str}, SecondWord t w' → w' = w := by
          intro w' h
          have := second_ok h
          rw [second_ok hw] at this
          cases this
          rfl
        constructor
        · rintro ⟨rfl, h⟩; exact .negative h2 hw hn h
        · intro hu
          cases hu with
          | noPage _ h => exact absurd hw (h w)
          | noNumber _ h h' => rw [one h] at h'; exact absurd hn (h' n)
          | negative _ h h' h'' =>
            rw [one h] at h'
            have := pyInt_iff.2 h'
            rw [pyInt_iff.2 hn] at this
            cases this
            exact ⟨rfl, h''⟩
      · rw [hp]
        simp only [bind, Except.bind, Except.error.injEq]
        constructor
        · rintro rfl; exact .noNumber (.inr h2) hw hn
        · intro hu
          cases hu with
          | noPage _ h => exact absurd hw (h w)
          | noNumber => rfl
          | negative _ h h' =>
            have := second_ok h
            rw [second_ok hw] at this
            cases this
            exact absurd h' (hn _)
      · rw [hp]
        simp only [bind, Except.bind, Except.error.injEq]
        constructor
        · rintro rfl; exact .noPage (.inr h2) hw
        · intro hu
          cases hu with
          | noPage => rfl
          | noNumber _ h => exact absurd h (hw _)
          | negative _ h => exact absurd h (hw _)
    · rw [if_neg h2]
      simp only [reduceCtorEq, false_iff]
      intro hu
      cases hu with
      | noPage h => rcases h with h | h; exact h1 h; exact h2 h
      | noNumber h => rcases h with h | h; exact h1 h; exact h2 h
      | negative h => exact h2 h

/-! ### what comes back -/

theorem int_bound {s : Str} {n : Int} (h : IsInt s n) : n < 10 ^ s.length ∧ -(10 ^ (s.length - 1) : Int) < n := by
  obtain ⟨a, b, gs, -, -, h1, h2, h3⟩ := h
  have hb := intDigits_bound _ _ _ _ (intDigits_iff.2 ⟨gs, h1, h2, rfl, rfl⟩)
  simp only [Nat.zero_add, Nat.one_mul] at hb
  have mono : ∀ {i j : Nat}, i ≤ j → (10 : Nat) ^ i ≤ 10 ^ j := fun h => Nat.pow_le_pow_right (by omega) h
  have cast : ∀ k : Nat, ((10 : Int) ^ k) = ((10 ^ k : Nat) : Int) := fun k => by simp
  have pos : ∀ k : Nat, 0 < (10 : Nat) ^ k := fun k => Nat.pow_pos (by omega)
  rw [cast, cast]
  rcases h3 with ⟨rfl, rfl⟩ | ⟨rfl, rfl⟩ | ⟨rfl, rfl⟩
  · have := mono (i := (joined gs).length) (j := (a ++ joined gs ++ b).length) (by simp; omega)
    have := pos ((a ++ joined gs ++ b).length - 1)
    omega
  · have := mono (i := (joined gs).length) (j := (a ++ '+' :: joined gs ++ b).length) (by simp; omega)
    have := pos ((a ++ '+' :: joined gs ++ b).length - 1)
    omega
  · have := mono (i := (joined gs).length) (j := (a ++ '-' :: joined gs ++ b).length - 1) (by simp; omega)
    have := pos (a ++ '-' :: joined gs ++ b).length
    omega

theorem int_first {c : Char} {r : Str} {n : Int} (hc : c ∈ (c! "0123456789")) (h : IsInt (c :: r) n) : 0 ≤ n := by
  obtain ⟨a, b, gs, ha, -, -, -, h3⟩ := h
  rcases h3 with ⟨-, rfl⟩ | ⟨-, rfl⟩ | ⟨h3, -⟩
  · omega
  · omega
  · exfalso
    have hd : isSpace c = false := digit_not_space hc
    cases a with
    | nil =>
      simp at h3
      rw [h3.1] at hc
      exact absurd hc (by decide)
    | cons x a =>
      simp at h3
      rw [h3.1, ha x (by simp)] at hd
      cases hd

theorem shown_nat {n : Int} {m : Nat} (h : n = m) : shown n = dec m := by subst h; simp [shown]

theorem ref_text_inj {a b : Nat} (h : dec a = dec b) : a = b := by
  rw [dec_eq, dec_eq] at h
  have := pyInt_natStr a
  rw [h, pyInt_natStr] at this
  simp at this
  omega

theorem safe_ok {r : Ref} (h : Safe r) : PackOK r := by cases r <;> exact h

theorem short_word {t w : Str} (hl : t.length = 5) (h : t.take 3 = c! "MPC" ∨ t.take 3 = c! "MPS") (hw : SecondWord t w) : w.length ≤ 1 := by
  obtain ⟨first, gap, rest, rfl, h1, h2, h3, h4, -⟩ := hw
  rcases gap with _ | ⟨g, gap⟩
  · exact absurd rfl h3
  have hg := h4 g (by simp)
  rcases first with _ | ⟨a, _ | ⟨b, _ | ⟨c, first⟩⟩⟩
  · exact absurd rfl h1
  · exfalso
    have : g = 'P' := by rcases h with h | h <;> simp at h <;> exact h.2.1
    subst this
    exact absurd hg (by decide)
  · exfalso
    have : g = 'C' ∨ g = 'S' := by
      rcases h with h | h <;> simp at h
      · exact .inl h.2.2
      · exact .inr h.2.2
    rcases this with rfl | rfl <;> exact absurd hg (by decide)
  · simp at hl
    omega

/-- C58: packing and unpacking undo each other for exactly these references and columns -/
theorem C58_both (t cols : Str) : (packRef t = .ok cols ∧ unpackRef cols = .ok t) ↔
    (∃ r : Ref, r.Valid ∧ Safe r ∧ t = r.text ∧ cols = r.columns) ∨ (t = cols ∧ Journal t) := by
  constructor
  · rintro ⟨h1, h2⟩
    have hlen := C13_five_columns t cols h1
    have good : ∀ r : Ref, r.Valid → Safe r → t = r.text → (∃ r : Ref, r.Valid ∧ Safe r ∧ t = r.text ∧ cols = r.columns) ∨ (t = cols ∧ Journal t) := by
      intro r hv hs ht
      refine .inl ⟨r, hv, hs, ht, ?_⟩
      rw [ht, C13_pack (safe_ok hs)] at h1
      cases h1
      rfl
    have bad : ∀ {r r' : Ref}, t = r.text → r'.Valid → packRef r.text = .ok r'.columns → r.text = r'.text := by
      intro r r' ht hv hp
      rw [ht, hp] at h1
      cases h1
      rw [C13_unpack hv] at h2
      cases h2
      exact ht.symm
    cases (C58_unpack cols t).1 h2 with
    | page hc hn =>
      rename_i c r n
      have hb := int_bound hn
      rw [hlen] at hb
      obtain ⟨m, rfl⟩ := Int.eq_ofNat_of_zero_le (int_first hc hn)
      refine good (.mpc m) ?_ (.inl ?_) ?_
      · simp only [Ref.Valid]; omega
      · omega
      · rw [shown_nat rfl]; rfl
    | pageAt hn =>
      rename_i r n
      have hb := int_bound hn
      have hr : r.length = 4 := by simpa using hlen
      rw [hr] at hb
      obtain ⟨m, hm⟩ := Int.eq_ofNat_of_zero_le (a := 100000 + n) (by omega)
      refine good (.mpc m) ?_ (.inl ?_) ?_
      · simp only [Ref.Valid]; omega
      · omega
      · rw [shown_nat hm]; rfl
    | pageHash hx =>
      rename_i x r
      by_cases h3 : 200000 ≤ 110000 + x
      · exact good (.mpc (110000 + x)) (by simp only [Ref.Valid]; omega) (.inr h3) rfl
      · exfalso
        by_cases h4 : 110000 + x ≤ 189999
        · have := bad (r := .mpc (110000 + x)) rfl (by simp only [Ref.Valid]; omega) (C13_mpc_broken _ (by omega) h4).1
          have := ref_text_inj (List.append_cancel_left this)
          omega
        · have := bad (r := .mpc (110000 + x)) rfl (by simp only [Ref.Valid]; omega) (C13_mpc_broken' _ (by omega) (by omega))
          have := ref_text_inj (List.append_cancel_left this)
          omega
    | supplement hk hn =>
      rename_i k r n
      have hb := int_bound hn
      have hr : r.length = 4 := by simpa using hlen
      rw [hr] at hb
      by_cases h0 : 0 ≤ n + 10000 * (k : Int)
      · obtain ⟨m, hm⟩ := Int.eq_ofNat_of_zero_le h0
        have ht : (c! "MPS  ") ++ shown (n + 10000 * (k : Int)) = (Ref.mps m).text := by rw [shown_nat hm]; rfl
        by_cases h9 : m = 259999
        · exfalso
          subst h9
          have := bad ht (by simp only [Ref.Valid]; omega) C13_mps_broken
          have := ref_text_inj (List.append_cancel_left this)
          omega
        · exact good (.mps m) (by simp only [Ref.Valid]; omega) h9 ht
      · exfalso
        have hk0 : k = 0 := by omega
        subst hk0
        simp only [Int.natCast_zero, Int.mul_zero, Int.add_zero] at h0 h1
        have hw : IsInt (shown n) n := by
          rw [← pyInt_iff, shown, if_neg h0, dec_eq, pyInt, strip_of_none]
          · simp only [beq_self_eq_true, if_true, intDigits_natStr]
            simp only [Option.map_some]
            congr 1
            simp only [Int.ofNat_eq_natCast]
            omega
          · intro c hc
            rcases List.mem_cons.1 hc with rfl | hc
            · decide
            · exact digit_not_space (natStr_mem _ c hc)
        have hs : SecondWord ((c! "MPS  ") ++ shown n) (shown n) := by
          refine ⟨c! "MPS", c! "  ", [], by simp, by simp, by decide, by simp, by decide, ?_, ?_, by simp⟩
          · rw [shown, if_neg h0]; simp
          · intro c hc
            rw [shown, if_neg h0, dec_eq] at hc
            rcases List.mem_cons.1 hc with rfl | hc
            · decide
            · exact digit_not_space (natStr_mem _ c hc)
        have e : ((c! "MPS  ") ++ shown n).take 3 = c! "MPS" := rfl
        rw [packRef_eq, if_neg (mps_not e), if_pos e, page_of hs hw] at h1
        have e0 : n.tdiv 10000 = 0 := by
          have : n = -(-n) := by omega
          rw [this, Int.neg_tdiv, Int.tdiv_eq_ediv_of_nonneg (by omega)]
          omega
        obtain ⟨m, hm⟩ := Int.eq_ofNat_of_zero_le (a := n % 10000) (by omega)
        have e1 : mpsCols n = .ok ('a' :: fixed 4 m) := by
          rw [mpsCols, if_pos (by omega), e0, hm, show (m : Int) + 10000 = ((m + 10 ^ 4 : Nat) : Int) by omega, intStr_nat, natStr_add_pow (k := 4) (by omega) (by omega)]
          rfl
        have e2 : ((Except.ok n : Py Int) >>= fun s => mpsCols s >>= fun r => (.ok (out r) : Py Str)) = .ok (out ('a' :: fixed 4 m)) := by
          show (mpsCols n >>= fun r => (.ok (out r) : Py Str)) = _
          rw [e1]; rfl
        rw [e2] at h1
        have e3 : out ('a' :: fixed 4 m) = 'a' :: fixed 4 m := last5 (by simp [fixed_length (k := 4) (n := m) (by omega) (by omega)])
        rw [e3] at h1
        simp only [Except.ok.injEq, List.cons.injEq] at h1
        rw [← h1.2, ← pyInt_iff, pyInt_fixed] at hn
        cases hn
        omega
    | supplementTilde hx =>
      rename_i x r
      exact good (.mps (260000 + x)) (by simp only [Ref.Valid]; omega) (by simp only [Safe]; omega) rfl
    | other hc =>
      rename_i c r
      right
      have no : ∀ q : Ref, q.Valid → Safe q → packRef (c :: r) = packRef q.text → False := by
        intro q hv hs hp
        rw [hp, C13_pack (safe_ok hs)] at h1
        simp only [Except.ok.injEq] at h1
        rw [← h1, C13_unpack hv, h1] at h2
        simp only [Except.ok.injEq] at h2
        have e : q.text.length = 5 := by rw [h2]; exact hlen
        have : ∀ n, 0 < (dec n).length := fun n => by rw [dec_eq]; exact List.length_pos_iff.2 (natStr_ne_nil n)
        cases q <;> simp [Ref.text] at e <;> rename_i n <;> have := this n <;> simp [e] at this
      have page : (c :: r).take 3 = c! "MPC" ∨ (c :: r).take 3 = c! "MPS" → ∃ w, ∃ m : Nat, SecondWord (c :: r) w ∧ IsInt w m ∧ m < 10 := by
        intro hm
        rcases page_cases hm with ⟨w, n, hw, hn, -⟩ | ⟨w, hw, hn, -⟩ | ⟨hw, -⟩
        · have hb := int_bound hn
          have hw1 := short_word hlen hm hw
          have hp : (10 : Int) ^ w.length ≤ 10 := by rcases (show w.length = 0 ∨ w.length = 1 by omega) with h | h <;> rw [h] <;> decide
          have hq : (10 : Int) ^ (w.length - 1) = 1 := by rw [show w.length - 1 = 0 by omega]; rfl
          rw [hq] at hb
          obtain ⟨m, rfl⟩ := Int.eq_ofNat_of_zero_le (a := n) (by omega)
          exact ⟨w, m, hw, hn, by omega⟩
        · rw [(C58_pack_fails _ _).2 (.noNumber hm hw hn)] at h1; cases h1
        · rw [(C58_pack_fails _ _).2 (.noPage hm hw)] at h1; cases h1
      refine ⟨rfl, hlen, by simpa using hc, ?_, ?_⟩
      · intro hm
        obtain ⟨w, m, hw, hn, h9⟩ := page (.inl hm)
        exact no (.mpc m) (by simp only [Ref.Valid]; omega) (.inl (by omega)) (C58_pack_mpc hm hw hn)
      · intro hm
        obtain ⟨w, m, hw, hn, h9⟩ := page (.inr hm)
        exact no (.mps m) (by simp only [Ref.Valid]; omega) (by simp only [Safe]; omega) (C58_pack_mps hm hw hn)
  · rintro (⟨r, hv, hs, rfl, rfl⟩ | ⟨rfl, h1, h2, h3, h4⟩)
    · exact ⟨C13_pack (safe_ok hs), C13_unpack hv⟩
    · refine C13_journal t h1 h3 h4 ?_
      intro c hc
      have := h2 c hc
      refine ⟨fun h => this (.inl h), fun h => this (.inr (lower_letter (List.contains_iff_mem.2 h)))⟩

/-! ### concrete cases -/

theorem int_of {s : Str} {n : Int} (h : pyInt s = .ok n) : IsInt s n := pyInt_iff.1 h

/-- texts that are read although they are not packed pages: a sign, blanks, an underscore -/
theorem C58_read_samples : Means (c! "@-001") (c! "MPC  99999") ∧ Means (c! "a-001") (c! "MPS  -1") ∧ Means (c! "1_2  ") (c! "MPC  12") ∧ Means (c! "#zzzz") (c! "MPC  14886335") ∧ Means (c! "AJ123") (c! "AJ123") := by
  simp only [← C58_unpack]
  decide +kernel

theorem C58_fail_samples : Meaningless (c! "12A45") .valueError ∧ Meaningless (c! "q    ") .valueError ∧ Meaningless (c! "~12 3") .keyError ∧ Meaningless (c! "#12") .indexError ∧
    Unpackable (c! "MPC12345") .indexError ∧ Unpackable (c! "MPC 12a") .valueError ∧ Unpackable (c! "MPS -270000") .indexError := by
  simp only [← C58_unpack_fails, ← C58_pack_fails]
  decide +kernel

/-- both sides of `C58_both` occur -/
theorem C58_both_samples : (packRef (c! "MPS  123456") = .ok (c! "m3456") ∧ unpackRef (c! "m3456") = .ok (c! "MPS  123456")) ∧ Journal (c! "AJ 12") ∧ ¬ Journal (c! "MPC 5") := by
  refine ⟨by decide +kernel, ⟨rfl, ?_, by decide, by decide⟩, fun h => h.2.2.1 rfl⟩
  intro c hc
  simp at hc
  subst hc
  rintro (h | ⟨k, hk, h⟩)
  · exact absurd h (by decide)
  · have := forall_lt_of_all (P := fun k => decide ('A' ≠ letter k)) 26 (by decide +kernel) k hk
    simp at this
    exact this h

end Verif
