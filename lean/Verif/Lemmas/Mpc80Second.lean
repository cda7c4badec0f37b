import Verif.Lemmas.Mpc80Element
import Verif.Props.Justify
/-
  Observations of two lines.
-/
namespace Verif.Mpc80
open Verif Verif.PackUtil Verif.Spec.Mpc80 Verif.Spec Verif.Xml

/-! ### a data line in general -/

/-- columns 1-32 and the rest -/
def dataLine (d : Designation) (disc note code : Char) (t : ObsDate) (rest : Str) : Str := d.columns ++ [disc, note, code] ++ t.column ++ rest

section
variable {d : Designation} {disc note code : Char} {t : ObsDate} {rest : Str}

theorem dataLine_length (hd : d.Valid) (ht : t.Valid) (hr : rest.length = 48) : (dataLine d disc note code t rest).length = 80 := by
  simp [dataLine, columns_length hd, date_length ht, hr]

theorem dataLine_drop (hd : d.Valid) (ht : t.Valid) : (dataLine d disc note code t rest).drop 32 = rest := by
  have e : (d.columns ++ [disc, note, code] ++ t.column).length = 32 := by simp [columns_length hd, date_length ht]
  unfold dataLine
  rw [← e, List.drop_left]

theorem dataLine_slice (hd : d.Valid) (ht : t.Valid) {i j : Nat} (h : 32 ≤ i) : slice (dataLine d disc note code t rest) i j = slice rest (i - 32) (j - 32) := by
  have e := dataLine_drop (rest := rest) (disc := disc) (note := note) (code := code) hd ht
  unfold slice
  conv_rhs => rw [← e]
  rw [List.drop_drop]
  congr 1
  · omega
  · congr 1; omega

/-- columns 1-32 -/
structure HeadParts (d : Designation) (disc note code : Char) (t : ObsDate) (s : Str) : Prop where
  id : slice s 0 12 = d.columns
  disc : slice s 12 13 = [disc]
  note : slice s 13 14 = [note]
  code : slice s 14 15 = [code]
  date : slice s 15 32 = t.column

theorem head_parts (hd : d.Valid) (ht : t.Valid) : HeadParts d disc note code t (dataLine d disc note code t rest) := by
  have l1 := columns_length hd
  have l2 := date_length ht
  unfold dataLine
  refine ⟨?_, ?_, ?_, ?_, ?_⟩
  · have := slice_part (pre := []) (mid := d.columns) (post := [disc, note, code] ++ (t.column ++ rest)) (i := 0) (j := 12) rfl (by omega)
    simpa using this
  · have := slice_part (pre := d.columns) (mid := [disc]) (post := [note, code] ++ (t.column ++ rest)) (i := 12) (j := 13) l1 rfl
    simpa using this
  · have := slice_part (pre := d.columns ++ [disc]) (mid := [note]) (post := [code] ++ (t.column ++ rest)) (i := 13) (j := 14) (by simp [l1]) rfl
    simpa using this
  · have := slice_part (pre := d.columns ++ [disc, note]) (mid := [code]) (post := (t.column ++ rest)) (i := 14) (j := 15) (by simp [l1]) rfl
    simpa using this
  · have := slice_part (pre := d.columns ++ [disc, note, code]) (mid := t.column) (post := rest) (i := 15) (j := 32) (by simp [l1]) (by omega)
    simpa using this

theorem head_ok (hd : d.Valid) (h_ : '_' ∉ d.columns) (hm : '-' ∉ d.columns) (ht : t.Valid) (h1 : disc ∈ [' ', '*', '+']) (h2 : note ≠ '\n') {p : Char → Bool} (h3 : p code = true)
    {l : Layout} (hl : l.ok rest) : Layout.ok (common1L ++ [⟨some 4, [.one p]⟩] ++ common2L ++ l) (dataLine d disc note code t rest) := by
  have q := head_parts (disc := disc) (note := note) (code := code) (rest := rest) hd ht
  generalize hs : dataLine d disc note code t rest = s at q
  obtain ⟨i1, i2, i3⟩ := columns_id hd h_ hm
  obtain ⟨d1, d2, d3⟩ := date_chars ht
  have hid := columns_length hd
  refine (common_ok _ _ _).2 ⟨?_, ?_, ?_, ?_, ?_, ?_, ?_, ?_, ?_⟩
  · intro c hc
    have : slice s 0 1 = d.columns.take 1 := by rw [← q.id]; simp [slice, List.take_take]
    rw [this] at hc
    rcases i1 c hc with hc | rfl
    · simp only [idCh, Bool.or_eq_true] at hc ⊢
      rcases hc with hc | hc <;> simp [hc]
    · decide
  · intro c hc
    have : slice s 1 12 = d.columns.drop 1 := by rw [← q.id]; simp [slice, List.drop_take]
    rw [this] at hc
    exact i2 c hc
  · intro c hc
    rw [q.disc] at hc
    simp at hc; subst hc
    exact (oneOf_iff _ _).2 h1
  · intro c hc
    rw [q.note] at hc
    simp at hc; subst hc
    exact any_ne h2
  · intro c hc
    rw [q.code] at hc
    simp at hc; subst hc
    exact h3
  · intro c hc
    have : slice s 15 19 = slice t.column 0 4 := by rw [← q.date, slice_of_slice _ (by omega)]
    rw [this] at hc; exact d1 c hc
  · intro c hc
    have : slice s 19 20 = slice t.column 4 5 := by rw [← q.date, slice_of_slice _ (by omega)]
    rw [this, d2] at hc
    simp at hc; subst hc; decide
  · intro c hc
    have : slice s 20 32 = slice t.column 5 17 := by rw [← q.date, slice_of_slice _ (by omega)]
    rw [this] at hc; exact d3 c hc
  · rw [← hs, dataLine_drop hd ht]; exact hl

/-- the characters that end a line do not occur in columns 1-32 -/
theorem head_noBreak (hd : d.Valid) (h_ : '_' ∉ d.columns) (hm : '-' ∉ d.columns) (ht : t.Valid) (h1 : disc ∈ [' ', '*', '+']) {b : Char} (hb : b = '\n' ∨ b = '\r') (h2 : note ≠ b)
    (h3 : code ≠ b) : b ∉ d.columns ++ [disc, note, code] ++ t.column := by
  have hi : idCh b = false := by rcases hb with rfl | rfl <;> decide
  have hnum : numCh b = false := by rcases hb with rfl | rfl <;> decide
  have hdec : isDec b = false := by rcases hb with rfl | rfl <;> decide
  have htl : b ≠ '~' := by rcases hb with rfl | rfl <;> decide
  have hsp : b ≠ ' ' := by rcases hb with rfl | rfl <;> decide
  simp only [List.mem_append, List.mem_cons, List.not_mem_nil, or_false, not_or]
  refine ⟨⟨?_, ?_, h2.symm, h3.symm⟩, ?_⟩
  · obtain ⟨i1, i2, _⟩ := columns_id hd h_ hm
    intro hmm
    rw [← List.take_append_drop 1 d.columns, List.mem_append] at hmm
    rcases hmm with hmm | hmm
    · rcases i1 _ hmm with h | h
      · rw [hi] at h; simp at h
      · exact htl h
    · have := i2 _ hmm; rw [hi] at this; simp at this
  · rintro rfl
    revert h1; rcases hb with rfl | rfl <;> decide
  · obtain ⟨d1, d2, d3⟩ := date_chars ht
    have hl := date_length ht
    have e : t.column = slice t.column 0 4 ++ slice t.column 4 5 ++ slice t.column 5 17 := by
      rw [slice_append _ (by omega) (by omega), slice_append _ (by omega) (by omega)]
      simp [slice, ← hl]
    rw [e]
    simp only [List.mem_append, not_or]
    refine ⟨⟨fun hmm => ?_, by rw [d2]; simpa using hsp⟩, fun hmm => ?_⟩
    · have := d1 _ hmm; rw [hdec] at this; simp at this
    · have := d3 _ hmm; rw [hnum] at this; simp at this

theorem not_header (hd : d.Valid) (h_ : '_' ∉ d.columns) (hm : '-' ∉ d.columns) (hn : '\n' ∉ dataLine d disc note code t rest) :
    reMatch headerRegex (dataLine d disc note code t rest) = none := by
  have hmm := header_match (t := []) hn (Or.inl rfl)
  rw [List.append_nil] at hmm
  rw [hmm, if_neg]
  rintro ⟨h1, h2⟩
  have hl := columns_length hd
  have e : (dataLine d disc note code t rest).take 12 = d.columns := by
    simp only [dataLine, List.append_assoc]
    rw [← hl, List.take_left]
  have e3 : d.columns.take 3 = (dataLine d disc note code t rest).take 3 := by rw [← e, List.take_take]; rfl
  have e4 : d.columns[3]? = (dataLine d disc note code t rest)[3]? := by rw [← e, List.getElem?_take]; simp
  have := (columns_id hd h_ hm).2.2 (by rw [e4]; exact h2)
  rw [← e3, this] at h1
  revert h1; decide

end

/-! ### coordinates -/

theorem leftpad_eq {w : Nat} {a : Str} : List.leftpad w ' ' a = List.replicate (w - a.length) ' ' ++ a := rfl

theorem dec_length_lt {n w : Nat} (hw : 1 ≤ w) (h : n < 10 ^ w) : (Spec.dec n).length ≤ w := by
  unfold Spec.dec
  exact (Nat.length_toDigits_le_iff (by omega) (by omega)).2 h

theorem dec_nodot (n : Nat) : '.' ∉ Spec.dec n := by
  intro h
  rw [dec_eq] at h
  have := natStr_mem n _ h
  revert this; decide

theorem fixed_nodot (k n : Nat) : '.' ∉ Spec.fixed k n := by
  intro h
  have := fixed_mem k n _ h
  revert this; decide

theorem coord_signed {c : Coord} {w : Nat} (hw : 1 ≤ w) (hw' : w ≤ 9) (h : c.Valid w) :
    packSigned (c.column w) = .ok c.text ∧ unPackSigned c.text 11 (w + 2 : Nat) = .ok (c.column w) := by
  obtain ⟨h1, h2, h3, h4⟩ := h
  have hl := dec_length_lt hw h1
  have hf := fixed_length h2 h4
  have hs : c.sign = '+' ∨ c.sign = '-' := by unfold Coord.sign; split <;> simp
  have hne : c.sign ≠ ' ' := by rcases hs with e | e <;> rw [e] <;> decide
  have hdig : (c! "0123456789").contains c.sign = false := by rcases hs with e | e <;> rw [e] <;> decide
  have hsg : (c! "+-").contains c.sign = true := by rcases hs with e | e <;> rw [e] <;> decide
  have hcol : c.column w = c.sign :: (List.replicate (w - (Spec.dec c.whole).length) ' ' ++ (Spec.dec c.whole ++ ['.'] ++ fixed c.digits c.frac) ++ List.replicate (9 - w - c.digits) ' ') := by
    simp only [Coord.column, leftpad_eq, List.rightpad, hf, List.append_assoc]
  have hno : ∀ x ∈ Spec.dec c.whole ++ ['.'] ++ fixed c.digits c.frac, isSpace x = false := by
    simp only [List.mem_append, List.mem_singleton]
    rintro x ((hx | rfl) | hx)
    · exact dec_nospace _ x hx
    · rfl
    · exact fixed_nospace _ _ x hx
  constructor
  · rw [hcol]
    have e := strip_pad (s := Spec.dec c.whole ++ ['.'] ++ fixed c.digits c.frac) (w - (Spec.dec c.whole).length) (9 - w - c.digits)
      (fun x hx => hno x (List.mem_of_mem_head? hx)) (fun x hx => hno x (List.mem_of_mem_getLast? hx))
    simp only [packSigned, charAt, List.getElem?_cons_zero, bind, Except.bind, pure, Except.pure, List.drop_succ_cons, List.drop_zero, e, hne, ne_eq, not_false_eq_true, if_true]
    rfl
  · have e1 : (11 : Int) - 1 = 10 := by omega
    have e2 : ((w + 2 : Nat) : Int) - 1 = ((w + 1 : Nat) : Int) := by omega
    have hp := applyPJ_point (a := Spec.dec c.whole) (b := fixed c.digits c.frac) (dec_nodot _) (fixed_nodot _ _) 10 ((w + 1 : Nat) : Int) (by omega)
    simp only [unPackSigned, Coord.text, charAt, List.getElem?_cons_zero, bind, Except.bind, hdig, Bool.false_eq_true, if_false, hsg, not_true, List.drop_succ_cons, List.drop_zero,
      e1, e2, List.append_assoc, List.singleton_append, hp, pure, Except.pure]
    rw [hcol]
    have m : max ((w + 1 : Nat) : Int) ((Spec.dec c.whole).length + 1) = ((w + 1 : Nat) : Int) := by omega
    rw [m, hf]
    congr 1
    simp only [blanks, List.append_assoc]
    congr 2
    · congr 1; omega
    · simp only [List.singleton_append]
      have e3 : (10 - ((w + 1 : Nat) : Int) - (c.digits : Int)).toNat = 9 - w - c.digits := by omega
      rw [e3]; simp

/-! ### the second lines -/

theorem noteFor_ok {o : Optical} {c : Char} (h : noteFor o c) : noteOk o.stn [c] ∧ isSpace c = false ∨ noteOk o.stn [c] ∧ c = ' ' := by
  unfold noteFor at h
  by_cases hu : o.usesPrograms
  · rw [if_pos hu] at h
    have q : programLetters.all (fun c => isSpace c == false && decide (c ∈ validProgramCodes)) = true := by decide +kernel
    rcases h with rfl | h
    · exact Or.inr ⟨⟨Or.inl hu, by decide⟩, rfl⟩
    · have := all_mem q h
      simp only [Bool.and_eq_true, beq_iff_eq, decide_eq_true_eq] at this
      exact Or.inl ⟨⟨Or.inl hu, (inStr_one _ _).2 this.2⟩, this.1⟩
  · rw [if_neg hu] at h
    have q : noteLetters.all (fun c => (isSpace c == false || decide (c = ' ')) && decide (c ∈ validProgramCodes) && decide (c ∈ validNotes)) = true := by decide +kernel
    have := all_mem q h
    simp only [Bool.and_eq_true, Bool.or_eq_true, beq_iff_eq, decide_eq_true_eq] at this
    obtain ⟨⟨h1, h2⟩, h3⟩ := this
    have hk : noteOk o.stn [c] := ⟨Or.inr ((inStr_one _ _).2 h3), (inStr_one _ _).2 h2⟩
    rcases h1 with h1 | h1
    · exact Or.inl ⟨hk, h1⟩
    · exact Or.inr ⟨hk, h1⟩

theorem noteFor_noteOk {o : Optical} {c : Char} (h : noteFor o c) : noteOk o.stn [c] := by
  rcases noteFor_ok h with h | h
  · exact h.1
  · exact h.1

theorem noteFor_ne {o : Optical} {c : Char} (h : noteFor o c) {b : Char} (hb : b = '\n' ∨ b = '\r') : c ≠ b := by
  rintro rfl
  rcases noteFor_ok h with ⟨_, h⟩ | ⟨_, h⟩
  · rcases hb with rfl | rfl <;> revert h <;> decide
  · rcases hb with rfl | rfl <;> revert h <;> decide

def Spacecraft.rest (o : Optical) (s : Spacecraft) : Str :=
  [if s.au then '2' else '1', ' '] ++ s.x.column s.places ++ [' '] ++ s.y.column s.places ++ [' '] ++ s.z.column s.places ++ c! "   " ++ s.ref ++ o.stn
def Rover.rest (o : Optical) (r : Rover) : Str := c! "1 " ++ r.lon ++ [' '] ++ r.lat ++ [' '] ++ r.alt ++ List.replicate 10 ' ' ++ r.ref ++ o.stn

theorem sat_line (o : Optical) (s : Spacecraft) : s.line o = dataLine o.desig s.disc s.note 's' o.date (Spacecraft.rest o s) := rfl
theorem rover_line (o : Optical) (r : Rover) : r.line o = dataLine o.desig r.disc r.note 'v' o.date (Rover.rest o r) := rfl

theorem coord_length {c : Coord} {w : Nat} (hw : 1 ≤ w) (hw' : w ≤ 9) (h : c.Valid w) : (c.column w).length = 11 := by
  have hl := dec_length_lt hw h.1
  have hf := fixed_length h.2.1 h.2.2.2
  have := h.2.2.1
  simp only [Coord.column, leftpad_eq, List.rightpad, List.length_cons, List.length_append, List.length_replicate, hf, List.length_nil]
  omega

theorem coord_chars {c : Coord} {w : Nat} : ∃ t, c.column w = c.sign :: t ∧ ∀ x ∈ t, numCh x = true := by
  refine ⟨_, rfl, ?_⟩
  simp only [leftpad_eq, List.rightpad, List.mem_append, List.mem_replicate, List.mem_singleton]
  rintro x (((⟨_, rfl⟩ | hx) | rfl) | (hx | ⟨_, rfl⟩))
  · decide
  · rw [dec_eq] at hx; exact numCh_digit (natStr_mem _ x hx)
  · decide
  · exact numCh_digit (fixed_mem _ _ x hx)
  · decide

theorem places_range (s : Spacecraft) : 1 ≤ s.places ∧ s.places ≤ 9 := by unfold Spacecraft.places; split <;> omega

/-- columns 33-80 of a spacecraft's line -/
structure SatParts (o : Optical) (s : Spacecraft) (t : Str) : Prop where
  len : t.length = 48
  unit : slice t 0 1 = [if s.au then '2' else '1']
  gap1 : slice t 1 2 = [' ']
  x : slice t 2 13 = s.x.column s.places
  gap2 : slice t 13 14 = [' ']
  y : slice t 14 25 = s.y.column s.places
  gap3 : slice t 25 26 = [' ']
  z : slice t 26 37 = s.z.column s.places
  gap4 : slice t 37 39 = c! "  "
  ref : slice t 39 45 = ' ' :: s.ref
  stn : slice t 45 48 = o.stn

theorem sat_parts {o : Optical} (h : o.Valid) {s : Spacecraft} (hs : s.Valid o) : SatParts o s (Spacecraft.rest o s) := by
  obtain ⟨w1, w2⟩ := places_range s
  have l1 := coord_length w1 w2 hs.x
  have l2 := coord_length w1 w2 hs.y
  have l3 := coord_length w1 w2 hs.z
  have l4 := hs.ref.1
  have l5 := h.stn.1
  unfold Spacecraft.rest
  generalize ha1 : s.x.column s.places = a1 at *
  generalize ha2 : s.y.column s.places = a2 at *
  generalize ha3 : s.z.column s.places = a3 at *
  generalize ha4 : s.ref = a4 at *
  generalize ha5 : o.stn = a5 at *
  generalize hu : (if s.au then '2' else '1') = u
  have key : ∀ (pre mid post : Str) (i j : Nat), [u, ' '] ++ a1 ++ [' '] ++ a2 ++ [' '] ++ a3 ++ c! "   " ++ a4 ++ a5 = pre ++ (mid ++ post) →
      pre.length = i → mid.length = j - i → slice ([u, ' '] ++ a1 ++ [' '] ++ a2 ++ [' '] ++ a3 ++ c! "   " ++ a4 ++ a5) i j = mid := by
    intro pre mid post i j h1 h2 h3
    rw [h1]; exact slice_part h2 h3
  constructor
  · simp [*]
  · rw [hu]; exact key [] [u] _ 0 1 (by simp only [List.append_assoc, List.cons_append, List.nil_append]; rfl) (by simp) (by simp)
  · exact key [u] [' '] _ 1 2 (by simp only [List.append_assoc, List.cons_append, List.nil_append]; rfl) (by simp) (by simp)
  · rw [ha1]; exact key [u, ' '] a1 _ 2 13 (by simp only [List.append_assoc, List.cons_append, List.nil_append]; rfl) (by simp) (by simp [*])
  · exact key ([u, ' '] ++ a1) [' '] _ 13 14 (by simp only [List.append_assoc, List.cons_append, List.nil_append]; rfl) (by simp [*]) (by simp [*])
  · rw [ha2]; exact key ([u, ' '] ++ a1 ++ [' ']) a2 _ 14 25 (by simp only [List.append_assoc, List.cons_append, List.nil_append]; rfl) (by simp [*]) (by simp [*])
  · exact key ([u, ' '] ++ a1 ++ [' '] ++ a2) [' '] _ 25 26 (by simp only [List.append_assoc, List.cons_append, List.nil_append]; rfl) (by simp [*]) (by simp [*])
  · rw [ha3]; exact key ([u, ' '] ++ a1 ++ [' '] ++ a2 ++ [' ']) a3 _ 26 37 (by simp only [List.append_assoc, List.cons_append, List.nil_append]; rfl) (by simp [*]) (by simp [*])
  · exact key ([u, ' '] ++ a1 ++ [' '] ++ a2 ++ [' '] ++ a3) (c! "  ") _ 37 39 (by simp only [List.append_assoc, List.cons_append, List.nil_append]; rfl) (by simp [*]) (by simp [*])
  · rw [ha4]; exact key ([u, ' '] ++ a1 ++ [' '] ++ a2 ++ [' '] ++ a3 ++ c! "  ") (' ' :: a4) _ 39 45 (by simp only [List.append_assoc, List.cons_append, List.nil_append]; rfl) (by simp [*]) (by simp [*])
  · rw [ha5]; exact key ([u, ' '] ++ a1 ++ [' '] ++ a2 ++ [' '] ++ a3 ++ c! "   " ++ a4) a5 [] 45 48 (by simp only [List.append_assoc, List.cons_append, List.nil_append, List.append_nil]) (by simp [*]) (by simp [*])

theorem stn_any {o : Optical} (h : o.Valid) : ∀ c ∈ o.stn, anyCh c = true := fun c hc => any_ne (ne_nl_of (Or.inr (h.stn.2 c hc)))

theorem coord_sub {u : Str} {c : Coord} {w : Nat} (hu : u = c.column w) : (∀ x ∈ u.take 1, oneOf ['+', '-'] x = true) ∧ (∀ x ∈ (u.drop 1).take 10, numCh x = true) := by
  obtain ⟨t, e, ht⟩ := coord_chars (c := c) (w := w)
  rw [hu, e]
  constructor
  · intro x hx
    simp at hx
    subst hx
    refine (oneOf_iff _ _).2 ?_
    unfold Coord.sign; split <;> simp
  · intro x hx
    simp at hx
    exact ht x (List.mem_of_mem_take hx)

theorem coord_slice {t : Str} {c : Coord} {w i n m : Nat} (hn : n = i + 11) (hm : m = i + 1) (h : slice t i n = c.column w) :
    (∀ x ∈ (t.drop i).take (min 1 11), oneOf ['+', '-'] x = true) ∧ (∀ x ∈ (t.drop m).take 10, numCh x = true) := by
  subst hn hm
  obtain ⟨h1, h2⟩ := coord_sub h
  refine ⟨?_, ?_⟩
  · have e : (slice t i (i + 11)).take 1 = (t.drop i).take (min 1 11) := by simp [slice, List.take_take]
    rwa [e] at h1
  · have e : ((slice t i (i + 11)).drop 1).take 10 = (t.drop (i + 1)).take 10 := by simp [slice, List.drop_take]
    rwa [e] at h2

theorem sat_ok {o : Optical} (h : o.Valid) {s : Spacecraft} (hs : s.Valid o) : satL.ok (s.line o) := by
  have p := sat_parts h hs
  rw [sat_line]
  unfold satL
  refine head_ok h.desig h.noExt.1 h.noExt.2 h.date hs.disc (noteFor_ne hs.note (Or.inl rfl)) (by decide) ?_
  generalize hr : Spacecraft.rest o s = t at p
  simp only [coordS, Layout.ok, Field.width, subsWidth, Sub.width, subsOk, Sub.ok, Nat.add_zero, and_true, List.drop_drop, List.take_take, List.drop_take]
  simp only [Nat.reduceAdd, Nat.reduceSub, Nat.min_self]
  obtain ⟨x1, x2⟩ := coord_slice (i := 2) (n := 13) (m := 3) rfl rfl p.x
  obtain ⟨y1, y2⟩ := coord_slice (i := 14) (n := 25) (m := 15) rfl rfl p.y
  obtain ⟨z1, z2⟩ := coord_slice (i := 26) (n := 37) (m := 27) rfl rfl p.z
  refine ⟨?_, ?_, ⟨x1, x2⟩, ?_, ⟨y1, y2⟩, ?_, ⟨z1, z2⟩, ?_, ⟨?_, ?_⟩, ?_⟩
  · have e := p.unit
    simp only [slice, List.drop_zero, Nat.sub_zero] at e
    rw [e]; cases s.au <;> decide
  · have e := p.gap1
    simp only [slice] at e
    rw [e]; decide
  · have e := p.gap2
    simp only [slice] at e
    rw [e]; decide
  · have e := p.gap3
    simp only [slice] at e
    rw [e]; decide
  · have e := p.gap4
    simp only [slice] at e
    rw [e]; decide
  · have e : List.take (min 1 6) (List.drop 39 t) = (slice t 39 45).take 1 := by simp [slice, List.take_take]
    rw [e, p.ref]; simp; decide
  · have e : List.take 5 (List.drop 40 t) = (slice t 39 45).drop 1 := by simp [slice, List.drop_take]
    rw [e, p.ref]
    intro c hc
    exact any_ne (fun e => hs.ref.2.1 (e ▸ (by simpa using hc)))
  · have e := p.stn
    simp only [slice] at e
    rw [e]; exact stn_any h

/-- columns 33-80 of a roving observer's line -/
structure RoverParts (o : Optical) (r : Rover) (t : Str) : Prop where
  len : t.length = 48
  one : slice t 0 1 = ['1']
  gap1 : slice t 1 2 = [' ']
  lon : slice t 2 12 = r.lon
  gap2 : slice t 12 13 = [' ']
  lat : slice t 13 23 = r.lat
  gap3 : slice t 23 24 = [' ']
  alt : slice t 24 29 = r.alt
  gap4 : slice t 29 39 = List.replicate 10 ' '
  ref : slice t 39 45 = r.ref
  stn : slice t 45 48 = o.stn

theorem rover_parts {o : Optical} (h : o.Valid) {r : Rover} (hs : r.Valid o) : RoverParts o r (Rover.rest o r) := by
  have l1 := hs.lon.1
  have l2 := hs.lat.1
  have l3 := hs.alt.1
  have l4 := hs.ref.1
  have l5 := h.stn.1
  unfold Rover.rest
  generalize ha1 : r.lon = a1 at *
  generalize ha2 : r.lat = a2 at *
  generalize ha3 : r.alt = a3 at *
  generalize ha4 : r.ref = a4 at *
  generalize ha5 : o.stn = a5 at *
  generalize hb : List.replicate 10 ' ' = b
  have lb : b.length = 10 := by rw [← hb]; rfl
  have key : ∀ (pre mid post : Str) (i j : Nat), c! "1 " ++ a1 ++ [' '] ++ a2 ++ [' '] ++ a3 ++ b ++ a4 ++ a5 = pre ++ (mid ++ post) →
      pre.length = i → mid.length = j - i → slice (c! "1 " ++ a1 ++ [' '] ++ a2 ++ [' '] ++ a3 ++ b ++ a4 ++ a5) i j = mid := by
    intro pre mid post i j h1 h2 h3
    rw [h1]; exact slice_part h2 h3
  constructor
  · simp [*]
  · exact key [] ['1'] _ 0 1 (by simp only [List.append_assoc, List.cons_append, List.nil_append]; rfl) (by simp) (by simp)
  · exact key ['1'] [' '] _ 1 2 (by simp only [List.append_assoc, List.cons_append, List.nil_append]; rfl) (by simp) (by simp)
  · rw [ha1]; exact key (c! "1 ") a1 _ 2 12 (by simp only [List.append_assoc, List.cons_append, List.nil_append]; rfl) (by simp) (by simp [*])
  · exact key (c! "1 " ++ a1) [' '] _ 12 13 (by simp only [List.append_assoc, List.cons_append, List.nil_append]; rfl) (by simp [*]) (by simp [*])
  · rw [ha2]; exact key (c! "1 " ++ a1 ++ [' ']) a2 _ 13 23 (by simp only [List.append_assoc, List.cons_append, List.nil_append]; rfl) (by simp [*]) (by simp [*])
  · exact key (c! "1 " ++ a1 ++ [' '] ++ a2) [' '] _ 23 24 (by simp only [List.append_assoc, List.cons_append, List.nil_append]; rfl) (by simp [*]) (by simp [*])
  · rw [ha3]; exact key (c! "1 " ++ a1 ++ [' '] ++ a2 ++ [' ']) a3 _ 24 29 (by simp only [List.append_assoc, List.cons_append, List.nil_append]; rfl) (by simp [*]) (by simp [*])
  · rw [hb]; exact key (c! "1 " ++ a1 ++ [' '] ++ a2 ++ [' '] ++ a3) b _ 29 39 (by simp only [List.append_assoc, List.cons_append, List.nil_append]; rfl) (by simp [*]) (by simp [*])
  · rw [ha4]; exact key (c! "1 " ++ a1 ++ [' '] ++ a2 ++ [' '] ++ a3 ++ b) a4 _ 39 45 (by simp only [List.append_assoc, List.cons_append, List.nil_append]; rfl) (by simp [*]) (by simp [*])
  · rw [ha5]; exact key (c! "1 " ++ a1 ++ [' '] ++ a2 ++ [' '] ++ a3 ++ b ++ a4) a5 [] 45 48 (by simp only [List.append_assoc, List.cons_append, List.nil_append, List.append_nil]) (by simp [*]) (by simp [*])

theorem number_signed {c : Char} (h : c ∈ numberChars) : signedCh c = true := by
  have : ∀ c ∈ numberChars, signedCh c = true := by decide
  exact this c h

theorem rover_ok {o : Optical} (h : o.Valid) (hstn : o.stn = c! "247") {r : Rover} (hs : r.Valid o) : roverL.ok (r.line o) := by
  have p := rover_parts h hs
  rw [rover_line]
  unfold roverL
  refine head_ok h.desig h.noExt.1 h.noExt.2 h.date hs.disc (noteFor_ne hs.note (Or.inl rfl)) (by decide) ?_
  generalize hr : Rover.rest o r = t at p
  simp only [Layout.ok, Field.width, subsWidth, Sub.width, subsOk, Sub.ok, Nat.add_zero, and_true, List.drop_drop, List.take_take, List.drop_take]
  simp only [Nat.reduceAdd, Nat.reduceSub, Nat.min_self]
  have g : ∀ i n : Nat, List.take n (List.drop i t) = slice t i (i + n) := by intro i n; simp [slice]
  have st : ∀ i n m : Nat, m ≤ n → List.take m (List.drop i t) = (slice t i (i + n)).take m := by
    intro i n m hm; simp [slice, List.take_take]; omega
  refine ⟨?_, ?_, ?_, ?_, ?_, ?_, ?_, ?_, ?_, ?_, ?_, ?_⟩
  · have e := p.one
    simp only [slice, List.drop_zero, Nat.sub_zero] at e
    rw [e]; decide
  · rw [g, p.gap1]; decide
  · rw [g, p.lon]; exact fun c hc => number_signed (hs.lon.2 c hc)
  · rw [g, p.gap2]; decide
  · rw [g, p.lat]; exact fun c hc => number_signed (hs.lat.2 c hc)
  · rw [g, p.gap3]; decide
  · rw [g, p.alt]; exact fun c hc => number_signed (hs.alt.2.1 c hc)
  · rw [g, p.gap4]; decide
  · rw [g, p.ref]; exact fun c hc => any_ne (fun e => hs.ref.2.1 (e ▸ hc))
  · have e : List.take (min 1 3) (List.drop 45 t) = (slice t 45 48).take 1 := by simp [slice, List.take_take]
    rw [e, p.stn, hstn]; decide
  · have e : List.take (min 1 2) (List.drop 46 t) = ((slice t 45 48).drop 1).take 1 := by simp [slice, List.drop_take, List.take_take]
    rw [e, p.stn, hstn]; decide
  · have e : List.take 1 (List.drop 47 t) = (slice t 45 48).drop 2 := by simp [slice, List.drop_take]
    rw [e, p.stn, hstn]; decide

/-! ### the second lines read -/

theorem sat_noBreak {o : Optical} (h : o.Valid) {s : Spacecraft} (hs : s.Valid o) {b : Char} (hb : b = '\n' ∨ b = '\r') : b ∉ s.line o := by
  have hnum : numCh b = false := by rcases hb with rfl | rfl <;> decide
  have hsp : isSpace b = true := by rcases hb with rfl | rfl <;> decide
  have hc : ∀ (c : Coord) w, b ∉ c.column w := by
    intro c w hm
    obtain ⟨t, e, ht⟩ := coord_chars (c := c) (w := w)
    rw [e, List.mem_cons] at hm
    rcases hm with hm | hm
    · have : c.sign = '+' ∨ c.sign = '-' := by unfold Coord.sign; split <;> simp
      rcases this with e | e <;> rw [e] at hm <;> rcases hb with rfl | rfl <;> revert hm <;> decide
    · have := ht _ hm; rw [hnum] at this; simp at this
  have hb' : b ≠ ' ' := by rcases hb with rfl | rfl <;> decide
  have hd := head_noBreak (disc := s.disc) (code := 's') h.desig h.noExt.1 h.noExt.2 h.date hs.disc hb (noteFor_ne hs.note hb) (by rcases hb with rfl | rfl <;> decide)
  have hu : b ≠ (if s.au = true then '2' else '1') := by rcases hb with rfl | rfl <;> cases s.au <;> decide
  unfold Spacecraft.line
  rw [List.mem_append, not_or]
  refine ⟨hd, ?_⟩
  simp only [List.mem_append, List.mem_cons, List.not_mem_nil, or_false, not_or]
  refine ⟨⟨⟨⟨⟨⟨⟨⟨⟨hu, hb'⟩, hc _ _⟩, hb'⟩, hc _ _⟩, hb'⟩, hc _ _⟩, hb', hb', hb'⟩, ?_⟩, ?_⟩
  · rcases hb with rfl | rfl
    · exact hs.ref.2.1
    · exact hs.ref.2.2
  · intro hm; have := h.stn.2 _ hm; rw [hsp] at this; simp at this

theorem rover_noBreak {o : Optical} (h : o.Valid) {r : Rover} (hs : r.Valid o) {b : Char} (hb : b = '\n' ∨ b = '\r') : b ∉ r.line o := by
  have hsp : isSpace b = true := by rcases hb with rfl | rfl <;> decide
  have hn : b ∉ numberChars := by rcases hb with rfl | rfl <;> decide
  have hb' : b ≠ ' ' := by rcases hb with rfl | rfl <;> decide
  have h1 : b ≠ '1' := by rcases hb with rfl | rfl <;> decide
  have hd := head_noBreak (disc := r.disc) (code := 'v') h.desig h.noExt.1 h.noExt.2 h.date hs.disc hb (noteFor_ne hs.note hb) (by rcases hb with rfl | rfl <;> decide)
  unfold Rover.line
  rw [List.mem_append, not_or]
  refine ⟨hd, ?_⟩
  simp only [List.mem_append, List.mem_cons, List.not_mem_nil, or_false, not_or, List.mem_replicate, not_and]
  refine ⟨⟨⟨⟨⟨⟨⟨⟨⟨h1, hb'⟩, fun hm => hn (hs.lon.2 _ hm)⟩, hb'⟩, fun hm => hn (hs.lat.2 _ hm)⟩, hb'⟩, fun hm => hn (hs.alt.2.1 _ hm)⟩, fun _ => hb'⟩, ?_⟩, ?_⟩
  · rcases hb with rfl | rfl
    · exact hs.ref.2.1
    · exact hs.ref.2.2
  · intro hm; have := h.stn.2 _ hm; rw [hsp] at this; simp at this

/-- the item read from a spacecraft's line -/
def secondItem (o : Optical) (s : Spacecraft) (time : Str) : Item :=
  checked (satItem (s.line o) s.x.text s.y.text s.z.text) time (.int (10 ^ (6 - o.date.digits))) ' ' ⟨o.desig.permText, o.desig.provText, trkRead o.desig⟩

theorem decode_sat {o : Optical} (h : o.Valid) {s : Spacecraft} (hs : s.Valid o) {time ra dec : Str} (hc : Converted o time ra dec) :
    decode80ColumnDataLine (s.line o) = .ok (secondItem o s time) := by
  have p := sat_parts h hs
  have q := head_parts (disc := s.disc) (note := s.note) (code := 's') (rest := Spacecraft.rest o s) h.desig h.date
  have hl := dataLine_length (disc := s.disc) (note := s.note) (code := 's') h.desig h.date p.len
  have sl : ∀ i j, 32 ≤ i → slice (s.line o) i j = slice (Spacecraft.rest o s) (i - 32) (j - 32) := fun i j hi => by rw [sat_line]; exact dataLine_slice h.desig h.date hi
  rw [← sat_line] at q hl
  have e1 : slice (s.line o) 34 45 = s.x.column s.places := by rw [sl 34 45 (by omega)]; exact p.x
  have e2 : slice (s.line o) 46 57 = s.y.column s.places := by rw [sl 46 57 (by omega)]; exact p.y
  have e3 : slice (s.line o) 58 69 = s.z.column s.places := by rw [sl 58 69 (by omega)]; exact p.z
  have e0 : slice (s.line o) 32 33 = [if s.au then '2' else '1'] := by rw [sl 32 33 (by omega)]; exact p.unit
  have er : slice (s.line o) 71 77 = ' ' :: s.ref := by rw [sl 71 77 (by omega)]; exact p.ref
  have es : slice (s.line o) 77 80 = o.stn := by rw [sl 77 80 (by omega)]; exact p.stn
  have hd : satDigits (s.line o) = ((s.places + 2 : Nat) : Int) := by
    unfold satDigits Spacecraft.places
    rw [e0]
    cases s.au <;> rfl
  obtain ⟨w1, w2⟩ := places_range s
  have cx := coord_signed w1 w2 hs.x
  have cy := coord_signed w1 w2 hs.y
  have cz := coord_signed w1 w2 hs.z
  have hcol : decodeColumns (s.line o) = .ok (satItem (s.line o) s.x.text s.y.text s.z.text) := by
    refine (decodeColumns_ok hl).2 (Or.inr (Or.inr (Or.inr (Or.inl ⟨sat_ok h hs, decodeSat_ok.2 ⟨s.x.text, s.y.text, s.z.text, ?_, ?_, ?_, ?_, ?_, ?_, rfl⟩⟩))))
    · rw [e1]; exact cx.1
    · rw [e2]; exact cy.1
    · rw [e3]; exact cz.1
    · rw [e1, hd]; exact cx.2
    · rw [e2, hd]; exact cy.2
    · rw [e3, hd]; exact cz.2
  rw [decode_ok]
  have hhd : reMatch headerRegex (s.line o) = none := by
    have := sat_noBreak h hs (Or.inl rfl)
    rw [sat_line] at this ⊢
    exact not_header h.desig h.noExt.1 h.noExt.2 this
  refine Or.inr (Or.inr ⟨hl, hhd, _, hcol, ?_⟩)
  · have hu := unpack_valid h.desig
    refine decodeChecks_ok.2 ⟨o.date.column, time, _, ['s'], o.stn, [s.note], ' ', s.ref, o.desig.columns, _, ?_, ?_, ?_, ?_, ?_, by decide, noteFor_noteOk hs.note, ?_, ?_, hu, rfl⟩
    · simp [satItem, commonItem, get?_put, get?_set, q.date]
    · have : (Item.get? (satItem (s.line o) s.x.text s.y.text s.z.text) (c! "trx")).isSome = false := by
        simp [satItem, commonItem, get?_put, get?_set, get?_nil]
      rw [this]; exact hc.time
    · simp [satItem, commonItem, get?_put, get?_set, q.code]
    · simp [satItem, commonItem, get?_put, get?_set, es]
    · simp [satItem, commonItem, get?_put, get?_set, q.note]
    · simp [satItem, commonItem, get?_put, get?_set, er]
    · simp [satItem, commonItem, get?_put, get?_set, q.id]

/-- the item read from a roving observer's line -/
def thirdItem (o : Optical) (r : Rover) (time : Str) (c : Char) : Item :=
  checked (roverItem (r.line o)) time (.int (10 ^ (6 - o.date.digits))) c ⟨o.desig.permText, o.desig.provText, trkRead o.desig⟩

theorem decode_rover {o : Optical} (h : o.Valid) (hstn : o.stn = c! "247") {r : Rover} (hs : r.Valid o) {time ra dec : Str} (hc : Converted o time ra dec) :
    ∃ c, decode80ColumnDataLine (r.line o) = .ok (thirdItem o r time c) := by
  have p := rover_parts h hs
  have q := head_parts (disc := r.disc) (note := r.note) (code := 'v') (rest := Rover.rest o r) h.desig h.date
  have hl := dataLine_length (disc := r.disc) (note := r.note) (code := 'v') h.desig h.date p.len
  have sl : ∀ i j, 32 ≤ i → slice (r.line o) i j = slice (Rover.rest o r) (i - 32) (j - 32) := fun i j hi => by rw [rover_line]; exact dataLine_slice h.desig h.date hi
  rw [← rover_line] at q hl
  have er : slice (r.line o) 71 77 = r.ref := by rw [sl 71 77 (by omega)]; exact p.ref
  have es : slice (r.line o) 77 80 = o.stn := by rw [sl 77 80 (by omega)]; exact p.stn
  have hcol : decodeColumns (r.line o) = .ok (roverItem (r.line o)) :=
    (decodeColumns_ok hl).2 (Or.inr (Or.inr (Or.inr (Or.inr ⟨rover_ok h hstn hs, rfl⟩))))
  have hhd : reMatch headerRegex (r.line o) = none := by
    have := rover_noBreak h hs (Or.inl rfl)
    rw [rover_line] at this ⊢
    exact not_header h.desig h.noExt.1 h.noExt.2 this
  match hr : r.ref, hs.ref.1 with
  | c :: cs, _ =>
    refine ⟨c, ?_⟩
    rw [decode_ok]
    refine Or.inr (Or.inr ⟨hl, hhd, _, hcol, ?_⟩)
    have hu := unpack_valid h.desig
    refine decodeChecks_ok.2 ⟨o.date.column, time, _, ['v'], o.stn, [r.note], c, cs, o.desig.columns, _, ?_, ?_, ?_, ?_, ?_, by decide, noteFor_noteOk hs.note, ?_, ?_, hu, rfl⟩
    · simp [roverItem, commonItem, get?_put, get?_set, q.date]
    · have : (Item.get? (roverItem (r.line o)) (c! "trx")).isSome = false := by
        simp [roverItem, commonItem, get?_put, get?_set, get?_nil]
      rw [this]; exact hc.time
    · simp [roverItem, commonItem, get?_put, get?_set, q.code]
    · simp [roverItem, commonItem, get?_put, get?_set, es]
    · simp [roverItem, commonItem, get?_put, get?_set, q.note]
    · simp [roverItem, commonItem, get?_put, get?_set, er, hr]
    · simp [roverItem, commonItem, get?_put, get?_set, q.id]

/-! ### two lines combined -/

theorem combine_place {code : Str} (hcode : code = c! "S" ∨ code = c! "V") {a b : Item} {id date stn sys ctr p1 p2 p3 : Val}
    (a1 : a.get? (c! "totalid") = some id) (a2 : a.get? (c! "date") = some date) (a3 : a.get? (c! "stn") = some stn)
    (b1 : b.get? (c! "totalid") = some id) (b2 : b.get? (c! "date") = some date) (b3 : b.get? (c! "stn") = some stn)
    (b4 : b.get? (c! "sys") = some sys) (b5 : b.get? (c! "ctr") = some ctr) (b6 : b.get? (c! "pos1") = some p1) (b7 : b.get? (c! "pos2") = some p2) (b8 : b.get? (c! "pos3") = some p3) :
    combine code a b = .ok (((((a.set (c! "sys") sys).set (c! "ctr") ctr).set (c! "pos1") p1).set (c! "pos2") p2).set (c! "pos3") p3) := by
  have hR : code ≠ c! "R" := by rcases hcode with rfl | rfl <;> decide
  simp [combine, Item.get, a1, a2, a3, b1, b2, b3, b4, b5, b6, b7, b8, bind, Except.bind, pure, Except.pure, hR, hcode]

def satPlace (s : Spacecraft) : Place := ⟨if s.au then c! "ICRF_AU" else c! "ICRF_KM", c! "399", s.x.text, s.y.text, s.z.text⟩
def roverPlace (r : Rover) : Place := ⟨c! "WGS84", c! "399", r.lon, r.lat, r.alt⟩

theorem get_ids {o : Optical} (h : o.Valid) {time ra dec : Str} : (lineItem o time ra dec).get? (c! "totalid") = some (.str o.desig.columns) ∧
    (lineItem o time ra dec).get? (c! "date") = some (.str o.date.column) ∧ (lineItem o time ra dec).get? (c! "stn") = some (.str o.stn) := by
  have p := parts h
  refine ⟨?_, ?_, ?_⟩ <;> simp [lineItem, checked, normalItem, normalColumns, commonItem, get?_put, get?_set, p.id, p.date, p.stn]

theorem combine_sat {o : Optical} (h : o.Valid) (hcode : o.code = 'S') {s : Spacecraft} (hs : s.Valid o) {time ra dec : Str} :
    combine [o.code] (lineItem o time ra dec) (secondItem o s time) = .ok (addPlace (lineItem o time ra dec) (some (satPlace s))) := by
  have p := sat_parts h hs
  have q := head_parts (disc := s.disc) (note := s.note) (code := 's') (rest := Spacecraft.rest o s) h.desig h.date
  have sl : ∀ i j, 32 ≤ i → slice (s.line o) i j = slice (Spacecraft.rest o s) (i - 32) (j - 32) := fun i j hi => by rw [sat_line]; exact dataLine_slice h.desig h.date hi
  rw [← sat_line] at q
  have e0 : slice (s.line o) 32 33 = [if s.au then '2' else '1'] := by rw [sl 32 33 (by omega)]; exact p.unit
  have es : slice (s.line o) 77 80 = o.stn := by rw [sl 77 80 (by omega)]; exact p.stn
  obtain ⟨g1, g2, g3⟩ := get_ids h (time := time) (ra := ra) (dec := dec)
  have hsys : (if slice (s.line o) 32 33 = c! "1" then c! "ICRF_KM" else c! "ICRF_AU") = if s.au then c! "ICRF_AU" else c! "ICRF_KM" := by
    rw [e0]; cases s.au <;> decide
  refine combine_place (by rw [hcode]; simp) g1 g2 g3 ?_ ?_ ?_ ?_ ?_ ?_ ?_ ?_
  all_goals unfold secondItem checked satItem
  all_goals simp [commonItem, get?_put, get?_set, q.id, q.date, es, satPlace]
  exact hsys

theorem combine_rover {o : Optical} (h : o.Valid) (hcode : o.code = 'V') {r : Rover} (hs : r.Valid o) {time ra dec : Str} {c : Char} :
    combine [o.code] (lineItem o time ra dec) (thirdItem o r time c) = .ok (addPlace (lineItem o time ra dec) (some (roverPlace r))) := by
  have p := rover_parts h hs
  have q := head_parts (disc := r.disc) (note := r.note) (code := 'v') (rest := Rover.rest o r) h.desig h.date
  have sl : ∀ i j, 32 ≤ i → slice (r.line o) i j = slice (Rover.rest o r) (i - 32) (j - 32) := fun i j hi => by rw [rover_line]; exact dataLine_slice h.desig h.date hi
  rw [← rover_line] at q
  have es : slice (r.line o) 77 80 = o.stn := by rw [sl 77 80 (by omega)]; exact p.stn
  have e1 : slice (r.line o) 34 44 = r.lon := by rw [sl 34 44 (by omega)]; exact p.lon
  have e2 : slice (r.line o) 45 55 = r.lat := by rw [sl 45 55 (by omega)]; exact p.lat
  have e3 : slice (r.line o) 56 61 = r.alt := by rw [sl 56 61 (by omega)]; exact p.alt
  obtain ⟨g1, g2, g3⟩ := get_ids h (time := time) (ra := ra) (dec := dec)
  refine combine_place (by rw [hcode]; simp) g1 g2 g3 ?_ ?_ ?_ ?_ ?_ ?_ ?_ ?_
  all_goals unfold thirdItem checked roverItem
  all_goals simp [commonItem, get?_put, get?_set, q.id, q.date, es, e1, e2, e3, roverPlace]

theorem coord_text_strip (c : Coord) (h : 1 ≤ c.digits ∧ c.frac < 10 ^ c.digits) : strip c.text = c.text ∧ c.text ≠ [] := by
  refine ⟨?_, by simp [Coord.text]⟩
  refine strip_of_none ?_
  simp only [Coord.text, List.mem_append, List.mem_cons, List.not_mem_nil, or_false]
  rintro x (rfl | (hx | rfl) | hx)
  · unfold Coord.sign; split <;> rfl
  · exact dec_nospace _ x hx
  · rfl
  · exact fixed_nospace _ _ x hx

theorem sat_vals {o : Optical} {s : Spacecraft} (hs : s.Valid o) : placeVals (some (satPlace s)) = s.values := by
  obtain ⟨x1, x2⟩ := coord_text_strip s.x ⟨hs.x.2.1, hs.x.2.2.2⟩
  obtain ⟨y1, y2⟩ := coord_text_strip s.y ⟨hs.y.2.1, hs.y.2.2.2⟩
  obtain ⟨z1, z2⟩ := coord_text_strip s.z ⟨hs.z.2.1, hs.z.2.2.2⟩
  have e1 : val (c! "sys") (strip (if s.au then c! "ICRF_AU" else c! "ICRF_KM")) = [(c! "sys", if s.au then c! "ICRF_AU" else c! "ICRF_KM")] := by cases s.au <;> rfl
  have e2 : val (c! "ctr") (strip (c! "399")) = [(c! "ctr", c! "399")] := rfl
  simp only [placeVals, satPlace, x1, y1, z1, val_cons x2, val_cons y2, val_cons z2, e1, e2]
  rfl

theorem number_plain {t : Str} (h : ∀ c ∈ t, c ∈ numberChars) : Plain t := by
  intro c hc
  have : ∀ c ∈ numberChars, isSpace c = true → c = ' ' := by decide
  exact this c (h c hc)

theorem rover_vals {o : Optical} {r : Rover} (hs : r.Valid o) : placeVals (some (roverPlace r)) = r.values := by
  have e1 : val (c! "sys") (strip (c! "WGS84")) = [(c! "sys", c! "WGS84")] := rfl
  have e2 : val (c! "ctr") (strip (c! "399")) = [(c! "ctr", c! "399")] := rfl
  simp only [placeVals, roverPlace, strip_trim (number_plain hs.lon.2), strip_trim (number_plain hs.lat.2), strip_trim (number_plain hs.alt.2.1), e1, e2]
  rfl

end Verif.Mpc80
