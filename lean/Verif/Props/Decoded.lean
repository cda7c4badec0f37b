import Verif.Spec.Decoded
import Verif.Props.Positions
import Verif.Props.Unpacking
import Verif.Props.Mpc80Columns
import Verif.Lemmas.Mpc80Optical
import Verif.Lemmas.DateError
/-!
  C61: exactly which lines are taken as optical observations.
-/
namespace Verif
open Verif.Mpc80 Verif.PackUtil Verif.Spec Verif.Spec.Mpc80 Verif.Spec.Unpacking Verif.Spec.Decoded Verif.Unpacking

namespace Decoded

theorem char_at {line : Str} (h : line.length = 80) {n : Nat} (hn : n < 80) : ∃ c, line[n]? = some c ∧ slice line n (n + 1) = [c] := by
  refine ⟨line[n], by simp [h, hn], one_col (by simp [h, hn])⟩

theorem note_iff {stn : Str} {c : Char} : noteOk stn [c] ↔ NoteColumn stn c := by
  have h1 : ∀ c ∈ noteLetters, c ∈ validNotes := by decide +kernel
  have h2 : ∀ c ∈ programLetters, c ∈ validProgramCodes := by decide +kernel
  have h3 : ∀ c ∈ noteLetters, c ∈ validProgramCodes := by decide +kernel
  have h4 : ∀ c ∈ validNotes, c ∈ noteLetters := by decide +kernel
  have h5 : ∀ c ∈ validProgramCodes, c = ' ' ∨ c ∈ programLetters := by decide +kernel
  have h6 : ' ' ∈ validProgramCodes := by decide
  unfold noteOk NoteColumn
  simp only [inStr_one]
  split
  · rename_i hs
    constructor
    · rintro ⟨-, h⟩; exact h5 _ h
    · rintro (rfl | h)
      · exact ⟨.inl hs, h6⟩
      · exact ⟨.inl hs, h2 _ h⟩
  · rename_i hs
    constructor
    · rintro ⟨h | h, -⟩
      · exact absurd h hs
      · exact h4 _ h
    · intro h; exact ⟨.inr (h1 _ h), h3 _ h⟩

theorem any_slice {line : Str} (hn : '\n' ∉ line) {a b : Nat} : ∀ c ∈ slice line a b, anyCh c = true := by
  intro c hc
  apply any_ne
  rintro rfl
  exact hn (List.mem_of_mem_drop (List.mem_of_mem_take (by simpa [slice, List.drop_take] using hc)))

theorem not_header {line : Str} (hn : '\n' ∉ line) (hh : ¬ (cols line 1 3 ∈ headerKeys ∧ cols line 4 4 = c! " ")) : reMatch headerRegex line = none := by
  have e := header_match (w := line) (t := []) hn (Or.inl rfl)
  rw [List.append_nil] at e
  rw [e, if_neg]
  rintro ⟨h1, h2⟩
  refine hh ⟨by simpa [cols] using h1, ?_⟩
  rw [cols_slice _ (by omega)]
  exact one_col h2

theorem blank_value (k : Nat) : decode80ColumnDataLine (List.replicate k ' ') ≠ .error .valueError := by
  by_cases h0 : k = 0
  · subst h0; exact nofun
  by_cases h80 : k = 80
  · subst h80; decide +kernel
  · unfold decode80ColumnDataLine
    rw [if_neg (by simp [h0])]
    split
    · exact nofun
    · split
      · exact nofun
      · rw [if_pos (by simpa using h80)]; exact nofun

/-- the format of an optical line -/
theorem layout {line : Str} (hn : '\n' ∉ line) (hf : ∀ c ∈ (slice line 0 12).take 1, LetterOrDigit c ∨ c = ' ' ∨ c = '~') (hrest : ∀ c ∈ (slice line 0 12).drop 1, LetterOrDigit c ∨ c = ' ')
    {c12 c14 : Char} (hd : slice line 12 13 = [c12]) (hd' : c12 ∈ [' ', '*', '+']) (hc14 : slice line 14 15 = [c14]) (hco : c14 ∈ opticalCodes) {date : Str} (hde : slice line 15 32 = date)
    (d1 : ∀ c ∈ slice date 0 4, isDec c = true) (d2 : slice date 4 5 = [' ']) (d3 : ∀ c ∈ slice date 5 17, numCh c = true) {r r' : Sexagesimal} (hre : slice line 32 44 = Spec.column 12 r.text)
    {south : Bool} (hre' : slice line 44 56 = Spec.column 12 ((if south then '-' else '+') :: r'.text)) : normalL.ok line := by
  refine (common_ok _ _ _).2 ⟨?_, ?_, ?_, any_slice hn, ?_, ?_, ?_, ?_, ?_⟩
  · intro z hz
    simp only [Bool.or_eq_true, alnum_b62]
    rcases hf z (by simpa [slice, List.take_take] using hz) with h | rfl | rfl
    · exact .inl (.inr h)
    · exact .inl (.inl (by decide))
    · exact .inr (by decide)
  · intro z hz
    simp only [Bool.or_eq_true, alnum_b62]
    rcases hrest z (by simpa [slice, List.drop_take] using hz) with h | rfl
    · exact .inl h
    · exact .inr (by decide)
  · intro z hz
    rw [hd] at hz
    simp only [List.mem_singleton] at hz
    exact (oneOf_iff _ _).2 (hz ▸ hd')
  · intro z hz
    rw [hc14] at hz
    simp only [List.mem_singleton] at hz
    exact (oneOf_iff _ _).2 (hz ▸ hco)
  · intro z hz
    have : slice line 15 19 = slice date 0 4 := by rw [← hde, slice_of_slice _ (by omega)]
    rw [this] at hz; exact d1 z hz
  · intro z hz
    have : slice line 19 20 = slice date 4 5 := by rw [← hde, slice_of_slice _ (by omega)]
    rw [this, d2] at hz
    simp at hz; subst hz; decide
  · intro z hz
    have : slice line 20 32 = slice date 5 17 := by rw [← hde, slice_of_slice _ (by omega)]
    rw [this] at hz; exact d3 z hz
  · simp only [Layout.ok, Field.width, subsWidth, Sub.width, subsOk, Sub.ok, Nat.add_zero, and_true, List.drop_drop, List.take_take, List.drop_take]
    simp only [Nat.reduceAdd, Nat.reduceSub, Nat.min_self]
    refine ⟨?_, ⟨?_, ?_⟩, ?_, ?_, ?_, ?_, ?_⟩
    · intro z hz
      change z ∈ slice line 32 44 at hz
      rw [hre] at hz
      exact column_chars (sex_text_chars _) z hz
    · intro z hz
      have e : slice line 44 45 = [if south then '-' else '+'] := by
        have : slice line 44 45 = (slice line 44 56).take 1 := by simp [slice, List.take_take]
        rw [this, hre', Sex.column_sign]; rfl
      have hz' : z ∈ slice line 44 45 := by simpa [slice] using hz
      rw [e] at hz'
      simp at hz'; subst hz'
      cases south <;> decide
    · intro z hz
      have e : slice line 45 56 = Spec.column 11 r'.text := by
        have : slice line 45 56 = (slice line 44 56).drop 1 := by simp [slice, List.drop_take]
        rw [this, hre', Sex.column_sign]; rfl
      have hz' : z ∈ slice line 45 56 := by simpa [slice] using hz
      rw [e] at hz'
      exact column_chars (sex_text_chars _) z hz'
    · intro z hz; change z ∈ slice line 56 65 at hz; exact any_slice hn z hz
    · intro z hz; change z ∈ slice line 65 70 at hz; exact any_slice hn z hz
    · intro z hz; change z ∈ slice line 70 71 at hz; exact any_slice hn z hz
    · intro z hz; change z ∈ slice line 71 77 at hz; exact any_slice hn z hz
    · intro z hz; change z ∈ slice line 77 80 at hz; exact any_slice hn z hz

end Decoded
open Decoded

/-- **C61.** A line that is no header is taken as an optical observation exactly if its columns are those of one. -/
theorem C61_optical {line : Str} (hn : '\n' ∉ line) (hh : ¬ (cols line 1 3 ∈ headerKeys ∧ cols line 4 4 = c! " ")) {c : Char} (hc : cols line 15 15 = [c]) (ho : c ∈ opticalCodes) :
    (∃ item, decode80ColumnDataLine line = .ok item) ↔ OpticalColumns line := by
  have hne : line ≠ [] := by rintro rfl; simp [cols] at hc
  constructor
  · rintro ⟨item, h⟩
    have hw : line.length = 80 := by
      rcases C27_width hn h with h | h | h
      · exact absurd h hne
      · exact h
      · exact absurd ⟨h.1, h.2.1⟩ hh
    have hk : item.get? (c! "headerKeyword") = none := by
      cases hk : item.get? (c! "headerKeyword") with
      | none => rfl
      | some v => exact absurd (C27_header_only hn h (by rw [hk]; simp)) hh
    obtain ⟨_, hm, ret, hr, hcheck⟩ := decode_data h hne hk
    obtain ⟨d, t, p, code, stn, notes, c', cs, id, ids, h1, h2, h3, h4, h5, g1, g2, h6, h8, h9, rfl⟩ := decodeChecks_ok.1 hcheck
    obtain ⟨x, hx, hx'⟩ := char_at hw (n := 14) (by omega)
    have h15 : cols line 15 15 = [x] := by rw [cols_slice _ (by omega)]; exact hx'
    obtain rfl : c = x := by rw [h15] at hc; simpa using hc.symm
    have hopt : normalL.ok line ∧ decodeNormal (normalL.caps line) = .ok ret := by
      rcases (decodeColumns_ok hw).1 hr with h | ⟨ho', hr⟩ | ⟨ho', rfl⟩ | ⟨ho', hr⟩ | ⟨ho', rfl⟩
      · exact h
      · rw [radar1_code ho' hx] at ho; exact absurd ho (by decide)
      · rw [radar2_code ho' hx] at ho; exact absurd ho (by decide)
      · rw [sat_code ho' hx] at ho; exact absurd ho (by decide)
      · rw [rover_code ho' hx] at ho; exact absurd ho (by decide)
    obtain ⟨hok, hdec⟩ := hopt
    obtain ⟨t', p', ra, pra, dec, pdec, k1, k2, k3, rfl⟩ := decodeNormal_ok.1 hdec
    obtain ⟨o1, o2, o3, o4, -⟩ := (common_ok _ _ _).1 hok
    obtain ⟨x12, hx12, hx12'⟩ := char_at hw (n := 12) (by omega)
    obtain ⟨x13, hx13, hx13'⟩ := char_at hw (n := 13) (by omega)
    simp [normalItem, normalColumns, commonItem, get?_put, get?_set] at h4 h5 h8
    subst h4 h5 h8
    refine ⟨hw, ⟨?_, ?_, ?_⟩, ⟨x12, ?_, ?_⟩, ⟨x13, ?_, ?_⟩, ⟨c, hc, ho⟩, ?_, ?_, ?_⟩
    · obtain ⟨p, q, t⟩ := ids
      exact ⟨p, q, t, C54_unpacks.1 h9⟩
    · intro z hz
      have := o1 z (by simpa [cols, slice, List.take_take] using hz)
      simp only [Bool.or_eq_true, alnum_b62] at this
      rcases this with (h | h) | h
      · exact .inr (.inl ((ch_iff _ _).1 h))
      · exact .inl h
      · exact .inr (.inr ((ch_iff _ _).1 h))
    · intro z hz
      have := o2 z (by simpa [cols, slice, List.drop_take] using hz)
      simp only [Bool.or_eq_true, alnum_b62] at this
      rcases this with h | h
      · exact .inl h
      · exact .inr ((ch_iff _ _).1 h)
    · rw [cols_slice _ (by omega)]; exact hx12'
    · exact (oneOf_iff _ _).1 (o3 x12 (by rw [hx12']; simp))
    · rw [cols_slice _ (by omega)]; exact hx13'
    · rw [hx13'] at g2
      rw [cols_slice _ (by omega)]
      exact note_iff.1 g2
    · rw [cols_slice _ (by omega)]
      exact (C60_date _).1 ⟨_, k1⟩
    · rw [cols_slice _ (by omega)]
      exact (C60_ra _ (by simp [slice]; omega)).1 ⟨_, k2⟩
    · rw [cols_slice _ (by omega)]
      exact (C60_dec _ (by simp [slice]; omega)).1 ⟨_, k3⟩
  · rintro ⟨hw, ⟨⟨p, q, t, hu⟩, hf, hrest⟩, ⟨c12, hd, hd'⟩, ⟨c13, hnt, hnt'⟩, ⟨c14, hc14, hco⟩, hdate, hra, hdec⟩
    rw [cols_slice _ (by omega)] at hd hnt hc14 hu hf hrest
    rw [cols_slice _ (by omega)] at hnt'
    obtain ⟨dd, hdv, hde, hdl⟩ := hdate
    obtain ⟨r, hrv, hre⟩ := hra
    obtain ⟨south, r', hrv', hre'⟩ := hdec
    rw [cols_slice _ (by omega)] at hde hre hre'
    obtain ⟨⟨time, pt⟩, hT⟩ := (C60_date (slice line 15 32)).2 ⟨dd, hdv, hde, hdl⟩
    obtain ⟨⟨ra, pra⟩, hR⟩ := (C60_ra (slice line 32 44) (by simp [slice]; omega)).2 ⟨r, hrv, hre⟩
    obtain ⟨⟨dec, pdec⟩, hD⟩ := (C60_dec (slice line 44 56) (by simp [slice]; omega)).2 ⟨south, r', hrv', hre'⟩
    obtain ⟨d1, d2, d3⟩ := date_chars hdv
    have hl : normalL.ok line := layout hn hf hrest hd hd' hc14 hco hde d1 d2 d3 hre hre'
    have hm : reMatch headerRegex line = none := by
      have e := header_match (w := line) (t := []) hn (Or.inl rfl)
      rw [List.append_nil] at e
      rw [e, if_neg]
      rintro ⟨h1, h2⟩
      refine hh ⟨by simpa [cols] using h1, ?_⟩
      rw [cols_slice _ (by omega)]
      exact one_col h2
    have hcols := (decodeColumns_ok hw).2 (.inl ⟨hl, decodeNormal_ok.2 ⟨time, pt, ra, pra, dec, pdec, hT, hR, hD, rfl⟩⟩)
    obtain ⟨c71, hc71, -⟩ := char_at hw (n := 71) (by omega)
    have h71 : slice line 71 77 = c71 :: slice line 72 77 := by
      rw [← slice_append line (a := 71) (b := 72) (c := 77) (by omega) (by omega), one_col hc71]; rfl
    have hall : ∀ c ∈ opticalCodes, c ∈ validCodes := by decide
    refine ⟨_, decode_ok.2 (.inr (.inr ⟨hw, hm, _, hcols, decodeChecks_ok.2 ⟨slice line 15 32, time, pt, slice line 14 15, slice line 77 80, slice line 13 14, c71, slice line 72 77, slice line 0 12, ⟨p, q, t⟩,
      ?_, ?_, ?_, ?_, ?_, ?_, ?_, ?_, ?_, C54_unpacks.2 hu, rfl⟩⟩))⟩
    · simp [normalItem, normalColumns, commonItem, get?_put, get?_set]
    · simpa [normalItem, normalColumns, commonItem, get?_put, get?_set, get?_nil] using hT
    · simp [normalItem, normalColumns, commonItem, get?_put, get?_set]
    · simp [normalItem, normalColumns, commonItem, get?_put, get?_set]
    · simp [normalItem, normalColumns, commonItem, get?_put, get?_set]
    · rw [hc14]; exact (inStr_one _ _).2 (hall _ hco)
    · rw [hnt]; exact note_iff.2 hnt'
    · rw [← h71]; simp [normalItem, normalColumns, commonItem, get?_put, get?_set]
    · simp [normalItem, normalColumns, commonItem, get?_put, get?_set]

namespace Decoded

theorem checkRa_error {t : Str} (hl : t.length = 12) {e : PyErr} (h : Sex.checkRa t = .error e) : e = .runtimeError := by
  rcases Sex.ra_any t hl with h' | ⟨r, hr, rfl⟩
  · rw [h'] at h; injection h with h; exact h.symm
  · obtain ⟨_, h', -⟩ := C30_accepted r hr
    rw [h'] at h; cases h

theorem checkDec_error {t : Str} (hl : t.length = 12) {e : PyErr} (h : Sex.checkDec t = .error e) : e = .runtimeError := by
  rcases Sex.dec_any t hl with h' | ⟨neg, r, hr, rfl⟩
  · rw [h'] at h; injection h with h; exact h.symm
  · obtain ⟨_, h', -⟩ := C31_accepted neg r hr
    have h'' : Sex.checkDec (column 12 (Sex.signOf neg :: r.text)) = _ := h'
    rw [h''] at h; cases h

theorem normal_error {s : Str} {e : PyErr} (h : decodeNormal (normalL.caps s) = .error e) :
    Sex.checkDate (slice s 15 32) false = .error e ∨ Sex.checkRa (slice s 32 44) = .error e ∨ Sex.checkDec (slice s 44 56) = .error e := by
  cases hT : Sex.checkDate (slice s 15 32) false with
  | error e' =>
    left
    unfold decodeNormal at h
    rw [putCommon_eq (s := s) (by rw [normal_caps]; exact ⟨_, rfl⟩)] at h
    simp [putDate, Item.str, get?_put, commonItem, hT, bind, Except.bind] at h
    rw [h]
  | ok x =>
    obtain ⟨t, p⟩ := x
    right
    cases hR : Sex.checkRa (slice s 32 44) with
    | error e' =>
      left
      unfold decodeNormal at h
      have e8 : g (normalL.caps s) 8 = slice s 32 44 := by rw [normal_caps]; rfl
      rw [putCommon_eq (s := s) (by rw [normal_caps]; exact ⟨_, rfl⟩), e8] at h
      simp [putDate, Item.str, get?_put, commonItem, hT, hR, bind, Except.bind, pure, Except.pure] at h
      rw [h]
    | ok y =>
      obtain ⟨ra, pra⟩ := y
      right
      cases hD : Sex.checkDec (slice s 44 56) with
      | error e' =>
        unfold decodeNormal at h
        have e8 : g (normalL.caps s) 8 = slice s 32 44 := by rw [normal_caps]; rfl
        have e9 : g (normalL.caps s) 9 = slice s 44 56 := by rw [normal_caps]; rfl
        rw [putCommon_eq (s := s) (by rw [normal_caps]; exact ⟨_, rfl⟩), e8, e9] at h
        simp [putDate, Item.str, get?_put, commonItem, hT, hR, hD, bind, Except.bind, pure, Except.pure] at h
        rw [h]
      | ok z =>
        obtain ⟨dec, pdec⟩ := z
        rw [decodeNormal_ok.2 ⟨t, p, ra, pra, dec, pdec, hT, hR, hD, rfl⟩] at h
        cases h

theorem checks_error {ret : Mpc80.Item} {date t code stn notes id cs : Str} {c : Char} {p : Sex.Num} (h1 : ret.get? (c! "date") = some (.str date))
    (h2 : Sex.checkDate date (ret.get? (c! "trx")).isSome = .ok (t, p)) (h3 : ret.get? (c! "code") = some (.str code)) (h4 : ret.get? (c! "stn") = some (.str stn))
    (h5 : ret.get? (c! "notes") = some (.str notes)) (h6 : ret.get? (c! "packedref") = some (.str (c :: cs))) (h8 : ret.get? (c! "totalid") = some (.str id)) {e : PyErr}
    (h : decodeChecks ret = .error e) : e = .runtimeError := by
  have hd : putDate ret (ret.get? (c! "trx")).isSome = .ok ((ret.put (c! "obsTime") t).set (c! "precTime") (.num p)) := putDate_ok.2 ⟨date, t, p, h1, h2, rfl⟩
  have s3 : ((ret.put (c! "obsTime") t).set (c! "precTime") (.num p)).str (c! "code") = .ok code := by rw [str_ok, get?_set, if_neg (by decide), get?_put, if_neg (by decide), h3]
  have s4 : ((ret.put (c! "obsTime") t).set (c! "precTime") (.num p)).str (c! "stn") = .ok stn := by rw [str_ok, get?_set, if_neg (by decide), get?_put, if_neg (by decide), h4]
  have s5 : ((ret.put (c! "obsTime") t).set (c! "precTime") (.num p)).str (c! "notes") = .ok notes := by rw [str_ok, get?_set, if_neg (by decide), get?_put, if_neg (by decide), h5]
  have s6 : ((ret.put (c! "obsTime") t).set (c! "precTime") (.num p)).str (c! "packedref") = .ok (c :: cs) := by rw [str_ok, get?_set, if_neg (by decide), get?_put, if_neg (by decide), h6]
  have s8 : ∀ a, (((ret.put (c! "obsTime") t).set (c! "precTime") (.num p)).put (c! "astCat") a).str (c! "totalid") = .ok id := by
    intro a; rw [str_ok, get?_put, if_neg (by decide), get?_set, if_neg (by decide), get?_put, if_neg (by decide), h8]
  unfold decodeChecks at h
  simp only [hd, s3, s4, s5, s6, s8, bind, Except.bind, charAt, List.getElem?_cons_zero] at h
  have rt : ∀ {α : Type}, (raiseRT : Py α) = .error e → e = .runtimeError := fun h => by injection h with h; exact h.symm
  split at h
  · exact rt h
  split at h
  · exact rt h
  split at h
  · exact rt h
  split at h
  · exact rt h
  cases hu : unpackPackedID id with
  | error e' =>
    rw [hu] at h
    injection h with h
    rw [← h]
    exact C10_unpack_only_RuntimeError _ _ hu
  | ok ids => rw [hu] at h; cases h

end Decoded

/-- **C61.** Every other such line raises RuntimeError, which `parseFile` turns into a message - or ValueError, and then its date is one that does not exist. -/
theorem C61_refused {line : Str} (hn : '\n' ∉ line) (hh : ¬ (cols line 1 3 ∈ headerKeys ∧ cols line 4 4 = c! " ")) {c : Char} (hc : cols line 15 15 = [c]) (ho : c ∈ opticalCodes)
    (hx : ¬ OpticalColumns line) : ∃ e, decode80ColumnDataLine line = .error e ∧ (e = .runtimeError ∨ (e = .valueError ∧ NoSuchDay (cols line 16 32))) := by
  cases hd : decode80ColumnDataLine line with
  | ok item => exact absurd ((C61_optical hn hh hc ho).1 ⟨item, hd⟩) hx
  | error e =>
    refine ⟨e, rfl, ?_⟩
    have rt : ∀ {α : Type}, (raiseRT : Py α) = .error e → e = .runtimeError := fun h => by injection h with h; exact h.symm
    have hm : reMatch headerRegex line = none := by
      have e := header_match (w := line) (t := []) hn (Or.inl rfl)
      rw [List.append_nil] at e
      rw [e, if_neg]
      rintro ⟨h1, h2⟩
      refine hh ⟨by simpa [cols] using h1, ?_⟩
      rw [cols_slice _ (by omega)]
      exact one_col h2
    unfold decode80ColumnDataLine at hd
    rw [hm] at hd
    split at hd
    · cases hd
    split at hd
    · exact .inl (rt hd)
    simp only at hd
    split at hd
    · exact .inl (rt hd)
    rename_i hw
    simp only [ne_eq, not_not] at hw
    obtain ⟨x, hx, hx'⟩ := char_at hw (n := 14) (by omega)
    obtain rfl : c = x := by rw [cols_slice _ (by omega), hx'] at hc; simpa using hc.symm
    have no : ∀ c', c = c' → c' ∉ opticalCodes → False := fun c' h h' => h' (h ▸ ho)
    rw [decodeColumns_eq hw] at hd
    by_cases hl : normalL.ok line
    · rw [if_pos hl] at hd
      cases hN : decodeNormal (normalL.caps line) with
      | error e' =>
        rw [hN] at hd
        injection hd with hd
        subst hd
        rcases normal_error hN with h | h | h
        · rcases Sex.date_error (by simp [slice]) h with h | h
          · exact .inl h
          · rw [cols_slice _ (by omega)]; exact .inr h
        · exact .inl (checkRa_error (by simp [slice]; omega) h)
        · exact .inl (checkDec_error (by simp [slice]; omega) h)
      | ok ret =>
        rw [hN] at hd
        left
        obtain ⟨t, p, ra, pra, dec, pdec, hT, -, -, rfl⟩ := decodeNormal_ok.1 hN
        obtain ⟨c71, hc71, -⟩ := char_at hw (n := 71) (by omega)
        have h71 : slice line 71 77 = c71 :: slice line 72 77 := by
          rw [← slice_append line (a := 71) (b := 72) (c := 77) (by omega) (by omega), one_col hc71]; rfl
        refine checks_error (date := slice line 15 32) (t := t) (p := p) (code := slice line 14 15) (stn := slice line 77 80) (notes := slice line 13 14) (c := c71) (cs := slice line 72 77)
          (id := slice line 0 12) ?_ ?_ ?_ ?_ ?_ ?_ ?_ hd
        · simp [normalItem, normalColumns, commonItem, get?_put, get?_set]
        · simpa [normalItem, normalColumns, commonItem, get?_put, get?_set, get?_nil] using hT
        · simp [normalItem, normalColumns, commonItem, get?_put, get?_set]
        · simp [normalItem, normalColumns, commonItem, get?_put, get?_set]
        · simp [normalItem, normalColumns, commonItem, get?_put, get?_set]
        · rw [← h71]; simp [normalItem, normalColumns, commonItem, get?_put, get?_set]
        · simp [normalItem, normalColumns, commonItem, get?_put, get?_set]
    · rw [if_neg hl, if_neg (fun h => no _ (by simpa using radar1_code h hx) (by decide)), if_neg (fun h => no _ (by simpa using radar2_code h hx) (by decide)),
        if_neg (fun h => no _ (by simpa using sat_code h hx) (by decide)), if_neg (fun h => no _ (by simpa using rover_code h hx) (by decide))] at hd
      exact .inl (rt hd)
namespace Decoded

/-- the characters of a date whose day may not exist -/
theorem date_chars' {d : ObsDate} (h : ({ d with day := 1 } : ObsDate).Valid) (h31 : d.day ≤ 31) : (∀ c ∈ slice d.column 0 4, isDec c = true) ∧ slice d.column 4 5 = [' '] ∧ ∀ c ∈ slice d.column 5 17, numCh c = true := by
  have o := Sex.Ok.of h
  obtain ⟨y, m, dd, n, f⟩ := d
  have h1 := o.hf
  have hm := o.hm'
  have hn := o.hn
  have hn' := o.hn'
  have hy := o.hy
  have hy' := o.hy'
  simp only at h1 h31 hm hn hn' hy hy'
  rw [Sex.date_text (by omega) hy' (by omega) (by omega) hn hn' h1]
  have hl : (Spec.dec y).length = 4 := by rw [Sex.year_text (by omega) hy']; rfl
  refine ⟨?_, ?_, ?_⟩
  · intro c hc
    have : slice (Spec.dec y ++ [' '] ++ Spec.fixed 2 m ++ [' '] ++ Spec.fixed 2 dd ++ ['.'] ++ Spec.fixed n f ++ List.replicate (6 - n) ' ') 0 4 = Spec.dec y := by
      simp only [List.append_assoc]
      exact slice_part (pre := []) rfl (by omega)
    rw [this, dec_eq] at hc
    exact natStr_isDec y c hc
  · simp only [List.append_assoc]
    exact slice_part hl rfl
  · intro c hc
    have e : slice (Spec.dec y ++ [' '] ++ Spec.fixed 2 m ++ [' '] ++ Spec.fixed 2 dd ++ ['.'] ++ Spec.fixed n f ++ List.replicate (6 - n) ' ') 5 17 =
        (Spec.fixed 2 m ++ ([' '] ++ (Spec.fixed 2 dd ++ (['.'] ++ (Spec.fixed n f ++ List.replicate (6 - n) ' '))))) := by
      simp only [List.append_assoc]
      rw [← List.append_assoc (Spec.dec y)]
      have := slice_part (pre := Spec.dec y ++ [' ']) (mid := Spec.fixed 2 m ++ ([' '] ++ (Spec.fixed 2 dd ++ (['.'] ++ (Spec.fixed n f ++ List.replicate (6 - n) ' ')))))
        (post := []) (i := 5) (j := 17) (by simp [hl]) (by simp [fixed2 (show m < 100 by omega), fixed2 (show dd < 100 by omega), fixed_length hn h1]; omega)
      simpa using this
    rw [e] at hc
    have fx := fun k n c (h : c ∈ fixed k n) => numCh_digit (fixed_mem k n c h)
    simp only [List.mem_append, List.mem_singleton, List.mem_replicate] at hc
    rcases hc with hc | rfl | hc | rfl | hc | ⟨_, rfl⟩
    · exact fx _ _ _ hc
    · decide
    · exact fx _ _ _ hc
    · decide
    · exact fx _ _ _ hc
    · decide


theorem loop_stops {σ : Type} {cb : Callback σ} {ge : Option PyErr} {x : Nat × Str} {rest : List (Nat × Str)} {e : PyErr} (he : ∀ st, (parseLine cb st x.1 x.2).2 = some e) :
    ∀ (before : List (Nat × Str)) (st : PState σ), (parseLoop cb none st before).2 = none → (parseLoop cb ge st (before ++ x :: rest)).2 = some e
  | [], st, _ => by
    have := he st
    rw [List.nil_append, parseLoop]
    split
    · rename_i h; rw [h] at this; cases this
    · rename_i h; rw [h] at this; exact this
  | (n, l) :: before, st, h => by
    rw [List.cons_append, parseLoop]
    rw [parseLoop] at h
    split
    · rename_i st' h'
      rw [h'] at h
      exact loop_stops he before st' h
    · rename_i st' e' h'
      rw [h'] at h
      cases h

end Decoded

/-- **C61.** A line that is right but for a day that the month does not have raises ValueError: it is not reported like other wrong lines. -/
theorem C61_no_such_day {line : Str} (hn : '\n' ∉ line) (hh : ¬ (cols line 1 3 ∈ headerKeys ∧ cols line 4 4 = c! " ")) (hw : line.length = 80) (hd : DesignationColumns (cols line 1 12))
    (hx : ∃ c, cols line 13 13 = [c] ∧ c ∈ [' ', '*', '+']) (hc : ∃ c, cols line 15 15 = [c] ∧ c ∈ opticalCodes) (hr : ∃ r : Sexagesimal, r.Valid 3 ∧ cols line 33 44 = Spec.column 12 r.text)
    (hdec : ∃ (south : Bool) (r : Sexagesimal), r.Valid 2 ∧ cols line 45 56 = Spec.column 12 ((if south then '-' else '+') :: r.text))
    {d : ObsDate} (hdate : cols line 16 32 = d.column) (h1 : ({ d with day := 1 } : ObsDate).Valid) (h2 : monthDays d.year d.month < d.day) (h3 : d.day ≤ 31) :
    decode80ColumnDataLine line = .error .valueError := by
  obtain ⟨c12, hx, hx'⟩ := hx
  obtain ⟨c14, hc, hc'⟩ := hc
  obtain ⟨r, -, hre⟩ := hr
  obtain ⟨south, r', -, hre'⟩ := hdec
  obtain ⟨-, hf, hrest⟩ := hd
  rw [cols_slice _ (by omega)] at hx hc hre hre' hf hrest hdate
  obtain ⟨d1, d2, d3⟩ := date_chars' h1 h3
  have hl := layout hn hf hrest hx hx' hc hc' hdate d1 d2 d3 hre hre'
  have hm := not_header hn hh
  have hT := C32_no_such_day d h2 h3 h1 false
  rw [← hdate] at hT
  have hne : line ≠ [] := by rintro rfl; simp at hw
  have hN : decodeNormal (normalL.caps line) = .error .valueError := by
    unfold decodeNormal
    rw [putCommon_eq (s := line) (by rw [normal_caps]; exact ⟨_, rfl⟩)]
    simp [putDate, Item.str, get?_put, commonItem, hT, bind, Except.bind]
  unfold decode80ColumnDataLine
  rw [if_neg hne, if_neg (by omega), hm]
  simp only
  rw [if_neg (by omega), decodeColumns_eq hw, if_pos hl, hN]
  rfl

/-- **C61.** and the run ends there, whatever the callback does and whatever follows. -/
theorem C61_stops {line : Str} (hn : '\n' ∉ line) (he : decode80ColumnDataLine line = .error .valueError) {σ : Type} (cb : Callback σ) (u : σ) {n : Nat} {before rest : List (Nat × Str)} {ge : Option PyErr}
    (hb : (parseFile cb u (before, none)).2 = none) : (parseFile cb u (before ++ (n, line ++ ['\n']) :: rest, ge)).2 = some .valueError := by
  refine loop_stops (x := (n, line ++ ['\n'])) (fun st => ?_) before _ hb
  have hblank : (reMatch blankRegex (line ++ ['\n']).dropLast).isSome = false := by
    rw [List.dropLast_concat, Bool.eq_false_iff]
    intro h
    obtain ⟨k, e | e⟩ := blank_match.1 h
    · have : ∀ k, decode80ColumnDataLine (List.replicate k ' ') ≠ .error .valueError := blank_value
      exact this k (e ▸ he)
    · rw [e] at hn; simp at hn
  unfold parseLine
  rw [hblank, List.dropLast_concat, he]
  simp

namespace SampleDecoded
def good : Str := c! "     K16Q01A* C2016 08 29.50000 10 59 59.99 -10 59 59.9          20.5 GV     J38"
def noday : Str := c! "     K16Q01A* C2016 02 30.50000 10 59 59.99 -10 59 59.9          20.5 GV     J38"
theorem decodes : (decode80ColumnDataLine good).toOption.isSome = true ∧ decode80ColumnDataLine noday = .error .valueError ∧
    decode80ColumnDataLine (c! "     K16Q01A* C2016 08 29.50000 10 59 60.00 -10 59 59.9          20.5 GV     J38") = .error .runtimeError ∧
    decode80ColumnDataLine (c! "     K16Q01A* C1599 08 29.50000 10 59 59.99 -10 59 59.9          20.5 GV     J38") = .error .runtimeError ∧
    decode80ColumnDataLine (c! "     K16Q01A- C2016 08 29.50000 10 59 59.99 -10 59 59.9          20.5 GV     J38") = .error .runtimeError := by decide +kernel
/-- the columns of an observation -/
theorem observed : OpticalColumns good := by
  refine (C61_optical (c := 'C') (by decide) (by decide) (by decide) (by decide)).1 ?_
  have h := decodes.1
  cases hd : decode80ColumnDataLine good with
  | ok item => exact ⟨item, rfl⟩
  | error e => rw [hd] at h; cases h
example : ∃ e, decode80ColumnDataLine noday = .error e ∧ (e = .runtimeError ∨ (e = .valueError ∧ NoSuchDay (cols noday 16 32))) :=
  C61_refused (c := 'C') (by decide) (by decide) (by decide) (by decide) fun h => by
    obtain ⟨i, hi⟩ := (C61_optical (c := 'C') (by decide) (by decide) (by decide) (by decide)).2 h
    rw [decodes.2.1] at hi; cases hi
example : decode80ColumnDataLine noday = .error .valueError := by
  obtain ⟨hw, hd, hx, -, hc, -, hr, hdec⟩ := observed
  refine C61_no_such_day (d := ⟨2016, 2, 30, 5, 50000⟩) (by decide) (by decide) (by decide) ?_ ?_ ?_ ?_ ?_ (by decide +kernel) (by unfold Spec.ObsDate.Valid; decide) (by decide) (by decide)
  · rwa [show cols noday 1 12 = cols good 1 12 by decide]
  · rwa [show cols noday 13 13 = cols good 13 13 by decide]
  · rwa [show cols noday 15 15 = cols good 15 15 by decide]
  · rwa [show cols noday 33 44 = cols good 33 44 by decide]
  · rwa [show cols noday 45 56 = cols good 45 56 by decide]
example : (parseFile noCallback () ([(1, good ++ ['\n'])] ++ (2, noday ++ ['\n']) :: [(3, good ++ ['\n'])], none)).2 = some .valueError :=
  C61_stops (by decide) decodes.2.1 _ _ (by decide +kernel)
end SampleDecoded
end Verif
