import Verif.Lemmas.SecondAccept
import Verif.Props.Decoded
/-!
  C62: exactly which lines are taken as the second lines of observations from spacecraft and of roving observers.
-/
namespace Verif
open Verif.Mpc80 Verif.PackUtil Verif.Spec Verif.Spec.Mpc80 Verif.Spec.Unpacking Verif.Spec.Decoded Verif.Spec.Second Verif.Unpacking Verif.Decoded

namespace Second

/-- the columns that `decodeChecks` looks at -/
structure Read (b : Bool) (line : Str) (ret : Mpc80.Item) : Prop where
  date : ret.get? (c! "date") = some (.str (slice line 15 32))
  trx : (ret.get? (c! "trx")).isSome = b
  code : ret.get? (c! "code") = some (.str (slice line 14 15))
  stn : ret.get? (c! "stn") = some (.str (slice line 77 80))
  notes : ret.get? (c! "notes") = some (.str (slice line 13 14))
  ref : ret.get? (c! "packedref") = some (.str (slice line 71 77))
  id : ret.get? (c! "totalid") = some (.str (slice line 0 12))

theorem front_of {line : Str} (hw : line.length = 80) {p : Char → Bool} {l : Mpc80.Layout} (hok : Mpc80.Layout.ok (common1L ++ [⟨some 4, [.one p]⟩] ++ common2L ++ l) line)
    {ret item : Mpc80.Item} {b : Bool} (hr : Read b line ret) (hcheck : decodeChecks ret = .ok item) {D : Str → Prop} (hD : ∀ x, Sex.checkDate (slice line 15 32) b = .ok x → D (slice line 15 32)) :
    FrontColumns D line := by
  obtain ⟨d, t, p, code, stn, notes, c', cs, id, ids, h1, h2, h3, h4, h5, g1, g2, h6, h8, h9, rfl⟩ := decodeChecks_ok.1 hcheck
  rw [hr.date] at h1; rw [hr.trx] at h2; rw [hr.stn] at h4; rw [hr.notes] at h5; rw [hr.id] at h8
  injection h1 with h1; injection h1 with h1; injection h4 with h4; injection h4 with h4; injection h5 with h5; injection h5 with h5; injection h8 with h8; injection h8 with h8
  subst h1 h4 h5 h8
  obtain ⟨o1, o2, o3, o4, -⟩ := (common_ok _ _ _).1 hok
  obtain ⟨x12, hx12, hx12'⟩ := char_at hw (n := 12) (by omega)
  obtain ⟨x13, hx13, hx13'⟩ := char_at hw (n := 13) (by omega)
  refine ⟨hw, ⟨?_, ?_, ?_⟩, ⟨x12, ?_, ?_⟩, ⟨x13, ?_, ?_⟩, ?_⟩
  · obtain ⟨p, q, t⟩ := ids
    exact ⟨p, q, t, C54_unpacks.1 h9⟩
  · intro z hz
    have := o1 z (by simpa [cols, slice, List.take_take] using hz)
    simp only [Bool.or_eq_true, alnum_b62] at this
    rcases this with (h | h) | h
    · exact .inr (.inl ((ch_iff _ _).1 h))
    · exact .inl h
    · exact .inr (.inr ((ch_iff _ _).1 h))
  · intro z hz
    have := o2 z (by simpa [cols, slice, List.drop_take] using hz)
    simp only [Bool.or_eq_true, alnum_b62] at this
    rcases this with h | h
    · exact .inl h
    · exact .inr ((ch_iff _ _).1 h)
  · rw [cols_slice _ (by omega)]; exact hx12'
  · exact (oneOf_iff _ _).1 (o3 x12 (by rw [hx12']; simp))
  · rw [cols_slice _ (by omega)]; exact hx13'
  · rw [hx13'] at g2
    rw [cols_slice _ (by omega)]
    exact note_iff.1 g2
  · rw [cols_slice _ (by omega)]
    exact hD _ h2

theorem checks_of {line : Str} {D : Str → Prop} {b : Bool} (hD : ∀ t, D t → ∃ x, Sex.checkDate t b = .ok x) (hf : FrontColumns D line) {c : Char} (hc : cols line 15 15 = [c]) (hcv : c ∈ validCodes) {ret : Mpc80.Item} (hr : Read b line ret) :
    ∃ item, decodeChecks ret = .ok item := by
  obtain ⟨hw, ⟨⟨p, q, t, hu⟩, -, -⟩, -, ⟨c13, hnt, hnt'⟩, hdate⟩ := hf
  rw [cols_slice _ (by omega)] at hnt hc hu hdate
  rw [cols_slice _ (by omega)] at hnt'
  obtain ⟨⟨time, pt⟩, hT⟩ := hD _ hdate
  obtain ⟨c71, hc71, -⟩ := char_at hw (n := 71) (by omega)
  have h71 : slice line 71 77 = c71 :: slice line 72 77 := by
    rw [← slice_append line (a := 71) (b := 72) (c := 77) (by omega) (by omega), one_col hc71]; rfl
  refine ⟨_, decodeChecks_ok.2 ⟨slice line 15 32, time, pt, slice line 14 15, slice line 77 80, slice line 13 14, c71, slice line 72 77, slice line 0 12, ⟨p, q, t⟩,
      hr.date, ?_, hr.code, hr.stn, hr.notes, ?_, ?_, ?_, hr.id, C54_unpacks.2 hu, rfl⟩⟩
  · rw [hr.trx]; exact hT
  · rw [hc]; exact (inStr_one _ _).2 hcv
  · rw [hnt]; exact note_iff.2 hnt'
  · rw [← h71]; exact hr.ref

theorem front_ok {line : Str} (hn : '\n' ∉ line) {D : Str → Prop} (hC : ∀ t, D t → ∃ d : ObsDate, d.Valid ∧ t = d.column) (hf : FrontColumns D line) {c : Char} (hc : cols line 15 15 = [c]) {p : Char → Bool} (hp : p c = true) {l : Mpc80.Layout} (hl : Mpc80.Layout.ok l (line.drop 32)) :
    Mpc80.Layout.ok (common1L ++ [⟨some 4, [.one p]⟩] ++ common2L ++ l) line := by
  obtain ⟨hw, ⟨-, hf, hrest⟩, ⟨c12, hd, hd'⟩, -, hdate⟩ := hf
  obtain ⟨dd, hdv, hde⟩ := hC _ hdate
  rw [cols_slice _ (by omega)] at hd hc hf hrest hde
  obtain ⟨d1, d2, d3⟩ := date_chars hdv
  refine (common_ok _ _ _).2 ⟨?_, ?_, ?_, any_slice hn, ?_, ?_, ?_, ?_, hl⟩
  · intro z hz
    simp only [Bool.or_eq_true, alnum_b62]
    rcases hf z (by simpa [slice, List.take_take] using hz) with h | rfl | rfl
    · exact .inl (.inr h)
    · exact .inl (.inl (by decide))
    · exact .inr (by decide)
  · intro z hz
    simp only [Bool.or_eq_true, alnum_b62]
    rcases hrest z (by simpa [slice, List.drop_take] using hz) with h | rfl
    · exact .inl h
    · exact .inr (by decide)
  · intro z hz
    rw [hd] at hz
    simp only [List.mem_singleton] at hz
    exact (oneOf_iff _ _).2 (hz ▸ hd')
  · intro z hz
    rw [hc] at hz
    simp only [List.mem_singleton] at hz
    exact hz ▸ hp
  · intro z hz
    have : slice line 15 19 = slice dd.column 0 4 := by rw [← hde, slice_of_slice _ (by omega)]
    rw [this] at hz; exact d1 z hz
  · intro z hz
    have : slice line 19 20 = slice dd.column 4 5 := by rw [← hde, slice_of_slice _ (by omega)]
    rw [this, d2] at hz
    simp at hz; subst hz; decide
  · intro z hz
    have : slice line 20 32 = slice dd.column 5 17 := by rw [← hde, slice_of_slice _ (by omega)]
    rw [this] at hz; exact d3 z hz

theorem rover_read (line : Str) : Read false line (roverItem line) := by
  constructor <;> simp [roverItem, commonItem, get?_put, get?_set, get?_nil]

theorem sat_read (line p1 p2 p3 : Str) : Read false line (satItem line p1 p2 p3) := by
  constructor <;> simp [satItem, commonItem, get?_put, get?_set, get?_nil]

theorem date_in {line : Str} (x : Str × Sex.Num) (h : Sex.checkDate (slice line 15 32) = .ok x) : DateColumns (slice line 15 32) := (C60_date _).1 ⟨x, h⟩
theorem date_out (t : Str) (h : DateColumns t) : ∃ x, Sex.checkDate t = .ok x := (C60_date t).2 h
theorem date_column (t : Str) (h : DateColumns t) : ∃ d : ObsDate, d.Valid ∧ t = d.column := by
  obtain ⟨d, h1, h2, -⟩ := h
  exact ⟨d, h1, h2⟩

/-- what is decoded, but for header lines -/
theorem decoded {line : Str} (hn : '\n' ∉ line) (hh : ¬ (cols line 1 3 ∈ headerKeys ∧ cols line 4 4 = c! " ")) {c : Char} (hc : cols line 15 15 = [c]) :
    (∃ item, decode80ColumnDataLine line = .ok item) ↔ line.length = 80 ∧ ∃ ret item, decodeColumns line = .ok ret ∧ decodeChecks ret = .ok item := by
  have hne : line ≠ [] := by rintro rfl; simp [cols] at hc
  constructor
  · rintro ⟨item, h⟩
    have hw : line.length = 80 := by
      rcases C27_width hn h with h | h | h
      · exact absurd h hne
      · exact h
      · exact absurd ⟨h.1, h.2.1⟩ hh
    have hk : item.get? (c! "headerKeyword") = none := by
      cases hk : item.get? (c! "headerKeyword") with
      | none => rfl
      | some v => exact absurd (C27_header_only hn h (by rw [hk]; simp)) hh
    obtain ⟨_, hm, ret, hr, hcheck⟩ := decode_data h hne hk
    exact ⟨hw, ret, item, hr, hcheck⟩
  · rintro ⟨hw, ret, item, hr, hcheck⟩
    exact ⟨item, decode_ok.2 (.inr (.inr ⟨hw, not_header hn hh, ret, hr, hcheck⟩))⟩

theorem char_15 {line : Str} (hw : line.length = 80) {c : Char} (hc : cols line 15 15 = [c]) : line[14]? = some c := by
  obtain ⟨x, hx, hx'⟩ := char_at hw (n := 14) (by omega)
  rw [cols_slice _ (by omega), hx'] at hc
  injection hc with hc
  rw [hx, hc]

end Second
open Second

/-- **C62.** A line with another letter in column 15 than those of Spec.Second, Spec.Decoded and radar is never taken. -/
theorem C62_other {line : Str} (hn : '\n' ∉ line) (hh : ¬ (cols line 1 3 ∈ headerKeys ∧ cols line 4 4 = c! " ")) {c : Char} (hc : cols line 15 15 = [c])
    (h1 : c ∉ opticalCodes) (h2 : c ∉ c! "Rrsv") : decode80ColumnDataLine line = .error .runtimeError := by
  have hne : line ≠ [] := by rintro rfl; simp [cols] at hc
  unfold decode80ColumnDataLine
  rw [if_neg hne, not_header hn hh]
  simp only
  split
  · rfl
  split
  · rfl
  rename_i hw
  simp only [ne_eq, not_not] at hw
  have h15 := char_15 hw hc
  have no : ∀ c', c = c' → c' ∈ c! "Rrsv" → False := fun c' h h' => h2 (h ▸ h')
  rw [decodeColumns_eq hw, if_neg (fun h => h1 (normal_code h h15)), if_neg (fun h => no _ (radar1_code h h15) (by decide)), if_neg (fun h => no _ (radar2_code h h15) (by decide)),
    if_neg (fun h => no _ (sat_code h h15) (by decide)), if_neg (fun h => no _ (rover_code h h15) (by decide))]
  rfl

namespace Second

theorem rover_iff {c : Char} : signedCh c = true ↔ c ∈ roverChars := by
  simp only [signedCh, Bool.or_eq_true, place_iff, ch_iff]
  constructor
  · rintro ((rfl | rfl) | h)
    · decide
    · decide
    · have q : placeChars.all (fun c => decide (c ∈ roverChars)) = true := by decide +kernel
      simpa using List.all_eq_true.1 q c h
  · intro h
    have q : roverChars.all (fun c => decide (c = '-') || decide (c = '+') || decide (c ∈ placeChars)) = true := by decide +kernel
    simpa [or_assoc] using List.all_eq_true.1 q c h

/-- all characters of a text of `n` are `c` -/
theorem all_same {c : Char} {n : Nat} {t : Str} (hl : t.length = n) : (∀ z ∈ t, ch c z = true) ↔ t = List.replicate n c := by
  constructor
  · intro h
    exact List.eq_replicate_iff.2 ⟨hl, fun z hz => (ch_iff _ _).1 (h z hz)⟩
  · rintro rfl z hz
    exact (ch_iff _ _).2 (List.mem_replicate.1 hz).2

theorem len_slice {line : Str} (hw : line.length = 80) {a b : Nat} (h : b ≤ 80) : (slice line a b).length = b - a := by
  simp [slice]; omega

def roverTail : Mpc80.Layout := [⟨none, [.one (ch '1')]⟩, ⟨none, [.one (ch ' ')]⟩, ⟨some 8, [.many 10 signedCh]⟩, ⟨none, [.one (ch ' ')]⟩, ⟨some 9, [.many 10 signedCh]⟩, ⟨none, [.one (ch ' ')]⟩,
   ⟨some 10, [.many 5 signedCh]⟩, ⟨none, [.many 10 (ch ' ')]⟩, ⟨some 11, [.many 6 anyCh]⟩, ⟨some 12, [.one (ch '2'), .one (ch '4'), .one (ch '7')]⟩]

theorem roverTail_ok (line : Str) : Mpc80.Layout.ok roverTail (line.drop 32) ↔ (∀ z ∈ slice line 32 33, ch '1' z = true) ∧ (∀ z ∈ slice line 33 34, ch ' ' z = true) ∧ (∀ z ∈ slice line 34 44, signedCh z = true) ∧
    (∀ z ∈ slice line 44 45, ch ' ' z = true) ∧ (∀ z ∈ slice line 45 55, signedCh z = true) ∧ (∀ z ∈ slice line 55 56, ch ' ' z = true) ∧ (∀ z ∈ slice line 56 61, signedCh z = true) ∧
    (∀ z ∈ slice line 61 71, ch ' ' z = true) ∧ (∀ z ∈ slice line 71 77, anyCh z = true) ∧ (∀ z ∈ slice line 77 78, ch '2' z = true) ∧ (∀ z ∈ slice line 78 79, ch '4' z = true) ∧
    (∀ z ∈ slice line 79 80, ch '7' z = true) := by
  simp only [roverTail, Mpc80.Layout.ok, Field.width, subsWidth, Sub.width, subsOk, Sub.ok, List.drop_drop, List.take_take, List.drop_take, slice, Nat.add_zero, Nat.reduceAdd, Nat.reduceSub, and_true, and_assoc,
    Nat.min_self]
  exact Iff.rfl

def satTail : Mpc80.Layout := [⟨some 8, [.one (oneOf ['1', '2'])]⟩, ⟨none, [.one anyCh]⟩, ⟨some 9, coordS⟩, ⟨none, [.one anyCh]⟩, ⟨some 10, coordS⟩, ⟨none, [.one anyCh]⟩, ⟨some 11, coordS⟩,
   ⟨none, [.many 2 (ch ' ')]⟩, ⟨some 12, [.one (ch ' '), .many 5 anyCh]⟩, ⟨some 13, [.many 3 anyCh]⟩]

theorem satTail_ok (line : Str) : Mpc80.Layout.ok satTail (line.drop 32) ↔ (∀ z ∈ slice line 32 33, oneOf ['1', '2'] z = true) ∧ (∀ z ∈ slice line 33 34, anyCh z = true) ∧
    (∀ z ∈ slice line 34 35, oneOf ['+', '-'] z = true) ∧ (∀ z ∈ slice line 35 45, numCh z = true) ∧ (∀ z ∈ slice line 45 46, anyCh z = true) ∧
    (∀ z ∈ slice line 46 47, oneOf ['+', '-'] z = true) ∧ (∀ z ∈ slice line 47 57, numCh z = true) ∧ (∀ z ∈ slice line 57 58, anyCh z = true) ∧
    (∀ z ∈ slice line 58 59, oneOf ['+', '-'] z = true) ∧ (∀ z ∈ slice line 59 69, numCh z = true) ∧ (∀ z ∈ slice line 69 71, ch ' ' z = true) ∧ (∀ z ∈ slice line 71 72, ch ' ' z = true) ∧
    (∀ z ∈ slice line 72 77, anyCh z = true) ∧ (∀ z ∈ slice line 77 80, anyCh z = true) := by
  simp only [satTail, coordS, Mpc80.Layout.ok, Field.width, subsWidth, Sub.width, subsOk, Sub.ok, List.drop_drop, List.take_take, List.drop_take, slice, Nat.add_zero, Nat.reduceAdd, Nat.reduceSub, and_true, and_assoc,
    Nat.min_self]
  exact Iff.rfl

end Second

/-- **C62.** Exactly the lines of Spec.Second are taken as second lines of roving observers. -/
theorem C62_rover {line : Str} (hn : '\n' ∉ line) (hh : ¬ (cols line 1 3 ∈ headerKeys ∧ cols line 4 4 = c! " ")) (hc : cols line 15 15 = ['v']) :
    (∃ item, decode80ColumnDataLine line = .ok item) ↔ RoverColumns line := by
  rw [decoded hn hh hc]
  constructor
  · rintro ⟨hw, ret, item, hr, hcheck⟩
    have h15 := char_15 hw hc
    have hro : roverL.ok line ∧ ret = roverItem line := by
      rcases (decodeColumns_ok hw).1 hr with ⟨h, -⟩ | ⟨h, -⟩ | ⟨h, -⟩ | ⟨h, -⟩ | h
      · exact absurd (normal_code h h15) (by decide)
      · exact absurd (radar1_code h h15) (by decide)
      · exact absurd (radar2_code h h15) (by decide)
      · exact absurd (sat_code h h15) (by decide)
      · exact h
    obtain ⟨hok, rfl⟩ := hro
    have hf := front_of hw hok (rover_read line) hcheck date_in
    obtain ⟨-, -, -, -, -, -, -, -, htail⟩ := (common_ok _ _ _).1 hok
    obtain ⟨a1, a2, a3, a4, a5, a6, a7, a8, -, b1, b2, b3⟩ := (roverTail_ok line).1 htail
    have e1 := (all_same (len_slice hw (by omega))).1 a1
    have e2 := (all_same (len_slice hw (by omega))).1 a2
    have e4 := (all_same (len_slice hw (by omega))).1 a4
    have e6 := (all_same (len_slice hw (by omega))).1 a6
    have e8 := (all_same (len_slice hw (by omega))).1 a8
    have f1 := (all_same (len_slice hw (by omega))).1 b1
    have f2 := (all_same (len_slice hw (by omega))).1 b2
    have f3 := (all_same (len_slice hw (by omega))).1 b3
    refine ⟨hf, hc, ?_, ?_, ?_, ?_, ?_, ?_, ?_, ?_⟩
    · rw [cols_slice _ (by omega), ← slice_append line (a := 32) (b := 33) (c := 34) (by omega) (by omega), e1, e2]; rfl
    · intro z hz; rw [cols_slice _ (by omega)] at hz; exact rover_iff.1 (a3 z hz)
    · rw [cols_slice _ (by omega), e4]; rfl
    · intro z hz; rw [cols_slice _ (by omega)] at hz; exact rover_iff.1 (a5 z hz)
    · rw [cols_slice _ (by omega), e6]; rfl
    · intro z hz; rw [cols_slice _ (by omega)] at hz; exact rover_iff.1 (a7 z hz)
    · rw [cols_slice _ (by omega), e8]; rfl
    · rw [cols_slice _ (by omega), ← slice_append line (a := 77) (b := 78) (c := 80) (by omega) (by omega), ← slice_append line (a := 78) (b := 79) (c := 80) (by omega) (by omega), f1, f2, f3]; rfl
  · rintro ⟨hf, -, h1, hlon, g1, hlat, g2, halt, g3, hstn⟩
    have hw := hf.width
    rw [cols_slice _ (by omega)] at h1 hlon g1 hlat g2 halt g3 hstn
    have hl : roverL.ok line := by
      refine front_ok (l := roverTail) hn date_column hf hc (by decide) ((roverTail_ok line).2 ⟨?_, ?_, fun z hz => rover_iff.2 (hlon z hz), ?_, fun z hz => rover_iff.2 (hlat z hz), ?_, fun z hz => rover_iff.2 (halt z hz),
        ?_, any_slice hn, ?_, ?_, ?_⟩)
      · have : slice line 32 33 = slice (slice line 32 34) 0 1 := by rw [slice_of_slice _ (by omega)]
        rw [this, h1]; decide
      · have : slice line 33 34 = slice (slice line 32 34) 1 2 := by rw [slice_of_slice _ (by omega)]
        rw [this, h1]; decide
      · rw [g1]; decide
      · rw [g2]; decide
      · rw [g3]; decide
      · have : slice line 77 78 = slice (slice line 77 80) 0 1 := by rw [slice_of_slice _ (by omega)]
        rw [this, hstn]; decide
      · have : slice line 78 79 = slice (slice line 77 80) 1 2 := by rw [slice_of_slice _ (by omega)]
        rw [this, hstn]; decide
      · have : slice line 79 80 = slice (slice line 77 80) 2 3 := by rw [slice_of_slice _ (by omega)]
        rw [this, hstn]; decide
    obtain ⟨item, hi⟩ := checks_of date_out hf hc (by decide) (rover_read line)
    exact ⟨hw, _, item, (decodeColumns_ok hw).2 (.inr (.inr (.inr (.inr ⟨hl, rfl⟩)))), hi⟩

/-- **C62.** Exactly the lines of Spec.Second are taken as second lines of spacecraft. -/
theorem C62_satellite {line : Str} (hn : '\n' ∉ line) (hh : ¬ (cols line 1 3 ∈ headerKeys ∧ cols line 4 4 = c! " ")) (hc : cols line 15 15 = ['s']) :
    (∃ item, decode80ColumnDataLine line = .ok item) ↔ SatelliteColumns line := by
  rw [decoded hn hh hc]
  constructor
  · rintro ⟨hw, ret, item, hr, hcheck⟩
    have h15 := char_15 hw hc
    have hro : satL.ok line ∧ decodeSat (satL.caps line) = .ok ret := by
      rcases (decodeColumns_ok hw).1 hr with ⟨h, -⟩ | ⟨h, -⟩ | ⟨h, -⟩ | h | ⟨h, -⟩
      · exact absurd (normal_code h h15) (by decide)
      · exact absurd (radar1_code h h15) (by decide)
      · exact absurd (radar2_code h h15) (by decide)
      · exact h
      · exact absurd (rover_code h h15) (by decide)
    obtain ⟨hok, hd⟩ := hro
    obtain ⟨p1, p2, p3, k1, k2, k3, u1, u2, u3, rfl⟩ := decodeSat_ok.1 hd
    have hf := front_of hw hok (sat_read line p1 p2 p3) hcheck date_in
    obtain ⟨-, -, -, -, -, -, -, -, htail⟩ := (common_ok _ _ _).1 hok
    obtain ⟨a1, -, x1, x2, -, y1, y2, -, z1, z2, b1, b2, -, -⟩ := (satTail_ok line).1 htail
    obtain ⟨x32, hx32, hx32'⟩ := char_at hw (n := 32) (by omega)
    have e1 := (all_same (len_slice hw (by omega))).1 b1
    have e2 := (all_same (len_slice hw (by omega))).1 b2
    have hunit := (oneOf_iff _ _).1 (a1 x32 (by rw [hx32']; simp))
    have hwd : ∃ w, ((cols line 33 33 = ['1'] ∧ w = 5) ∨ (cols line 33 33 = ['2'] ∧ w = 1)) ∧ satDigits line = ((w + 2 : Nat) : Int) := by
      rw [cols_slice _ (by omega)]
      unfold satDigits
      simp only [Nat.reduceSub]
      rw [hx32']
      simp only [List.mem_cons, List.not_mem_nil, or_false] at hunit
      rcases hunit with rfl | rfl
      · exact ⟨5, .inl ⟨rfl, rfl⟩, rfl⟩
      · exact ⟨1, .inr ⟨rfl, rfl⟩, rfl⟩
    obtain ⟨w, hw1, hd⟩ := hwd
    have hw9 : w ≤ 9 := by rcases hw1 with ⟨-, h⟩ | ⟨-, h⟩ <;> omega
    rw [hd] at u1 u2 u3
    have one : ∀ a, (slice line a (a + 11)).take 1 = slice line a (a + 1) := by intro a; simp [slice, List.take_take]
    have ten : ∀ a, (slice line a (a + 11)).drop 1 = slice line (a + 1) (a + 11) := by intro a; rw [drop_slice]
    refine ⟨hf, hc, ⟨w, hw1, ?_, ?_, ?_⟩, ?_⟩
    · rw [cols_slice _ (by omega)]
      exact (coord_any (len_slice hw (by omega)) (by rw [one]; exact x1) (by rw [ten]; exact x2) hw9).1 ⟨p1, k1, u1⟩
    · rw [cols_slice _ (by omega)]
      exact (coord_any (len_slice hw (by omega)) (by rw [one]; exact y1) (by rw [ten]; exact y2) hw9).1 ⟨p2, k2, u2⟩
    · rw [cols_slice _ (by omega)]
      exact (coord_any (len_slice hw (by omega)) (by rw [one]; exact z1) (by rw [ten]; exact z2) hw9).1 ⟨p3, k3, u3⟩
    · rw [cols_slice _ (by omega), ← slice_append line (a := 69) (b := 71) (c := 72) (by omega) (by omega), e1, e2]; rfl
  · rintro ⟨hf, -, ⟨w, hw1, hx, hy, hz⟩, hgap⟩
    have hw := hf.width
    rw [cols_slice _ (by omega)] at hx hy hz hgap
    have hw9 : w ≤ 9 := by rcases hw1 with ⟨-, h⟩ | ⟨-, h⟩ <;> omega
    have hd : satDigits line = ((w + 2 : Nat) : Int) := by
      unfold satDigits
      rw [cols_slice _ (by omega)] at hw1
      simp only [Nat.reduceSub] at hw1
      rcases hw1 with ⟨h, rfl⟩ | ⟨h, rfl⟩ <;> rw [h] <;> rfl
    have one : ∀ a, (slice line a (a + 11)).take 1 = slice line a (a + 1) := by intro a; simp [slice, List.take_take]
    have ten : ∀ a, (slice line a (a + 11)).drop 1 = slice line (a + 1) (a + 11) := by intro a; rw [drop_slice]
    have chars : ∀ a, CoordColumns w (slice line a (a + 11)) → (∀ z ∈ slice line a (a + 1), oneOf ['+', '-'] z = true) ∧ (∀ z ∈ slice line (a + 1) (a + 11), numCh z = true) := by
      rintro a ⟨s, b, rest, hs, ht, -, hm, -⟩
      rw [← one, ← ten, ht]
      constructor
      · intro z hz
        simp at hz; subst hz
        exact (oneOf_iff _ _).2 (by simpa using hs)
      · intro z hz
        simp only [List.drop_succ_cons, List.drop_zero, leftpad_eq, List.append_assoc] at hz
        rcases List.mem_append.1 hz with hz | hz
        · rw [(List.mem_replicate.1 hz).2]; decide
        · exact place_iff.2 (hm z hz)
    obtain ⟨x1, x2⟩ := chars 34 hx
    obtain ⟨y1, y2⟩ := chars 46 hy
    obtain ⟨z1, z2⟩ := chars 58 hz
    have hl : satL.ok line := by
      refine front_ok (l := satTail) hn date_column hf hc (by decide) ((satTail_ok line).2 ⟨?_, any_slice hn, x1, x2, any_slice hn, y1, y2, any_slice hn, z1, z2, ?_, ?_, any_slice hn, any_slice hn⟩)
      · rw [cols_slice _ (by omega)] at hw1
        simp only [Nat.reduceSub] at hw1
        rcases hw1 with ⟨h, -⟩ | ⟨h, -⟩ <;> rw [h] <;> decide
      · have : slice line 69 71 = slice (slice line 69 72) 0 2 := by rw [slice_of_slice _ (by omega)]
        rw [this, hgap]; decide
      · have : slice line 71 72 = slice (slice line 69 72) 2 3 := by rw [slice_of_slice _ (by omega)]
        rw [this, hgap]; decide
    obtain ⟨p1, k1, u1⟩ := (coord_any (len_slice hw (by omega)) (by rw [one]; exact x1) (by rw [ten]; exact x2) hw9).2 hx
    obtain ⟨p2, k2, u2⟩ := (coord_any (len_slice hw (by omega)) (by rw [one]; exact y1) (by rw [ten]; exact y2) hw9).2 hy
    obtain ⟨p3, k3, u3⟩ := (coord_any (len_slice hw (by omega)) (by rw [one]; exact z1) (by rw [ten]; exact z2) hw9).2 hz
    obtain ⟨item, hi⟩ := checks_of date_out hf hc (by decide) (sat_read line p1 p2 p3)
    rw [← hd] at u1 u2 u3
    exact ⟨hw, _, item, (decodeColumns_ok hw).2 (.inr (.inr (.inr (.inl ⟨hl, decodeSat_ok.2 ⟨p1, p2, p3, k1, k2, k3, u1, u2, u3, rfl⟩⟩)))), hi⟩

namespace Second

theorem checks_refuse {line : Str} (hw : line.length = 80) {ret : Mpc80.Item} (hr : Read false line ret) {e : PyErr} (h : decodeChecks ret = .error e) :
    e = .runtimeError ∨ (e = .valueError ∧ NoSuchDay (cols line 16 32)) := by
  obtain ⟨c71, hc71, -⟩ := char_at hw (n := 71) (by omega)
  have h71 : slice line 71 77 = c71 :: slice line 72 77 := by
    rw [← slice_append line (a := 71) (b := 72) (c := 77) (by omega) (by omega), one_col hc71]; rfl
  rw [cols_slice _ (by omega)]
  cases hT : Sex.checkDate (slice line 15 32) with
  | error e' =>
    have hd : decodeChecks ret = .error e' := by
      unfold decodeChecks putDate
      rw [str_ok.2 hr.date, hr.trx]
      simp only [bind, Except.bind, hT]
    rw [hd] at h
    injection h with h
    subst h
    exact Sex.date_error (by simp [slice]) hT
  | ok x =>
    obtain ⟨t, p⟩ := x
    left
    exact checks_error hr.date (by rw [hr.trx]; exact hT) hr.code hr.stn hr.notes (by rw [hr.ref, h71]) hr.id h

theorem signed_error {s : Char} (hs : s = '+' ∨ s = '-') (u : Str) {w : Nat} {e : PyErr} (h : unPackSigned (s :: u) 11 (w + 2 : Nat) = .error e) : e = .runtimeError := by
  have e1 : (11 : Int) - 1 = 10 := by omega
  have e2 : ((w + 2 : Nat) : Int) - 1 = ((w + 1 : Nat) : Int) := by omega
  have key : unPackSigned (s :: u) 11 (w + 2 : Nat) = (applyPJ u 10 .D (w + 1 : Nat) >>= fun r => pure (s :: r.1)) := by
    rw [← e2, ← e1]
    rcases hs with rfl | rfl <;> rfl
  rw [key] at h
  by_cases hp : '.' ∈ u
  · by_cases hp2 : 2 ≤ u.count '.'
    · rw [applyPJ_points hp2] at h
      injection h with h
      exact h.symm
    · obtain ⟨a, b, rfl, ha, hb⟩ := cut_point hp hp2
      obtain ⟨y, z, he⟩ := point_row (w := w) ha hb
      rw [he] at h
      cases h
  · obtain ⟨y, z, he⟩ := nopoint_row (w := w) hp
    rw [he] at h
    cases h

theorem sat_refuse {line : Str} (hw : line.length = 80) (hok : satL.ok line) {e : PyErr} (h : decodeSat (satL.caps line) = .error e) : e = .runtimeError := by
  obtain ⟨-, -, -, -, -, -, -, -, htail⟩ := (common_ok _ _ _).1 hok
  obtain ⟨a1, -, x1, x2, -, y1, y2, -, z1, z2, -⟩ := (satTail_ok line).1 htail
  have one : ∀ a, (slice line a (a + 11)).take 1 = slice line a (a + 1) := by intro a; simp [slice, List.take_take]
  have sgn : ∀ a, a + 11 ≤ 80 → (∀ z ∈ slice line a (a + 1), oneOf ['+', '-'] z = true) → ∃ s u, slice line a (a + 11) = s :: u ∧ (s = '+' ∨ s = '-') := by
    intro a ha hz
    have hl := len_slice hw (a := a) (b := a + 11) ha
    cases hs : slice line a (a + 11) with
    | nil => rw [hs] at hl; simp at hl
    | cons s u =>
      refine ⟨s, u, rfl, ?_⟩
      have := hz s (by rw [← one, hs]; simp)
      simpa using (oneOf_iff _ _).1 this
  obtain ⟨s1, u1, e1, k1⟩ := sgn 34 (by omega) x1
  obtain ⟨s2, u2, e2, k2⟩ := sgn 46 (by omega) y1
  obtain ⟨s3, u3, e3, k3⟩ := sgn 58 (by omega) z1
  have e8 : g (satL.caps line) 8 = slice line 32 33 := by rw [sat_caps]; rfl
  have e9 : g (satL.caps line) 9 = slice line 34 45 := by rw [sat_caps]; rfl
  have e10 : g (satL.caps line) 10 = slice line 46 57 := by rw [sat_caps]; rfl
  have e11 : g (satL.caps line) 11 = slice line 58 69 := by rw [sat_caps]; rfl
  have rt : ∀ {α : Type}, (raiseRT : Py α) = .error e → e = .runtimeError := fun h => by injection h with h; exact h.symm
  have hnd : ∃ w : Nat, ∀ (sys : Str × Int), sys = (if slice line 32 33 = c! "1" then (c! "ICRF_KM", 7) else (c! "ICRF_AU", 3)) → sys.2 = ((w + 2 : Nat) : Int) := by
    by_cases h1 : slice line 32 33 = c! "1"
    · exact ⟨5, by rintro _ rfl; rw [if_pos h1]; rfl⟩
    · exact ⟨1, by rintro _ rfl; rw [if_neg h1]; rfl⟩
  obtain ⟨w, hnd⟩ := hnd
  unfold decodeSat at h
  rw [putCommon_eq (s := line) (by rw [sat_caps]; exact ⟨_, rfl⟩), e8, e9, e10, e11, e1, e2, e3, packed_sign k1, packed_sign k2, packed_sign k3] at h
  simp only [bind, Except.bind] at h
  generalize hg : (if slice line 32 33 = c! "1" then (c! "ICRF_KM", 7) else (c! "ICRF_AU", 3) : Str × Int) = sys at h
  have hn := hnd sys hg.symm
  obtain ⟨sys, nd⟩ := sys
  simp only at hn
  subst hn
  split at h
  · rename_i e' he
    injection h with h
    subst h
    exact signed_error k1 _ he
  split at h
  · exact rt h
  split at h
  · rename_i e' he
    injection h with h
    subst h
    exact signed_error k2 _ he
  split at h
  · exact rt h
  split at h
  · rename_i e' he
    injection h with h
    subst h
    exact signed_error k3 _ he
  split at h
  · exact rt h
  · cases h

end Second

/-- **C62.** Every other line with one of these letters raises RuntimeError, which `parseFile` turns into a message - or ValueError, and then its date is one that does not exist. -/
theorem C62_refused {line : Str} (hn : '\n' ∉ line) (hh : ¬ (cols line 1 3 ∈ headerKeys ∧ cols line 4 4 = c! " ")) {c : Char} (hc : cols line 15 15 = [c]) (hcs : c = 's' ∨ c = 'v')
    (hx : ¬ SatelliteColumns line) (hx' : ¬ RoverColumns line) : ∃ e, decode80ColumnDataLine line = .error e ∧ (e = .runtimeError ∨ (e = .valueError ∧ NoSuchDay (cols line 16 32))) := by
  cases hd : decode80ColumnDataLine line with
  | ok item =>
    rcases hcs with rfl | rfl
    · exact absurd ((C62_satellite hn hh hc).1 ⟨item, hd⟩) hx
    · exact absurd ((C62_rover hn hh hc).1 ⟨item, hd⟩) hx'
  | error e =>
    refine ⟨e, rfl, ?_⟩
    have rt : ∀ {α : Type}, (raiseRT : Py α) = .error e → e = .runtimeError := fun h => by injection h with h; exact h.symm
    have hne : line ≠ [] := by rintro rfl; simp [cols] at hc
    unfold decode80ColumnDataLine at hd
    rw [if_neg hne, not_header hn hh] at hd
    split at hd
    · exact .inl (rt hd)
    simp only at hd
    split at hd
    · exact .inl (rt hd)
    rename_i hw
    simp only [ne_eq, not_not] at hw
    have h15 := char_15 hw hc
    have no : ∀ c', c = c' → c' ≠ 's' → c' ≠ 'v' → False := fun c' h h1 h2 => by
      subst h
      rcases hcs with h | h
      · exact h1 h
      · exact h2 h
    have hnorm : ¬ normalL.ok line := fun h => by
      have := normal_code h h15
      rcases hcs with rfl | rfl <;> revert this <;> decide
    rw [decodeColumns_eq hw, if_neg hnorm, if_neg (fun h => no _ (radar1_code h h15) (by decide) (by decide)), if_neg (fun h => no _ (radar2_code h h15) (by decide) (by decide))] at hd
    by_cases hs : satL.ok line
    · rw [if_pos hs] at hd
      cases hS : decodeSat (satL.caps line) with
      | error e' =>
        rw [hS] at hd
        injection hd with hd
        subst hd
        exact .inl (sat_refuse hw hs hS)
      | ok ret =>
        rw [hS] at hd
        obtain ⟨p1, p2, p3, -, -, -, -, -, -, rfl⟩ := decodeSat_ok.1 hS
        exact checks_refuse hw (sat_read line p1 p2 p3) hd
    · rw [if_neg hs] at hd
      by_cases hv : roverL.ok line
      · rw [if_pos hv] at hd
        exact checks_refuse hw (rover_read line) hd
      · rw [if_neg hv] at hd
        exact .inl (rt hd)

namespace SampleSecond
def craft : Str := c! "     K16Q01A  s2016 08 29.50000 1 - 1234.5678 +    0.1234 + 6789.            C51"
def rover : Str := c! "     K16Q01A  v2016 08 29.50000 1 127.123456 +12.345678    12                247"
def wrong : Str := c! "     K16Q01A  s2016 08 29.50000 1 -1234.5678  +    0.1234 + 6789.            C51"
theorem decodes : (decode80ColumnDataLine craft).toOption.isSome = true ∧ (decode80ColumnDataLine rover).toOption.isSome = true ∧
    decode80ColumnDataLine wrong = .error .runtimeError := by decide +kernel
/-- the columns of a spacecraft's line -/
theorem observed : SatelliteColumns craft := by
  refine (C62_satellite (by decide) (by decide) (by decide)).1 ?_
  have h := decodes.1
  cases hd : decode80ColumnDataLine craft with
  | ok item => exact ⟨item, rfl⟩
  | error e => rw [hd] at h; cases h
/-- the columns of a roving observer's line -/
theorem roved : RoverColumns rover := by
  refine (C62_rover (by decide) (by decide) (by decide)).1 ?_
  have h := decodes.2.1
  cases hd : decode80ColumnDataLine rover with
  | ok item => exact ⟨item, rfl⟩
  | error e => rw [hd] at h; cases h
/-- a coordinate that begins where it should not -/
example : ¬ SatelliteColumns wrong := fun h => by
  obtain ⟨i, hi⟩ := (C62_satellite (by decide) (by decide) (by decide)).2 h
  rw [decodes.2.2] at hi; cases hi
example : ∃ e, decode80ColumnDataLine wrong = .error e ∧ (e = .runtimeError ∨ (e = .valueError ∧ NoSuchDay (cols wrong 16 32))) :=
  C62_refused (c := 's') (by decide) (by decide) (by decide) (.inl rfl)
    (fun h => by
      obtain ⟨i, hi⟩ := (C62_satellite (by decide) (by decide) (by decide)).2 h
      rw [decodes.2.2] at hi; cases hi)
    (fun h => absurd h.code (by decide))
/-- a coordinate that is too long begins at the first place, and one without digits will do -/
example : CoordColumns 5 (c! "+1234567.12") ∧ CoordColumns 5 (c! "-          ") ∧ CoordColumns 1 (c! "+ .5       ") :=
  ⟨⟨'+', c! "1234567", c! ".12", .inl rfl, rfl, rfl, by decide, by decide, by decide, .inr ⟨c! "12", by decide, rfl⟩⟩,
   ⟨'-', [], List.replicate 5 ' ', .inr rfl, rfl, rfl, by decide, by decide, by decide, .inl ⟨by decide, 5, rfl⟩⟩,
   ⟨'+', [], c! ".5       ", .inl rfl, rfl, rfl, by decide, by decide, by decide, .inr ⟨c! "5       ", by decide, rfl⟩⟩⟩
example : decode80ColumnDataLine (c! "     K16Q01A  D2016 08 29.50000 10 59 59.99 -10 59 59.9          20.5 GV     J38") = .error .runtimeError :=
  C62_other (c := 'D') (by decide) (by decide) (by decide) (by decide) (by decide)
end SampleSecond
end Verif
