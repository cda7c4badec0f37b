import Verif.Props.Second
import Verif.Props.ObsDateNext
import Verif.Lemmas.RadarError
/-!
  C63: exactly which lines are taken as the two lines of a radar observation.
-/
namespace Verif
open Verif.Mpc80 Verif.PackUtil Verif.Spec Verif.Spec.Mpc80 Verif.Spec.Unpacking Verif.Spec.Decoded Verif.Spec.Second Verif.Unpacking Verif.Decoded Verif.Second

namespace RadarLines
open Verif.Sex (checkDate date_any)

/-- the nearest second is as near as any -/
theorem nearest {s : ℚ} {τ w : Nat} (h : |(τ : ℚ) - s| ≤ 1 / 2) : |(τ : ℚ) - s| ≤ |(w : ℚ) - s| := by
  by_cases e : w = τ
  · rw [e]
  · have : (1 : ℚ) ≤ |(w : ℚ) - τ| := by
      rcases Nat.lt_or_gt_of_ne e with h | h
      · have : (w : ℚ) + 1 ≤ τ := by exact_mod_cast h
        rw [abs_of_nonpos (by linarith)]; linarith
      · have : (τ : ℚ) + 1 ≤ w := by exact_mod_cast h
        rw [abs_of_nonneg (by linarith)]; linarith
    have h2 : |(w : ℚ) - τ| ≤ |(w : ℚ) - s| + |(τ : ℚ) - s| := by
      have : (w : ℚ) - τ = ((w : ℚ) - s) - ((τ : ℚ) - s) := by ring
      rw [this]; exact abs_sub _ _
    linarith

theorem date_iff (d : Spec.ObsDate) (h : d.Valid) (ht : ¬ RadarTie d.column) :
    (∃ x, checkDate d.column true = .ok x) ↔ ∃ w : Nat, w < 86400 ∧ (w : Rat) - d.seconds < halfUnit d ∧ d.seconds - w < halfUnit d := by
  have hn : d.digits ≤ 6 := h.2.2.2.2.2.2.2.1
  have hf : d.frac < 10 ^ d.digits := h.2.2.2.2.2.2.2.2
  have hsec := seconds_eq hn
  have hP : (0 : ℚ) < 10 ^ d.digits := by positivity
  have hH : halfUnit d * 10 ^ d.digits = 43200 := by
    unfold halfUnit; push_cast; field_simp
  have hS : d.seconds * 10 ^ d.digits = 86400 * d.frac := by
    unfold ObsDate.seconds; push_cast; field_simp
  generalize hq : d.frac * 10 ^ (6 - d.digits) * 54 = q at hsec
  have near : ∃ τ : Nat, |(τ : ℚ) - d.seconds| ≤ 1 / 2 := by
    refine ⟨(2 * q + 625) / 1250, ?_⟩
    have hk : 1250 * ((2 * q + 625) / 1250) ≤ 2 * q + 625 ∧ 2 * q ≤ 1250 * ((2 * q + 625) / 1250) + 625 := by omega
    generalize (2 * q + 625) / 1250 = t at *
    have h1 : (1250 : ℚ) * t ≤ 2 * q + 625 := by exact_mod_cast hk.1
    have h2 : (2 : ℚ) * q ≤ 1250 * t + 625 := by exact_mod_cast hk.2
    rw [hsec, abs_le]
    constructor <;> linarith
  obtain ⟨τ, hτ⟩ := near
  by_cases hlt : τ < 86400
  · obtain ⟨r1, r2⟩ := C32_radar d h τ hτ hlt
    have hz : |(τ : ℚ) - d.seconds| * 10 ^ d.digits = ((|(τ * 10 ^ d.digits - 86400 * d.frac : ℤ)| : ℤ) : ℚ) := by
      push_cast
      rw [← hS, ← sub_mul, abs_mul, abs_of_pos hP]
    have hne : |(τ * 10 ^ d.digits - 86400 * d.frac : ℤ)| ≠ 43200 := by
      intro he
      rw [he] at hz
      have : |(τ : ℚ) - d.seconds| = halfUnit d := by
        have : |(τ : ℚ) - d.seconds| * 10 ^ d.digits = halfUnit d * 10 ^ d.digits := by rw [hz, hH]; norm_num
        exact mul_right_cancel₀ hP.ne' this
      refine ht ⟨d, h, rfl, ?_, τ, hlt, ?_⟩
      · by_contra h5
        have h4 : (10 : ℚ) ^ d.digits ≤ 10 ^ 4 := pow_le_pow_right₀ (by norm_num) (by omega)
        have hp : 0 < halfUnit d := by rw [← this] at hH ⊢; by_contra hc; nlinarith [abs_nonneg ((τ : ℚ) - d.seconds)]
        have : halfUnit d * 10 ^ d.digits ≤ halfUnit d * 10 ^ 4 := mul_le_mul_of_nonneg_left h4 hp.le
        linarith
      rcases abs_cases ((τ : ℚ) - d.seconds) with ⟨e, -⟩ | ⟨e, -⟩
      · left; linarith
      · right; linarith
    rw [hz] at r1 r2
    generalize |(τ * 10 ^ d.digits - 86400 * d.frac : ℤ)| = z at *
    constructor
    · rintro ⟨x, hx⟩
      have : z ≤ 43199 := by
        by_contra hc
        have : (43201 : ℚ) ≤ z := by exact_mod_cast (show (43201 : ℤ) ≤ z by omega)
        rw [r2 (by norm_num; linarith)] at hx
        cases hx
      have : (z : ℚ) < 43200 := by
        have : (z : ℚ) ≤ 43199 := by exact_mod_cast this
        linarith
      have : |(τ : ℚ) - d.seconds| < halfUnit d := by
        have : |(τ : ℚ) - d.seconds| * 10 ^ d.digits < halfUnit d * 10 ^ d.digits := by rw [hz, hH]; exact this
        exact lt_of_mul_lt_mul_right this hP.le
      rw [abs_lt] at this
      exact ⟨τ, hlt, by linarith, by linarith⟩
    · rintro ⟨w, -, h1, h2⟩
      have hw : |(w : ℚ) - d.seconds| < halfUnit d := by rw [abs_lt]; constructor <;> linarith
      have := lt_of_le_of_lt (nearest (w := w) hτ) hw
      have : |(τ : ℚ) - d.seconds| * 10 ^ d.digits < halfUnit d * 10 ^ d.digits := mul_lt_mul_of_pos_right this hP
      rw [hz, hH] at this
      have : z < 43200 := by exact_mod_cast this
      have : (z : ℚ) ≤ 43199 := by exact_mod_cast (show z ≤ 43199 by omega)
      exact ⟨_, r1 (by norm_num; linarith)⟩
  · have hge : (86400 : ℚ) ≤ τ := by exact_mod_cast (show 86400 ≤ τ by omega)
    have hs : 86400 - d.seconds ≤ 1 / 2 := by
      rw [abs_le] at hτ; linarith
    have hr := C32_next_day_refused d h hs
    constructor
    · rintro ⟨x, hx⟩
      rw [hr] at hx; cases hx
    · rintro ⟨w, hw, h1, h2⟩
      exfalso
      have hw' : (w : ℚ) ≤ 86399 := by exact_mod_cast (show w ≤ 86399 by omega)
      have hf' : (d.frac : ℚ) + 1 ≤ 10 ^ d.digits := by exact_mod_cast hf
      have : (d.seconds + 2 * halfUnit d) * 10 ^ d.digits ≤ 86400 * 10 ^ d.digits := by rw [add_mul, mul_assoc, hH, hS]; linarith
      have := le_of_mul_le_mul_right this hP
      linarith

/-- dates with fewer digits are no ties -/
theorem tie_wide {t : Str} (h : RadarTie t) : t.count ' ' ≤ 3 := by
  obtain ⟨⟨y, m, d, n, f⟩, hv, rfl, hn, -⟩ := h
  obtain ⟨hy, hy', hm, hm', hd, hd', hn1, hn6, hf⟩ := hv
  simp only at hy hy' hm hm' hd hd' hn1 hn6 hf hn
  have hd31 := le_trans hd' (Sex.monthDays_le (y := y) (m := m))
  have none : ∀ k x, (Spec.fixed k x).count ' ' = 0 := fun k x => List.count_eq_zero.2 fun hm => absurd (fixed_mem k x _ hm) (by decide)
  have ydec : (Spec.dec y).count ' ' = 0 := List.count_eq_zero.2 fun hm => absurd (natStr_mem y _ (by rwa [dec_eq] at hm)) (by decide)
  rw [Sex.date_text (by omega) hy' (by omega) (by omega) hn1 hn6 hf]
  simp only [List.count_append, none, ydec, List.count_replicate]
  simp
  omega

/-- the radar dates -/
theorem date_radar {t : Str} (ht : ¬ RadarTie t) : (∃ x, checkDate t true = .ok x) ↔ RadarDate t := by
  constructor
  · rintro ⟨x, hx⟩
    obtain ⟨d, hd, rfl⟩ := date_any hx
    exact ⟨d, hd, rfl, (date_iff d hd ht).1 ⟨x, hx⟩⟩
  · rintro ⟨d, hd, rfl, hw⟩
    exact (date_iff d hd ht).2 hw

theorem radar_column (t : Str) (h : RadarDate t) : ∃ d : ObsDate, d.Valid ∧ t = d.column := by
  obtain ⟨d, h1, h2, -⟩ := h
  exact ⟨d, h1, h2⟩

theorem radar1_read (line sh : Str) : Read true line (radar1Item line sh) := by
  constructor <;> simp [radar1Item, commonItem, get?_put]

theorem radar2_read (line : Str) : Read true line (radar2Item line) := by
  constructor <;> simp [radar2Item, commonItem, get?_put]

def radar1Tail : Mpc80.Layout := [⟨some 8, [.many 15 numCh]⟩, ⟨some 9, [.one (oneOf [' ', '+', '-']), .many 14 numCh]⟩, ⟨some 10, [.many 6 numCh]⟩, ⟨some 11, [.many 3 anyCh]⟩,
   ⟨some 12, [.many 6 anyCh]⟩, ⟨some 13, [.many 3 anyCh]⟩]
def radar2Tail : Mpc80.Layout := [⟨some 8, [.one (oneOf ['S', 'C'])]⟩, ⟨some 9, [.many 14 numCh]⟩, ⟨some 10, [.many 15 numCh]⟩, ⟨some 11, [.many 6 numCh]⟩, ⟨some 12, [.many 3 anyCh]⟩,
   ⟨some 13, [.many 6 anyCh]⟩, ⟨some 14, [.many 3 anyCh]⟩]

theorem radar1Tail_ok (line : Str) : Mpc80.Layout.ok radar1Tail (line.drop 32) ↔ (∀ z ∈ slice line 32 47, numCh z = true) ∧ (∀ z ∈ slice line 47 48, oneOf [' ', '+', '-'] z = true) ∧
    (∀ z ∈ slice line 48 62, numCh z = true) ∧ (∀ z ∈ slice line 62 68, numCh z = true) ∧ (∀ z ∈ slice line 68 71, anyCh z = true) ∧ (∀ z ∈ slice line 71 77, anyCh z = true) ∧
    (∀ z ∈ slice line 77 80, anyCh z = true) := by
  simp only [radar1Tail, Mpc80.Layout.ok, Field.width, subsWidth, Sub.width, subsOk, Sub.ok, List.drop_drop, List.take_take, List.drop_take, slice, Nat.add_zero, Nat.reduceAdd, Nat.reduceSub, and_true, and_assoc,
    Nat.min_self]
  exact Iff.rfl

theorem radar2Tail_ok (line : Str) : Mpc80.Layout.ok radar2Tail (line.drop 32) ↔ (∀ z ∈ slice line 32 33, oneOf ['S', 'C'] z = true) ∧ (∀ z ∈ slice line 33 47, numCh z = true) ∧
    (∀ z ∈ slice line 47 62, numCh z = true) ∧ (∀ z ∈ slice line 62 68, numCh z = true) ∧ (∀ z ∈ slice line 68 71, anyCh z = true) ∧ (∀ z ∈ slice line 71 77, anyCh z = true) ∧
    (∀ z ∈ slice line 77 80, anyCh z = true) := by
  simp only [radar2Tail, Mpc80.Layout.ok, Field.width, subsWidth, Sub.width, subsOk, Sub.ok, List.drop_drop, List.take_take, List.drop_take, slice, Nat.add_zero, Nat.reduceAdd, Nat.reduceSub, and_true, and_assoc,
    Nat.min_self]

theorem packed_any (c : Char) (t : Str) : ∃ u, packSigned (c :: t) = .ok u := by
  simp [packSigned, charAt, bind, Except.bind, pure, Except.pure]

end RadarLines
open RadarLines
open Verif.Sex (checkDate)

/-- **C63.** Exactly the lines of Spec.Second are taken as first lines of radar observations, when no whole second is just half a unit of the date's last digit away. -/
theorem C63_first {line : Str} (hn : '\n' ∉ line) (hh : ¬ (cols line 1 3 ∈ headerKeys ∧ cols line 4 4 = c! " ")) (hc : cols line 15 15 = ['R']) (ht : ¬ RadarTie (cols line 16 32)) :
    (∃ item, decode80ColumnDataLine line = .ok item) ↔ RadarFirstColumns line := by
  rw [decoded hn hh hc]
  rw [cols_slice _ (by omega)] at ht
  have hdate := date_radar ht
  constructor
  · rintro ⟨hw, ret, item, hr, hcheck⟩
    have h15 := char_15 hw hc
    have hro : radar1L.ok line ∧ decodeRadar1 (radar1L.caps line) = .ok ret := by
      rcases (decodeColumns_ok hw).1 hr with ⟨h, -⟩ | h | ⟨h, -⟩ | ⟨h, -⟩ | ⟨h, -⟩
      · exact absurd (normal_code h h15) (by decide)
      · exact h
      · exact absurd (radar2_code h h15) (by decide)
      · exact absurd (sat_code h h15) (by decide)
      · exact absurd (rover_code h h15) (by decide)
    obtain ⟨hok, hR⟩ := hro
    obtain ⟨sh, -, rfl⟩ := decodeRadar1_ok.1 hR
    have hf := front_of hw hok (radar1_read line sh) hcheck (fun x hx => hdate.1 ⟨x, hx⟩)
    obtain ⟨-, -, -, -, -, -, -, -, htail⟩ := (common_ok _ _ _).1 hok
    obtain ⟨a1, a2, a3, a4, -⟩ := (radar1Tail_ok line).1 htail
    obtain ⟨x, hx, hx'⟩ := char_at hw (n := 47) (by omega)
    refine ⟨hf, hc, ?_, ⟨x, ?_, ?_⟩, ?_⟩
    · intro z hz; rw [cols_slice _ (by omega)] at hz; exact place_iff.1 (a1 z hz)
    · rw [cols_slice _ (by omega)]; exact hx'
    · exact (oneOf_iff _ _).1 (a2 x (by rw [hx']; simp))
    · intro z hz
      rw [cols_slice _ (by omega), ← slice_append line (a := 48) (b := 62) (c := 68) (by omega) (by omega), List.mem_append] at hz
      rcases hz with hz | hz
      · exact place_iff.1 (a3 z hz)
      · exact place_iff.1 (a4 z hz)
  · rintro ⟨hf, -, hdel, ⟨x, hx, hx'⟩, hshift⟩
    have hw := hf.width
    rw [cols_slice _ (by omega)] at hdel hx hshift
    rw [← slice_append line (a := 48) (b := 62) (c := 68) (by omega) (by omega)] at hshift
    have hl : radar1L.ok line := by
      refine front_ok (l := radar1Tail) hn radar_column hf hc (by decide) ((radar1Tail_ok line).2 ⟨fun z hz => place_iff.2 (hdel z hz), ?_, fun z hz => place_iff.2 (hshift z (List.mem_append_left _ hz)),
        fun z hz => place_iff.2 (hshift z (List.mem_append_right _ hz)), any_slice hn, any_slice hn, any_slice hn⟩)
      intro z hz
      rw [hx, List.mem_singleton] at hz
      exact (oneOf_iff _ _).2 (hz ▸ hx')
    have hsh : ∃ sh, (if strip (slice line 47 62) ≠ [] then packSigned (slice line 47 58 ++ ['.'] ++ slice line 58 62) else pure []) = .ok sh := by
      split
      · rw [← slice_append line (a := 47) (b := 48) (c := 58) (by omega) (by omega), hx]
        exact packed_any _ _
      · exact ⟨_, rfl⟩
    obtain ⟨sh, hsh⟩ := hsh
    have hD : ∀ t, t = slice line 15 32 ∧ RadarDate t → ∃ x, checkDate t true = .ok x := by
      rintro t ⟨rfl, hr⟩; exact hdate.2 hr
    have hf' : FrontColumns (fun t => t = slice line 15 32 ∧ RadarDate t) line :=
      ⟨hf.width, hf.desig, hf.disc, hf.note, by rw [cols_slice _ (by omega)], hf.date⟩
    obtain ⟨item, hi⟩ := checks_of hD hf' hc (by decide) (radar1_read line sh)
    exact ⟨hw, _, item, (decodeColumns_ok hw).2 (.inr (.inl ⟨hl, decodeRadar1_ok.2 ⟨sh, hsh, rfl⟩⟩)), hi⟩

/-- **C63.** And as second lines. -/
theorem C63_second {line : Str} (hn : '\n' ∉ line) (hh : ¬ (cols line 1 3 ∈ headerKeys ∧ cols line 4 4 = c! " ")) (hc : cols line 15 15 = ['r']) (ht : ¬ RadarTie (cols line 16 32)) :
    (∃ item, decode80ColumnDataLine line = .ok item) ↔ RadarSecondColumns line := by
  rw [decoded hn hh hc]
  rw [cols_slice _ (by omega)] at ht
  have hdate := date_radar ht
  constructor
  · rintro ⟨hw, ret, item, hr, hcheck⟩
    have h15 := char_15 hw hc
    have hro : radar2L.ok line ∧ ret = radar2Item line := by
      rcases (decodeColumns_ok hw).1 hr with ⟨h, -⟩ | ⟨h, -⟩ | h | ⟨h, -⟩ | ⟨h, -⟩
      · exact absurd (normal_code h h15) (by decide)
      · exact absurd (radar1_code h h15) (by decide)
      · exact h
      · exact absurd (sat_code h h15) (by decide)
      · exact absurd (rover_code h h15) (by decide)
    obtain ⟨hok, rfl⟩ := hro
    have hf := front_of hw hok (radar2_read line) hcheck (fun x hx => hdate.1 ⟨x, hx⟩)
    obtain ⟨-, -, -, -, -, -, -, -, htail⟩ := (common_ok _ _ _).1 hok
    obtain ⟨a1, a2, a3, a4, -⟩ := (radar2Tail_ok line).1 htail
    obtain ⟨x, hx, hx'⟩ := char_at hw (n := 32) (by omega)
    refine ⟨hf, hc, ⟨x, ?_, ?_⟩, ?_⟩
    · rw [cols_slice _ (by omega)]; exact hx'
    · exact (oneOf_iff _ _).1 (a1 x (by rw [hx']; simp))
    · intro z hz
      rw [cols_slice _ (by omega), ← slice_append line (a := 33) (b := 47) (c := 68) (by omega) (by omega), ← slice_append line (a := 47) (b := 62) (c := 68) (by omega) (by omega),
        List.mem_append, List.mem_append] at hz
      rcases hz with hz | hz | hz
      · exact place_iff.1 (a2 z hz)
      · exact place_iff.1 (a3 z hz)
      · exact place_iff.1 (a4 z hz)
  · rintro ⟨hf, -, ⟨x, hx, hx'⟩, hnum⟩
    have hw := hf.width
    rw [cols_slice _ (by omega)] at hx hnum
    rw [← slice_append line (a := 33) (b := 47) (c := 68) (by omega) (by omega), ← slice_append line (a := 47) (b := 62) (c := 68) (by omega) (by omega)] at hnum
    have hl : radar2L.ok line := by
      refine front_ok (l := radar2Tail) hn radar_column hf hc (by decide) ((radar2Tail_ok line).2 ⟨?_, fun z hz => place_iff.2 (hnum z (List.mem_append_left _ hz)),
        fun z hz => place_iff.2 (hnum z (List.mem_append_right _ (List.mem_append_left _ hz))),
        fun z hz => place_iff.2 (hnum z (List.mem_append_right _ (List.mem_append_right _ hz))), any_slice hn, any_slice hn, any_slice hn⟩)
      intro z hz
      rw [hx, List.mem_singleton] at hz
      exact (oneOf_iff _ _).2 (hz ▸ hx')
    have hD : ∀ t, t = slice line 15 32 ∧ RadarDate t → ∃ x, checkDate t true = .ok x := by
      rintro t ⟨rfl, hr⟩; exact hdate.2 hr
    have hf' : FrontColumns (fun t => t = slice line 15 32 ∧ RadarDate t) line :=
      ⟨hf.width, hf.desig, hf.disc, hf.note, by rw [cols_slice _ (by omega)], hf.date⟩
    obtain ⟨item, hi⟩ := checks_of hD hf' hc (by decide) (radar2_read line)
    exact ⟨hw, _, item, (decodeColumns_ok hw).2 (.inr (.inr (.inl ⟨hl, rfl⟩))), hi⟩

namespace RadarLines

theorem checks_refuse {line : Str} (hw : line.length = 80) {ret : Mpc80.Item} (hr : Read true line ret) {e : PyErr} (h : decodeChecks ret = .error e) :
    e = .runtimeError ∨ (e = .valueError ∧ NoSuchDay (cols line 16 32)) ∨ (e = .overflowError ∧ LastHalfSecond (cols line 16 32)) := by
  obtain ⟨c71, hc71, -⟩ := char_at hw (n := 71) (by omega)
  have h71 : slice line 71 77 = c71 :: slice line 72 77 := by
    rw [← slice_append line (a := 71) (b := 72) (c := 77) (by omega) (by omega), one_col hc71]; rfl
  rw [cols_slice _ (by omega)]
  cases hT : checkDate (slice line 15 32) true with
  | error e' =>
    have hd : decodeChecks ret = .error e' := by
      unfold decodeChecks putDate
      rw [str_ok.2 hr.date, hr.trx]
      simp only [bind, Except.bind, hT]
    rw [hd] at h
    injection h with h
    subst h
    exact Sex.radar_error (by simp [slice]) hT
  | ok x =>
    obtain ⟨t, p⟩ := x
    left
    exact checks_error hr.date (by rw [hr.trx]; exact hT) hr.code hr.stn hr.notes (by rw [hr.ref, h71]) hr.id h

end RadarLines

/-- **C63.** Every line with one of these letters that is not decoded raises RuntimeError, which `parseFile` turns into a message - or ValueError, and then its date is one that does not exist,
    or OverflowError, and then its date is in the last half second of the year 9999. -/
theorem C63_refused {line : Str} (hn : '\n' ∉ line) (hh : ¬ (cols line 1 3 ∈ headerKeys ∧ cols line 4 4 = c! " ")) {c : Char} (hc : cols line 15 15 = [c]) (hcs : c = 'R' ∨ c = 'r')
    {e : PyErr} (hd : decode80ColumnDataLine line = .error e) :
    e = .runtimeError ∨ (e = .valueError ∧ NoSuchDay (cols line 16 32)) ∨ (e = .overflowError ∧ LastHalfSecond (cols line 16 32)) := by
  have rt : ∀ {α : Type}, (raiseRT : Py α) = .error e → e = .runtimeError := fun h => by injection h with h; exact h.symm
  have hne : line ≠ [] := by rintro rfl; simp [cols] at hc
  unfold decode80ColumnDataLine at hd
  rw [if_neg hne, not_header hn hh] at hd
  split at hd
  · exact .inl (rt hd)
  simp only at hd
  split at hd
  · exact .inl (rt hd)
  rename_i hw
  simp only [ne_eq, not_not] at hw
  have h15 := char_15 hw hc
  have no : ∀ c', c = c' → c' ≠ 'R' → c' ≠ 'r' → False := fun c' h h1 h2 => by
    subst h
    rcases hcs with h | h
    · exact h1 h
    · exact h2 h
  have hnorm : ¬ normalL.ok line := fun h => by
    have := normal_code h h15
    rcases hcs with rfl | rfl <;> revert this <;> decide
  rw [decodeColumns_eq hw, if_neg hnorm] at hd
  by_cases h1 : radar1L.ok line
  · rw [if_pos h1] at hd
    cases hS : decodeRadar1 (radar1L.caps line) with
    | error e' =>
      exfalso
      obtain ⟨c47, hc47, -⟩ := char_at hw (n := 47) (by omega)
      have hsh : ∃ sh, (if strip (slice line 47 62) ≠ [] then packSigned (slice line 47 58 ++ ['.'] ++ slice line 58 62) else pure []) = .ok sh := by
        split
        · rw [← slice_append line (a := 47) (b := 48) (c := 58) (by omega) (by omega), one_col hc47]
          exact packed_any _ _
        · exact ⟨_, rfl⟩
      obtain ⟨sh, hsh⟩ := hsh
      have hok := decodeRadar1_ok.2 ⟨sh, hsh, rfl⟩
      rw [hok] at hS; cases hS
    | ok ret =>
      rw [hS] at hd
      obtain ⟨sh, -, rfl⟩ := decodeRadar1_ok.1 hS
      exact RadarLines.checks_refuse hw (radar1_read line sh) hd
  · rw [if_neg h1] at hd
    by_cases h2 : radar2L.ok line
    · rw [if_pos h2] at hd
      exact RadarLines.checks_refuse hw (radar2_read line) hd
    · rw [if_neg h2, if_neg (fun h => no _ (sat_code h h15) (by decide) (by decide)), if_neg (fun h => no _ (rover_code h h15) (by decide) (by decide))] at hd
      exact .inl (rt hd)

namespace SampleRadarLines
/-- the last half second of 9999: OverflowError, which `parseFile` does not expect -/
theorem last_half : decode80ColumnDataLine (c! "     K16Q01A  R9999 12 31.999999" ++ c! "  1234567 89.01+  1234567  .890 2380251JPLRS 253") = .error .overflowError ∧ LastHalfSecond (c! "9999 12 31.999999") := by
  refine ⟨by decide +kernel, c! "9999", c! "12", c! "31", c! "999999", ?_⟩
  unfold Unpacking.Digits
  decide +kernel
def first : Str := c! "     K16Q01A  R2016 08 29.500     1234567 89.01+  1234567  .890 2380251JPLRS 253"
def second : Str := c! "     K16Q01A  r2016 08 29.500   S  12 .345 6789      1.234   77     251JPLRS 253"
theorem decodes : first.length = 80 ∧ second.length = 80 ∧ (decode80ColumnDataLine first).toOption.isSome = true ∧ (decode80ColumnDataLine second).toOption.isSome = true := by decide +kernel
/-- the columns of the first line -/
theorem observed : RadarFirstColumns first := by
  refine (C63_first (by decide) (by decide) (by decide) (fun h => absurd (tie_wide h) (by decide))).1 ?_
  have h := decodes.2.2.1
  cases hd : decode80ColumnDataLine first with
  | ok item => exact ⟨item, rfl⟩
  | error e => rw [hd] at h; cases h
/-- and of the second -/
theorem observed2 : RadarSecondColumns second := by
  refine (C63_second (by decide) (by decide) (by decide) (fun h => absurd (tie_wide h) (by decide))).1 ?_
  have h := decodes.2.2.2
  cases hd : decode80ColumnDataLine second with
  | ok item => exact ⟨item, rfl⟩
  | error e => rw [hd] at h; cases h
/-- 26.9568 seconds: the time of 27 seconds is 0.0432 seconds later, half a unit of the sixth digit -/
theorem tie : RadarTie (c! "2016 08 29.000312") := by
  refine ⟨⟨2016, 8, 29, 6, 312⟩, by unfold ObsDate.Valid; decide +kernel, by decide +kernel, by decide, 27, by decide, .inl ?_⟩
  unfold halfUnit ObsDate.seconds
  norm_num
end SampleRadarLines

end Verif
