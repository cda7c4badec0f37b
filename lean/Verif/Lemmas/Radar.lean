import Verif.Lemmas.Mpc80Second
import Verif.Props.ObsDate
import Verif.Props.Mpc80Optical
import Verif.Spec.Radar
/-
  Radar observations: the two lines read.
-/
namespace Verif.Mpc80
open Verif Verif.PackUtil Verif.Spec.Mpc80 Verif.Spec Verif.Xml

/-! ### the columns -/

def radarRest1 (r : Radar) : Str := r.delay ++ r.doppler ++ r.frq ++ r.trx ++ r.ref ++ r.rcv
def radarRest2 (r : Radar) : Str := [if r.com then 'C' else 'S'] ++ r.rmsDelay ++ r.rmsDoppler ++ r.frq2 ++ r.trx ++ r.ref2 ++ r.rcv

theorem radar_first (r : Radar) : r.first = dataLine r.desig r.disc r.note 'R' r.date (radarRest1 r) := by
  simp only [Radar.first, dataLine, radarRest1, List.append_assoc]
theorem radar_second (r : Radar) : r.second = dataLine r.desig r.disc2 r.note2 'r' r.date (radarRest2 r) := by
  simp only [Radar.second, dataLine, radarRest2, List.append_assoc]

theorem doppler_length {r : Radar} (h : r.Valid) : r.doppler.length = 15 := by
  obtain ⟨⟨h1, _⟩, c, _, h3⟩ := h.doppler
  cases hd : r.doppler with
  | nil => rw [hd] at h3; simp at h3
  | cons x t => rw [hd] at h1; simpa using h1

/-- columns 33-80 of the first line -/
structure Radar1Parts (r : Radar) (t : Str) : Prop where
  len : t.length = 48
  delay : slice t 0 15 = r.delay
  doppler : slice t 15 30 = r.doppler
  frq : slice t 30 36 = r.frq
  trx : slice t 36 39 = r.trx
  ref : slice t 39 45 = r.ref
  rcv : slice t 45 48 = r.rcv

theorem radar1_parts {r : Radar} (h : r.Valid) : Radar1Parts r (radarRest1 r) := by
  have l1 := h.delay.1
  have l2 := doppler_length h
  have l3 := h.frq.1
  have l4 := h.trx.1
  have l5 := h.ref.1
  have l6 := h.rcv.1
  unfold radarRest1
  generalize ha1 : r.delay = a1 at *
  generalize ha2 : r.doppler = a2 at *
  generalize ha3 : r.frq = a3 at *
  generalize ha4 : r.trx = a4 at *
  generalize ha5 : r.ref = a5 at *
  generalize ha6 : r.rcv = a6 at *
  have key : ∀ (pre mid post : Str) (i j : Nat), a1 ++ a2 ++ a3 ++ a4 ++ a5 ++ a6 = pre ++ (mid ++ post) →
      pre.length = i → mid.length = j - i → slice (a1 ++ a2 ++ a3 ++ a4 ++ a5 ++ a6) i j = mid := by
    intro pre mid post i j h1 h2 h3
    rw [h1]; exact slice_part h2 h3
  constructor
  · simp [*]
  · rw [ha1]; exact key [] a1 _ 0 15 (by simp only [List.append_assoc, List.nil_append]; rfl) (by simp) (by simp [*])
  · rw [ha2]; exact key a1 a2 _ 15 30 (by simp only [List.append_assoc]; rfl) (by simp [*]) (by simp [*])
  · rw [ha3]; exact key (a1 ++ a2) a3 _ 30 36 (by simp only [List.append_assoc]; rfl) (by simp [*]) (by simp [*])
  · rw [ha4]; exact key (a1 ++ a2 ++ a3) a4 _ 36 39 (by simp only [List.append_assoc]; rfl) (by simp [*]) (by simp [*])
  · rw [ha5]; exact key (a1 ++ a2 ++ a3 ++ a4) a5 _ 39 45 (by simp only [List.append_assoc]; rfl) (by simp [*]) (by simp [*])
  · rw [ha6]; exact key (a1 ++ a2 ++ a3 ++ a4 ++ a5) a6 [] 45 48 (by simp only [List.append_assoc, List.append_nil]) (by simp [*]) (by simp [*])

/-- columns 33-80 of the second line -/
structure Radar2Parts (r : Radar) (t : Str) : Prop where
  len : t.length = 48
  com : slice t 0 1 = [if r.com then 'C' else 'S']
  rmsDelay : slice t 1 15 = r.rmsDelay
  rmsDoppler : slice t 15 30 = r.rmsDoppler
  frq : slice t 30 36 = r.frq2
  trx : slice t 36 39 = r.trx
  ref : slice t 39 45 = r.ref2
  rcv : slice t 45 48 = r.rcv

theorem radar2_parts {r : Radar} (h : r.Valid) : Radar2Parts r (radarRest2 r) := by
  have l1 := h.rmsDelay.1
  have l2 := h.rmsDoppler.1
  have l3 := h.frq2.1
  have l4 := h.trx.1
  have l5 := h.ref2.1
  have l6 := h.rcv.1
  unfold radarRest2
  generalize ha0 : (if r.com then 'C' else 'S') = u at *
  generalize ha1 : r.rmsDelay = a1 at *
  generalize ha2 : r.rmsDoppler = a2 at *
  generalize ha3 : r.frq2 = a3 at *
  generalize ha4 : r.trx = a4 at *
  generalize ha5 : r.ref2 = a5 at *
  generalize ha6 : r.rcv = a6 at *
  have key : ∀ (pre mid post : Str) (i j : Nat), [u] ++ a1 ++ a2 ++ a3 ++ a4 ++ a5 ++ a6 = pre ++ (mid ++ post) →
      pre.length = i → mid.length = j - i → slice ([u] ++ a1 ++ a2 ++ a3 ++ a4 ++ a5 ++ a6) i j = mid := by
    intro pre mid post i j h1 h2 h3
    rw [h1]; exact slice_part h2 h3
  constructor
  · simp [*]
  · rw [ha0]; exact key [] [u] _ 0 1 (by simp only [List.append_assoc, List.nil_append]; rfl) (by simp) (by simp [*])
  · rw [ha1]; exact key [u] a1 _ 1 15 (by simp only [List.append_assoc]; rfl) (by simp [*]) (by simp [*])
  · rw [ha2]; exact key ([u] ++ a1) a2 _ 15 30 (by simp only [List.append_assoc]; rfl) (by simp [*]) (by simp [*])
  · rw [ha3]; exact key ([u] ++ a1 ++ a2) a3 _ 30 36 (by simp only [List.append_assoc]; rfl) (by simp [*]) (by simp [*])
  · rw [ha4]; exact key ([u] ++ a1 ++ a2 ++ a3) a4 _ 36 39 (by simp only [List.append_assoc]; rfl) (by simp [*]) (by simp [*])
  · rw [ha5]; exact key ([u] ++ a1 ++ a2 ++ a3 ++ a4) a5 _ 39 45 (by simp only [List.append_assoc]; rfl) (by simp [*]) (by simp [*])
  · rw [ha6]; exact key ([u] ++ a1 ++ a2 ++ a3 ++ a4 ++ a5) a6 [] 45 48 (by simp only [List.append_assoc, List.append_nil]) (by simp [*]) (by simp [*])

/-! ### characters -/

theorem noteAt_ok {stn : Str} {c : Char} (h : noteAt stn c) : noteOk stn [c] ∧ (isSpace c = false ∨ c = ' ') := by
  unfold noteAt at h
  by_cases hu : stn ∈ programCodeSites
  · rw [if_pos hu] at h
    have q : programLetters.all (fun c => isSpace c == false && decide (c ∈ validProgramCodes)) = true := by decide +kernel
    rcases h with rfl | h
    · exact ⟨⟨Or.inl hu, by decide⟩, Or.inr rfl⟩
    · have := all_mem q h
      simp only [Bool.and_eq_true, beq_iff_eq, decide_eq_true_eq] at this
      exact ⟨⟨Or.inl hu, (inStr_one _ _).2 this.2⟩, Or.inl this.1⟩
  · rw [if_neg hu] at h
    have q : noteLetters.all (fun c => (isSpace c == false || decide (c = ' ')) && decide (c ∈ validProgramCodes) && decide (c ∈ validNotes)) = true := by decide +kernel
    have := all_mem q h
    simp only [Bool.and_eq_true, Bool.or_eq_true, beq_iff_eq, decide_eq_true_eq] at this
    obtain ⟨⟨h1, h2⟩, h3⟩ := this
    exact ⟨⟨Or.inr ((inStr_one _ _).2 h3), (inStr_one _ _).2 h2⟩, h1⟩

theorem noteAt_ne {stn : Str} {c : Char} (h : noteAt stn c) {b : Char} (hb : b = '\n' ∨ b = '\r') : c ≠ b := by
  rintro rfl
  rcases (noteAt_ok h).2 with h | h
  · rcases hb with rfl | rfl <;> revert h <;> decide
  · rcases hb with rfl | rfl <;> revert h <;> decide

theorem digits_num {w : Nat} {t : Str} (h : Digits w t) : ∀ c ∈ t, numCh c = true := by
  intro c hc
  have : ∀ c ∈ c! "0123456789 .", numCh c = true := by decide
  exact this c (h.2 c hc)

theorem digits_plain {w : Nat} {t : Str} (h : Digits w t) : Plain t := by
  intro c hc
  have : ∀ c ∈ c! "0123456789 .", isSpace c = true → c = ' ' := by decide
  exact this c (h.2 c hc)

theorem nospace_any {t : Str} (h : ∀ c ∈ t, isSpace c = false) : ∀ c ∈ t, anyCh c = true := fun c hc => any_ne (ne_nl_of (Or.inr (h c hc)))

theorem plain_ne {t : Str} (h : Plain t) {b : Char} (hb : b = '\n' ∨ b = '\r') : b ∉ t := by
  intro hm
  have := h b hm (by rcases hb with rfl | rfl <;> decide)
  rcases hb with rfl | rfl <;> revert this <;> decide
theorem nospace_ne {t : Str} (h : ∀ c ∈ t, isSpace c = false) {b : Char} (hb : b = '\n' ∨ b = '\r') : b ∉ t := by
  intro hm
  have := h b hm
  rcases hb with rfl | rfl <;> revert this <;> decide

theorem doppler_plain {r : Radar} (h : r.Valid) : Plain r.doppler := by
  obtain ⟨h1, c, h2, h3⟩ := h.doppler
  cases hd : r.doppler with
  | nil => intro c hc; simp at hc
  | cons x t =>
    rw [hd] at h1 h3
    simp only [List.head?_cons, Option.some.injEq] at h3
    subst h3
    intro y hy hs
    rcases List.mem_cons.1 hy with rfl | hy
    · have : ∀ c ∈ [' ', '+', '-'], isSpace c = true → c = ' ' := by decide
      exact this _ h2 hs
    · exact digits_plain h1 y hy hs

/-! ### the lines match their formats -/

theorem radar1_ok {r : Radar} (h : r.Valid) : radar1L.ok r.first := by
  have p := radar1_parts h
  rw [radar_first]
  unfold radar1L
  refine head_ok h.desig h.noExt.1 h.noExt.2 h.date h.disc.1 (noteAt_ne h.note.1 (Or.inl rfl)) (by decide) ?_
  generalize hr : radarRest1 r = t at p
  simp only [Layout.ok, Field.width, subsWidth, Sub.width, subsOk, Sub.ok, Nat.add_zero, and_true, List.drop_drop, List.take_take, List.drop_take]
  simp only [Nat.reduceAdd, Nat.reduceSub, Nat.min_self]
  have g : ∀ i n : Nat, List.take n (List.drop i t) = slice t i (i + n) := by intro i n; simp [slice]
  have g0 : List.take 15 t = slice t 0 15 := by simp [slice]
  refine ⟨?_, ⟨?_, ?_⟩, ?_, ?_, ?_, ?_⟩
  · rw [g0, p.delay]; exact digits_num h.delay
  · have e : List.take (min 1 15) (List.drop 15 t) = (slice t 15 30).take 1 := by simp [slice, List.take_take]
    rw [e, p.doppler]
    obtain ⟨_, c, h2, h3⟩ := h.doppler
    cases hd : r.doppler with
    | nil => simp
    | cons x t =>
      rw [hd] at h3
      simp only [List.head?_cons, Option.some.injEq] at h3
      subst h3
      intro y hy
      simp at hy
      subst hy
      exact (oneOf_iff _ _).2 h2
  · have e : List.take 14 (List.drop 16 t) = (slice t 15 30).drop 1 := by simp [slice, List.drop_take]
    rw [e, p.doppler]
    exact digits_num h.doppler.1
  · rw [g, p.frq]; exact digits_num h.frq
  · rw [g, p.trx]; exact nospace_any h.trx.2
  · rw [g, p.ref]; exact fun c hc => any_ne fun e => plain_ne h.ref.2 (Or.inl rfl) (e ▸ hc)
  · rw [g, p.rcv]; exact nospace_any h.rcv.2

theorem radar2_ok {r : Radar} (h : r.Valid) : radar2L.ok r.second := by
  have p := radar2_parts h
  rw [radar_second]
  unfold radar2L
  refine head_ok h.desig h.noExt.1 h.noExt.2 h.date h.disc.2 (noteAt_ne h.note.2 (Or.inl rfl)) (by decide) ?_
  generalize hr : radarRest2 r = t at p
  simp only [Layout.ok, Field.width, subsWidth, Sub.width, subsOk, Sub.ok, Nat.add_zero, and_true, List.drop_drop, List.take_take, List.drop_take]
  simp only [Nat.reduceAdd, Nat.reduceSub, Nat.min_self]
  have g : ∀ i n : Nat, List.take n (List.drop i t) = slice t i (i + n) := by intro i n; simp [slice]
  have g0 : List.take 1 t = slice t 0 1 := by simp [slice]
  refine ⟨?_, ?_, ?_, ?_, ?_, ?_, ?_⟩
  · rw [g0, p.com]; cases r.com <;> decide
  · rw [g, p.rmsDelay]; exact digits_num h.rmsDelay
  · rw [g, p.rmsDoppler]; exact digits_num h.rmsDoppler
  · rw [g, p.frq]; exact digits_num h.frq2
  · rw [g, p.trx]; exact nospace_any h.trx.2
  · rw [g, p.ref]; exact fun c hc => any_ne fun e => h.ref2.2.1 (e ▸ hc)
  · rw [g, p.rcv]; exact nospace_any h.rcv.2

theorem radar1_noBreak {r : Radar} (h : r.Valid) {b : Char} (hb : b = '\n' ∨ b = '\r') : b ∉ r.first := by
  have hd := head_noBreak (disc := r.disc) (code := 'R') h.desig h.noExt.1 h.noExt.2 h.date h.disc.1 hb (noteAt_ne h.note.1 hb) (by rcases hb with rfl | rfl <;> decide)
  rw [radar_first]
  unfold dataLine radarRest1
  rw [List.mem_append, not_or]
  refine ⟨hd, ?_⟩
  simp only [List.mem_append, not_or]
  exact ⟨⟨⟨⟨⟨plain_ne (digits_plain h.delay) hb, plain_ne (doppler_plain h) hb⟩, plain_ne (digits_plain h.frq) hb⟩, nospace_ne h.trx.2 hb⟩, plain_ne h.ref.2 hb⟩, nospace_ne h.rcv.2 hb⟩

theorem radar2_noBreak {r : Radar} (h : r.Valid) {b : Char} (hb : b = '\n' ∨ b = '\r') : b ∉ r.second := by
  have hd := head_noBreak (disc := r.disc2) (code := 'r') h.desig h.noExt.1 h.noExt.2 h.date h.disc.2 hb (noteAt_ne h.note.2 hb) (by rcases hb with rfl | rfl <;> decide)
  rw [radar_second]
  unfold dataLine radarRest2
  rw [List.mem_append, not_or]
  refine ⟨hd, ?_⟩
  simp only [List.mem_append, not_or, List.mem_singleton]
  refine ⟨⟨⟨⟨⟨⟨?_, plain_ne (digits_plain h.rmsDelay) hb⟩, plain_ne (digits_plain h.rmsDoppler) hb⟩, plain_ne (digits_plain h.frq2) hb⟩, nospace_ne h.trx.2 hb⟩, ?_⟩, nospace_ne h.rcv.2 hb⟩
  · rcases hb with rfl | rfl <;> cases r.com <;> decide
  · rcases hb with rfl | rfl
    · exact h.ref2.2.1
    · exact h.ref2.2.2

/-! ### the date -/

theorem radar_date {r : Radar} (h : r.Valid) : Sex.checkDate r.date.column true = .ok (r.time, .int (10 ^ (6 - r.date.digits))) := by
  obtain ⟨hlt, h1, h2⟩ := h.whole
  have hpos : (0 : ℚ) < 10 ^ r.date.digits := by positivity
  have hle : |((nearestSecond r.date : Nat) : ℚ) - r.date.seconds| ≤ 1 / 2 := by
    have hN : 0 < 10 ^ r.date.digits := by positivity
    generalize hD : 10 ^ r.date.digits = D at *
    have e : r.date.seconds = (r.date.frac : ℚ) * 86400 / D := by
      unfold ObsDate.seconds
      have : ((10 : ℚ) ^ r.date.digits) = (D : ℚ) := by rw [← hD]; push_cast; rfl
      simp [hD]
      ring
    have hns : nearestSecond r.date = (2 * r.date.frac * 86400 + D) / (2 * D) := by unfold nearestSecond; rw [hD]
    have d1 : (2 * D) * nearestSecond r.date ≤ 2 * r.date.frac * 86400 + D := by rw [hns]; exact Nat.mul_div_le _ _
    have d2 : 2 * r.date.frac * 86400 + D < (2 * D) * (nearestSecond r.date + 1) := by rw [hns]; exact Nat.lt_mul_div_succ _ (by omega)
    have d1' : (2 * (D : ℚ)) * nearestSecond r.date ≤ 2 * r.date.frac * 86400 + D := by exact_mod_cast d1
    have d2' : 2 * (r.date.frac : ℚ) * 86400 + D < (2 * D) * (nearestSecond r.date + 1) := by exact_mod_cast d2
    have hDq : (0 : ℚ) < D := by exact_mod_cast hN
    rw [e, abs_le]
    constructor
    · rw [neg_le_sub_iff_le_add, div_le_iff₀ hDq]; nlinarith
    · rw [sub_le_iff_le_add, ← sub_le_iff_le_add', le_div_iff₀ hDq]; nlinarith
  refine (C32_radar r.date h.date (nearestSecond r.date) hle hlt).1 ?_
  rw [← abs_of_pos hpos, ← abs_mul, abs_lt]
  rw [show ((10 ^ r.date.digits : Nat) : ℚ) = (10 : ℚ) ^ r.date.digits by push_cast; rfl] at h1 h2
  have e4 : (1 : ℚ) / 10 ^ 4 = 1 / 10000 := by norm_num
  rw [e4]
  constructor <;> nlinarith

/-! ### the lines decoded -/

theorem withPoint_plain {t : Str} (h : Plain t) (k : Nat) : Plain (withPoint k t) := by
  intro c hc hs
  simp only [withPoint, List.mem_append, List.mem_singleton] at hc
  rcases hc with (hc | rfl) | hc
  · exact h c (List.mem_of_mem_take hc) hs
  · revert hs; decide
  · exact h c (List.mem_of_mem_drop hc) hs

theorem shift_packed {r : Radar} (h : r.Valid) :
    (if strip r.doppler ≠ [] then packSigned (withPoint 11 r.doppler) else pure []) = .ok (signedNumber 11 r.doppler) := by
  have hp := doppler_plain h
  unfold signedNumber
  rw [strip_trim hp]
  by_cases ht : trim r.doppler = []
  · rw [if_neg (by simp [ht]), if_pos ht]; rfl
  · rw [if_pos ht, if_neg ht]
    obtain ⟨h1, c, h2, h3⟩ := h.doppler
    cases hd : r.doppler with
    | nil => rw [hd] at h3; simp at h3
    | cons x t =>
      rw [hd] at h3 hp
      simp only [List.head?_cons, Option.some.injEq] at h3
      subst h3
      have hw : withPoint 11 (x :: t) = x :: withPoint 10 t := by simp [withPoint]
      have hpt : Plain (withPoint 10 t) := withPoint_plain (Plain.sub hp fun y hy => by simp [hy]) _
      rw [hw]
      simp only [packSigned, charAt, List.getElem?_cons_zero, bind, Except.bind, pure, Except.pure, List.drop_succ_cons, List.drop_zero, List.take_succ_cons, List.take_zero, strip_trim hpt]
      congr 1
      have h2' : x = ' ' ∨ x = '+' ∨ x = '-' := by simpa using h2
      rcases h2' with rfl | rfl | rfl <;> simp <;> rfl

/-- the item read from the first line -/
def radarItem1 (r : Radar) (c : Char) : Item :=
  checked (radar1Item r.first (signedNumber 11 r.doppler)) r.time (.int (10 ^ (6 - r.date.digits))) c ⟨r.desig.permText, r.desig.provText, trkRead r.desig⟩
/-- the item read from the second line -/
def radarItem2 (r : Radar) (c : Char) : Item :=
  checked (radar2Item r.second) r.time (.int (10 ^ (6 - r.date.digits))) c ⟨r.desig.permText, r.desig.provText, trkRead r.desig⟩

/-- the first line by columns -/
structure Radar1Cols (r : Radar) (s : Str) : Prop where
  len : s.length = 80
  id : slice s 0 12 = r.desig.columns
  disc : slice s 12 13 = [r.disc]
  note : slice s 13 14 = [r.note]
  code : slice s 14 15 = ['R']
  date : slice s 15 32 = r.date.column
  delay : slice s 32 47 = r.delay
  delay1 : slice s 32 37 ++ ['.'] ++ slice s 37 47 = withPoint 5 r.delay
  doppler : slice s 47 62 = r.doppler
  doppler1 : slice s 47 58 ++ ['.'] ++ slice s 58 62 = withPoint 11 r.doppler
  frq1 : slice s 62 67 ++ ['.'] ++ slice s 67 68 = withPoint 5 r.frq
  trx : slice s 68 71 = r.trx
  ref : slice s 71 77 = r.ref
  rcv : slice s 77 80 = r.rcv

theorem point_slice {s u : Str} {a b k : Nat} (h : slice s a b = u) (hk : a + k ≤ b) : slice s a (a + k) ++ ['.'] ++ slice s (a + k) b = withPoint k u := by
  subst h
  unfold withPoint
  rw [drop_slice, ← slice_slice s hk]
  simp [slice]

theorem radar1_cols {r : Radar} (h : r.Valid) : Radar1Cols r r.first := by
  have p := radar1_parts h
  have q := head_parts (disc := r.disc) (note := r.note) (code := 'R') (rest := radarRest1 r) h.desig h.date
  have hl := dataLine_length (disc := r.disc) (note := r.note) (code := 'R') h.desig h.date p.len
  have sl : ∀ i j, 32 ≤ i → slice r.first i j = slice (radarRest1 r) (i - 32) (j - 32) := fun i j hi => by rw [radar_first]; exact dataLine_slice h.desig h.date hi
  rw [← radar_first] at q hl
  have e1 : slice r.first 32 47 = r.delay := by rw [sl 32 47 (by omega)]; exact p.delay
  have e2 : slice r.first 47 62 = r.doppler := by rw [sl 47 62 (by omega)]; exact p.doppler
  have e3 : slice r.first 62 68 = r.frq := by rw [sl 62 68 (by omega)]; exact p.frq
  refine ⟨hl, q.id, q.disc, q.note, q.code, q.date, e1, point_slice e1 (k := 5) (by omega), e2, point_slice e2 (k := 11) (by omega), point_slice e3 (k := 5) (by omega), ?_, ?_, ?_⟩
  · rw [sl 68 71 (by omega)]; exact p.trx
  · rw [sl 71 77 (by omega)]; exact p.ref
  · rw [sl 77 80 (by omega)]; exact p.rcv

/-- the second line by columns -/
structure Radar2Cols (r : Radar) (s : Str) : Prop where
  len : s.length = 80
  id : slice s 0 12 = r.desig.columns
  note : slice s 13 14 = [r.note2]
  code : slice s 14 15 = ['r']
  date : slice s 15 32 = r.date.column
  com : slice s 32 33 = [if r.com then 'C' else 'S']
  rmsDelay : slice s 33 47 = r.rmsDelay
  rmsDelay1 : slice s 33 43 ++ ['.'] ++ slice s 43 47 = withPoint 10 r.rmsDelay
  rmsDoppler : slice s 47 62 = r.rmsDoppler
  rmsDoppler1 : slice s 47 58 ++ ['.'] ++ slice s 58 62 = withPoint 11 r.rmsDoppler
  trx : slice s 68 71 = r.trx
  ref : slice s 71 77 = r.ref2
  rcv : slice s 77 80 = r.rcv

theorem radar2_cols {r : Radar} (h : r.Valid) : Radar2Cols r r.second := by
  have p := radar2_parts h
  have q := head_parts (disc := r.disc2) (note := r.note2) (code := 'r') (rest := radarRest2 r) h.desig h.date
  have hl := dataLine_length (disc := r.disc2) (note := r.note2) (code := 'r') h.desig h.date p.len
  have sl : ∀ i j, 32 ≤ i → slice r.second i j = slice (radarRest2 r) (i - 32) (j - 32) := fun i j hi => by rw [radar_second]; exact dataLine_slice h.desig h.date hi
  rw [← radar_second] at q hl
  have e1 : slice r.second 33 47 = r.rmsDelay := by rw [sl 33 47 (by omega)]; exact p.rmsDelay
  have e2 : slice r.second 47 62 = r.rmsDoppler := by rw [sl 47 62 (by omega)]; exact p.rmsDoppler
  refine ⟨hl, q.id, q.note, q.code, q.date, ?_, e1, point_slice e1 (k := 10) (by omega), e2, point_slice e2 (k := 11) (by omega), ?_, ?_, ?_⟩
  · rw [sl 32 33 (by omega)]; exact p.com
  · rw [sl 68 71 (by omega)]; exact p.trx
  · rw [sl 71 77 (by omega)]; exact p.ref
  · rw [sl 77 80 (by omega)]; exact p.rcv

theorem decode_radar1 {r : Radar} (h : r.Valid) : ∃ c, decode80ColumnDataLine r.first = .ok (radarItem1 r c) := by
  have q := radar1_cols h
  have hcol : decodeColumns r.first = .ok (radar1Item r.first (signedNumber 11 r.doppler)) := by
    refine (decodeColumns_ok q.len).2 (Or.inr (Or.inl ⟨radar1_ok h, decodeRadar1_ok.2 ⟨_, ?_, rfl⟩⟩))
    rw [q.doppler, q.doppler1]; exact shift_packed h
  have hhd : reMatch headerRegex r.first = none := by
    have := radar1_noBreak h (Or.inl rfl)
    rw [radar_first] at this ⊢
    exact not_header h.desig h.noExt.1 h.noExt.2 this
  match hr : r.ref, h.ref.1 with
  | c :: cs, _ =>
    refine ⟨c, ?_⟩
    rw [decode_ok]
    refine Or.inr (Or.inr ⟨q.len, hhd, _, hcol, ?_⟩)
    have hu := unpack_valid h.desig
    refine decodeChecks_ok.2 ⟨r.date.column, r.time, _, ['R'], r.rcv, [r.note], c, cs, r.desig.columns, _, ?_, ?_, ?_, ?_, ?_, by decide, (noteAt_ok h.note.1).1, ?_, ?_, hu, rfl⟩
    · simp [radar1Item, commonItem, get?_put, q.date]
    · have : (Item.get? (radar1Item r.first (signedNumber 11 r.doppler)) (c! "trx")).isSome = true := by
        simp [radar1Item, commonItem, get?_put]
      rw [this]; exact radar_date h
    · simp [radar1Item, commonItem, get?_put, q.code]
    · simp [radar1Item, commonItem, get?_put, q.rcv]
    · simp [radar1Item, commonItem, get?_put, q.note]
    · simp [radar1Item, commonItem, get?_put, q.ref, hr]
    · simp [radar1Item, commonItem, get?_put, q.id]

theorem decode_radar2 {r : Radar} (h : r.Valid) : ∃ c, decode80ColumnDataLine r.second = .ok (radarItem2 r c) := by
  have q := radar2_cols h
  have hcol : decodeColumns r.second = .ok (radar2Item r.second) := (decodeColumns_ok q.len).2 (Or.inr (Or.inr (Or.inl ⟨radar2_ok h, rfl⟩)))
  have hhd : reMatch headerRegex r.second = none := by
    have := radar2_noBreak h (Or.inl rfl)
    rw [radar_second] at this ⊢
    exact not_header h.desig h.noExt.1 h.noExt.2 this
  match hr : r.ref2, h.ref2.1 with
  | c :: cs, _ =>
    refine ⟨c, ?_⟩
    rw [decode_ok]
    refine Or.inr (Or.inr ⟨q.len, hhd, _, hcol, ?_⟩)
    have hu := unpack_valid h.desig
    refine decodeChecks_ok.2 ⟨r.date.column, r.time, _, ['r'], r.rcv, [r.note2], c, cs, r.desig.columns, _, ?_, ?_, ?_, ?_, ?_, by decide, (noteAt_ok h.note.2).1, ?_, ?_, hu, rfl⟩
    · simp [radar2Item, commonItem, get?_put, q.date]
    · have : (Item.get? (radar2Item r.second) (c! "trx")).isSome = true := by
        simp [radar2Item, commonItem, get?_put]
      rw [this]; exact radar_date h
    · simp [radar2Item, commonItem, get?_put, q.code]
    · simp [radar2Item, commonItem, get?_put, q.rcv]
    · simp [radar2Item, commonItem, get?_put, q.note]
    · simp [radar2Item, commonItem, get?_put, q.ref, hr]
    · simp [radar2Item, commonItem, get?_put, q.id]

/-! ### the two lines combined -/

/-- what the second line adds -/
def radarItem (r : Radar) (c : Char) : Item :=
  ((((((((radarItem1 r c).put (c! "sc") [if r.com then 'C' else 'S']).put (c! "com") (if r.com then c! "1" else c! "0")).put
    (c! "rmsDelay") (if strip r.rmsDelay ≠ [] then withPoint 10 r.rmsDelay else [])).put (c! "rmsDoppler") (if strip r.rmsDoppler ≠ [] then withPoint 11 r.rmsDoppler else [])).put
    (c! "frq continuation") (slice r.second 62 68)).put (c! "rcv") r.rcv).put (c! "doppler") (signedNumber 11 r.doppler)).put (c! "ref") r.ref

theorem combine_R {a b : Item} {id date stn trx d1 d2 fc : Val} {com : Bool} {shift ref : Val}
    (a1 : a.get? (c! "totalid") = some id) (a2 : a.get? (c! "date") = some date) (a3 : a.get? (c! "stn") = some stn) (a4 : a.get? (c! "trx") = some trx)
    (b1 : b.get? (c! "totalid") = some id) (b2 : b.get? (c! "date") = some date) (b3 : b.get? (c! "stn") = some stn) (b4 : b.get? (c! "trx") = some trx)
    (b5 : b.get? (c! "sc") = some (.str [if com then 'C' else 'S'])) (b6 : b.get? (c! "delay uncertainty") = some d1) (b7 : b.get? (c! "shift uncertainty") = some d2)
    (b8 : b.get? (c! "frq continuation") = some fc) (a5 : a.get? (c! "shift") = some shift) (a6 : a.get? (c! "packedref") = some ref) :
    combine (c! "R") a b = .ok ((((((((a.put (c! "sc") [if com then 'C' else 'S']).put (c! "com") (if com then c! "1" else c! "0")).set (c! "rmsDelay") d1).set (c! "rmsDoppler") d2).set
      (c! "frq continuation") fc).set (c! "rcv") stn).set (c! "doppler") shift).set (c! "ref") ref) := by
  cases com <;>
  simp [combine, Item.get, a1, a2, a3, a4, b1, b2, b3, b4, b5, b6, b7, b8, a5, a6, bind, Except.bind, pure, Except.pure, get?_set, get?_put] <;> rfl

theorem combine_radars {r : Radar} (h : r.Valid) {c d : Char} : combine (c! "R") (radarItem1 r c) (radarItem2 r d) = .ok (radarItem r c) := by
  have p := radar1_cols h
  have q := radar2_cols h
  unfold radarItem
  refine combine_R (id := .str r.desig.columns) (date := .str r.date.column) (stn := .str r.rcv) (trx := .str r.trx) ?_ ?_ ?_ ?_ ?_ ?_ ?_ ?_ ?_ ?_ ?_ ?_ ?_ ?_
  all_goals first | unfold radarItem1 checked radar1Item | unfold radarItem2 checked radar2Item
  all_goals simp only [commonItem, get?_put, get?_set, p.id, p.date, p.rcv, p.trx, p.ref, q.id, q.date, q.rcv, q.trx, q.com, q.rmsDelay, q.rmsDelay1, q.rmsDoppler, q.rmsDoppler1]
  all_goals rfl

theorem item_code {r : Radar} (h : r.Valid) {c : Char} : (radarItem1 r c).get? (c! "code") = some (.str ['R']) ∧ (radarItem2 r c).get? (c! "code") = some (.str ['r']) ∧
    (radarItem r c).get? (c! "code") = some (.str ['R']) := by
  have p := radar1_cols h
  have q := radar2_cols h
  refine ⟨?_, ?_, ?_⟩
  · unfold radarItem1 checked radar1Item
    simp only [commonItem, get?_put, get?_set, p.code]; rfl
  · unfold radarItem2 checked radar2Item
    simp only [commonItem, get?_put, q.code]; rfl
  · unfold radarItem radarItem1 checked radar1Item
    simp only [commonItem, get?_put, get?_set, p.code]; rfl

/-! ### the element -/

/-- the values of the item among the allowed names -/
def radarPresent (r : Radar) : List (Str × Val) :=
  [(c! "permID", ofOpt r.desig.permText), (c! "provID", ofOpt r.desig.provText), (c! "trkSub", ofOpt (trkRead r.desig)), (c! "trx", .str (slice r.first 68 71)), (c! "rcv", .str r.rcv),
   (c! "obsTime", .str r.time), (c! "doppler", .str (signedNumber 11 r.doppler)), (c! "rmsDoppler", .str (if strip r.rmsDoppler ≠ [] then withPoint 11 r.rmsDoppler else [])),
   (c! "delay", .str (if strip (slice r.first 32 47) ≠ [] then slice r.first 32 37 ++ ['.'] ++ slice r.first 37 47 else [])),
   (c! "rmsDelay", .str (if strip r.rmsDelay ≠ [] then withPoint 10 r.rmsDelay else [])), (c! "com", .str (if r.com then c! "1" else c! "0")),
   (c! "frq", .str (slice r.first 62 67 ++ ['.'] ++ slice r.first 67 68)), (c! "ref", .str r.ref)]

theorem radar_present (r : Radar) (c : Char) : present Sample80.realAllowed.radar (radarItem r c) = radarPresent r := by
  unfold radarItem radarItem1 radarPresent
  generalize (if strip r.rmsDoppler ≠ [] then withPoint 11 r.rmsDoppler else []) = x1
  generalize (if strip r.rmsDelay ≠ [] then withPoint 10 r.rmsDelay else []) = x2
  generalize (if r.com then c! "1" else c! "0") = x3
  generalize signedNumber 11 r.doppler = x4
  generalize r.time = x5
  unfold radar1Item
  generalize (if strip (slice r.first 32 47) ≠ [] then slice r.first 32 37 ++ ['.'] ++ slice r.first 37 47 else []) = x6
  generalize (slice r.first 62 67 ++ ['.'] ++ slice r.first 67 68) = x7
  kernel_rfl

theorem number_shown {t : Str} (h : Plain t) (k : Nat) : shown (some (.str (if strip t ≠ [] then withPoint k t else []))) = number k t := by
  rw [shown_str, strip_trim h]
  unfold number
  by_cases ht : trim t = []
  · rw [if_neg (by simp [ht]), if_pos ht]; rfl
  · rw [if_pos ht, if_neg ht, strip_trim (withPoint_plain h k)]

theorem trim_point {t : Str} (h : '.' ∈ t) : trim t ≠ [] := by
  unfold trim
  intro e
  have e1 : ((t.dropWhile (· = ' ')).reverse).dropWhile (· = ' ') = [] := by simpa using e
  have all : ∀ l : Str, l.dropWhile (· = ' ') = [] → ∀ x ∈ l, x = ' ' := by
    intro l
    induction l with
    | nil => simp
    | cons a l ih =>
      intro hl
      rw [List.dropWhile_cons] at hl
      split at hl
      · rename_i ha
        intro x hx
        rcases List.mem_cons.1 hx with rfl | hx
        · simpa using ha
        · exact ih hl x hx
      · simp at hl
  replace e1 := all _ e1
  have h2 : '.' ∈ t.dropWhile (· = ' ') := by
    clear e e1
    induction t with
    | nil => simp at h
    | cons a t ih =>
      rw [List.dropWhile_cons]
      split
      · rename_i ha
        simp at ha
        subst ha
        exact ih (by simpa using h)
      · exact h
  have := e1 '.' (by simpa using h2)
  simp at this

theorem point_in (k : Nat) (t : Str) : '.' ∈ withPoint k t := by simp [withPoint]

theorem signed_shown {r : Radar} (h : r.Valid) : shown (some (.str (signedNumber 11 r.doppler))) = signedNumber 11 r.doppler := by
  rw [shown_str]
  have hp := doppler_plain h
  unfold signedNumber
  split
  · rfl
  · obtain ⟨h1, c, h2, h3⟩ := h.doppler
    cases hd : r.doppler with
    | nil => rw [hd] at h3; simp at h3
    | cons x t =>
      rw [hd] at h3 hp
      simp only [List.head?_cons, Option.some.injEq] at h3
      subst h3
      have hw : withPoint 11 (x :: t) = x :: withPoint 10 t := by simp [withPoint]
      have hpt : Plain (withPoint 10 t) := withPoint_plain (Plain.sub hp fun y hy => by simp [hy]) _
      rw [hw]
      simp only [List.drop_succ_cons, List.drop_zero, List.take_succ_cons, List.take_zero]
      rw [← strip_trim hpt]
      have hne : strip (withPoint 10 t) ≠ [] := by rw [strip_trim hpt]; exact trim_point (point_in _ _)
      have hend := Psv.strip_ends (withPoint 10 t)
      have h2' : x = ' ' ∨ x = '+' ∨ x = '-' := by simpa using h2
      have hs : ∀ s : Char, isSpace s = false → strip ([s] ++ strip (withPoint 10 t)) = [s] ++ strip (withPoint 10 t) := by
        intro s hs
        refine strip_of_ends ?_ ?_
        · intro y hy; simp at hy; subst hy; exact hs
        · intro y hy
          rw [List.getLast?_append] at hy
          cases hl : (strip (withPoint 10 t)).getLast? with
          | none => rw [List.getLast?_eq_none_iff] at hl; exact absurd hl hne
          | some z =>
            rw [hl] at hy
            simp at hy
            subst hy
            exact hend.2 z (by rw [hl]; rfl)
      rcases h2' with rfl | rfl | rfl
      · have e : trim [' '] = [] := rfl
        rw [e, List.nil_append]; exact strip_of_ends hend.1 hend.2
      · have e : trim ['+'] = ['+'] := rfl
        rw [e]; exact hs _ rfl
      · have e : trim ['-'] = ['-'] := rfl
        rw [e]; exact hs _ rfl

theorem radar_elements {r : Radar} (h : r.Valid) (c : Char) : itemElements Sample80.realAllowed.radar (radarItem r c) = r.values r.time := by
  have p := radar1_cols h
  rw [itemElements_present, radar_present]
  unfold radarPresent Radar.values
  rw [p.trx, p.delay, p.delay1, p.frq1]
  obtain ⟨d1, d2, d3⟩ := desig_strip h.desig
  have htime : shown (some (.str r.time)) = r.time := shown_text (by
    intro c hc
    unfold Radar.time isoTime at hc
    revert c hc
    simp only [List.mem_append, List.mem_cons, List.not_mem_nil, or_false]
    rintro c (((((((((((hc | rfl) | hc) | rfl) | hc) | rfl) | hc) | rfl) | hc) | rfl) | hc) | rfl)
    all_goals first | rfl | exact fixed_nospace _ _ c hc | exact dec_nospace _ c hc)
  have n1 : r.time ≠ [] := by simp [Radar.time, isoTime]
  have n2 : r.trx ≠ [] := by intro e; have := h.trx.1; rw [e] at this; simp at this
  have n3 : r.rcv ≠ [] := by intro e; have := h.rcv.1; rw [e] at this; simp at this
  have n4 : trim (withPoint 5 r.frq) ≠ [] := trim_point (point_in _ _)
  have hfrq : shown (some (.str (withPoint 5 r.frq))) = trim (withPoint 5 r.frq) := by rw [shown_str, strip_trim (withPoint_plain (digits_plain h.frq) _)]
  have hcom : val (c! "com") (shown (some (.str (if r.com then c! "1" else c! "0")))) = [(c! "com", if r.com then c! "1" else c! "0")] := by cases r.com <;> rfl
  have href : shown (some (.str r.ref)) = trim r.ref := by rw [shown_str, strip_trim h.ref.2]
  simp only [List.flatMap_cons, List.flatMap_nil, List.append_nil, shown_opt, d1, d2, d3, htime, hfrq, hcom, href, shown_text h.trx.2, shown_text h.rcv.2, signed_shown h,
    number_shown (digits_plain h.rmsDoppler), number_shown (digits_plain h.rmsDelay), number_shown (digits_plain h.delay), val_cons n1, val_cons n2, val_cons n3, val_cons n4]
  simp only [List.append_assoc, List.cons_append, List.nil_append]

end Verif.Mpc80
