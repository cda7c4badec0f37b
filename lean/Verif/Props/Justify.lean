import Verif.Lemmas.Split
import Verif.Tables
/-!
  C15 (signed fields), C16 (code dictionaries), C17 (justification).
-/
namespace Verif
open Verif.PackUtil

/-- `r` is `s` with blanks added on either side -/
def IsPadding (s r : Str) : Prop := ∃ i j, r = List.replicate i ' ' ++ s ++ List.replicate j ' '

theorem IsPadding.blanks {s : Str} (i j : Int) : IsPadding s (blanks i ++ s ++ blanks j) := ⟨i.toNat, j.toNat, rfl⟩

/-! ### the decimal case in closed form -/

theorem applyPJ_point {a b : Str} (ha : '.' ∉ a) (hb : '.' ∉ b) (l dpos : Int) (hd : 0 ≤ dpos) :
    applyPJ (a ++ '.' :: b) l .D dpos =
      .ok (let d := max dpos (a.length + 1)
           let r := blanks (dpos - 1 - a.length) ++ (a ++ '.' :: b) ++ blanks (l - d - b.length)
           (r, r.length, d)) := by
  have e : splitChar '.' (a ++ '.' :: b) = [a, b] := by rw [splitChar_append b ha, splitChar_none hb]
  have em : (if dpos - 1 - (a.length : Int) < 0 then dpos - (dpos - 1 - a.length) else dpos) = max dpos (a.length + 1) := by
    split <;> omega
  simp only [applyPJ, if_neg (show ¬ dpos < 0 by omega), e, em]
  by_cases hbe : b = []
  · subst hbe
    simp only [List.getLast?_append, List.getLast?_singleton, Option.some_or, List.isEmpty_nil, Bool.not_true, Bool.false_eq_true, if_false, if_true,
      List.length_nil, Int.natCast_zero]
    have : ∀ x : Int, x - 0 - 1 + 1 = x - 0 := by intro x; omega
    simp only [this]
  · have hl : (a ++ '.' :: b).getLast? ≠ some '.' := by
      rw [List.getLast?_append, List.getLast?_cons, List.getLast?_eq_some_getLast hbe]
      simp
      intro h; exact hb (h ▸ List.getLast_mem hbe)
    have hbe' : b.isEmpty = false := by cases b <;> simp_all
    simp only [if_neg hl, hbe', Bool.not_false, if_true]
    simp

theorem applyPJ_nopoint {a : Str} (ha : '.' ∉ a) (l dpos : Int) (hd : 0 ≤ dpos) :
    applyPJ a l .D dpos =
      .ok (let d := max dpos (a.length + 1)
           let r := blanks (dpos - 1 - a.length) ++ a ++ blanks (l - d + 1)
           (r, r.length, d)) := by
  have em : (if dpos - 1 - (a.length : Int) < 0 then dpos - (dpos - 1 - a.length) else dpos) = max dpos (a.length + 1) := by
    split <;> omega
  simp only [applyPJ, if_neg (show ¬ dpos < 0 by omega), splitChar_none ha, em]
  have hl : a.getLast? ≠ some '.' := by
    intro h; exact ha (List.mem_of_getLast? h)
  simp only [if_neg hl, List.isEmpty_nil, Bool.not_true, Bool.false_eq_true, if_false, List.length_nil, Int.natCast_zero]
  have : ∀ x : Int, x - 0 + 1 = x + 1 := by intro x; omega
  simp only [this]

theorem applyPJ_points {s : Str} (h : 2 ≤ s.count '.') (l dpos : Int) : applyPJ s l .D dpos = .error .runtimeError := by
  have hl := splitChar_length '.' s
  simp only [applyPJ]
  split
  · rfl
  · rcases hp : splitChar '.' s with _ | ⟨a, _ | ⟨b, _ | ⟨c, t⟩⟩⟩
    · rfl
    · rw [hp] at hl; simp at hl; omega
    · rw [hp] at hl; simp at hl; omega
    · rfl

/-- **C17.** Justification of any kind only adds blanks around the value, reports the true width, and is never narrower than requested. -/
theorem C17_only_padding (s : Str) (l : Int) (j : JType) (dpos : Int) (r : Str) (w : Nat) (d : Int)
    (h : applyPJ s l j dpos = .ok (r, w, d)) : IsPadding s r ∧ w = r.length ∧ l ≤ w := by
  cases j with
  | L =>
    simp only [applyPJ, Except.ok.injEq, Prod.mk.injEq] at h
    obtain ⟨rfl, rfl, -⟩ := h
    exact ⟨⟨0, (l - s.length).toNat, by simp [blanks]⟩, rfl, by simp [blanks_length]; omega⟩
  | R =>
    simp only [applyPJ, Except.ok.injEq, Prod.mk.injEq] at h
    obtain ⟨rfl, rfl, -⟩ := h
    exact ⟨⟨(l - s.length).toNat, 0, by simp [blanks]⟩, rfl, by simp [blanks_length]; omega⟩
  | C =>
    simp only [applyPJ, Except.ok.injEq, Prod.mk.injEq] at h
    obtain ⟨rfl, rfl, -⟩ := h
    exact ⟨.blanks _ _, rfl, by simp only [List.length_append, blanks_length]; split <;> omega⟩
  | D =>
    by_cases hd : dpos < 0
    · simp [applyPJ, hd, raiseRT] at h
    · by_cases h2 : 2 ≤ s.count '.'
      · rw [applyPJ_points h2] at h; simp at h
      · by_cases h0 : '.' ∈ s
        · obtain ⟨a, b, rfl, ha⟩ := exists_split h0
          have hb : '.' ∉ b := by
            intro hb
            have := List.count_pos_iff.2 hb
            simp at h2; omega
          rw [applyPJ_point ha hb l dpos (by omega)] at h
          simp only [Except.ok.injEq, Prod.mk.injEq] at h
          obtain ⟨rfl, rfl, -⟩ := h
          refine ⟨.blanks _ _, rfl, ?_⟩
          simp only [List.length_append, blanks_length, List.length_cons]; omega
        · rw [applyPJ_nopoint h0 l dpos (by omega)] at h
          simp only [Except.ok.injEq, Prod.mk.injEq] at h
          obtain ⟨rfl, rfl, -⟩ := h
          refine ⟨.blanks _ _, rfl, ?_⟩
          simp only [List.length_append, blanks_length]; omega
  | other => simp [applyPJ, raiseRT] at h
example : applyPJ "12.5".toList 9 .D 5 = .ok ("  12.5   ".toList, 9, 5) := by decide +kernel

/-- **C17.** The value comes back by stripping, provided it has no white space at its ends. -/
theorem C17_strip (s : Str) (l : Int) (j : JType) (dpos : Int) (r : Str) (w : Nat) (d : Int) (h : applyPJ s l j dpos = .ok (r, w, d))
    (h1 : ∀ c ∈ s.head?, isSpace c = false) (h2 : ∀ c ∈ s.getLast?, isSpace c = false) : strip r = s := by
  obtain ⟨⟨i, k, rfl⟩, -, -⟩ := C17_only_padding s l j dpos r w d h
  exact strip_pad i k h1 h2

/-- **C17.** Left, right and centre justification: a value that fits gets exactly the requested width, one that does not fit is returned unchanged. -/
theorem C17_width (s : Str) (l : Nat) (j : JType) (hj : j = .L ∨ j = .R ∨ j = .C) (dpos : Int) :
    ∃ r, applyPJ s l j dpos = .ok (r, r.length, dpos) ∧ (s.length ≤ l → r.length = l) ∧ (l ≤ s.length → r = s) := by
  rcases hj with rfl | rfl | rfl
  · refine ⟨s ++ blanks (l - s.length), rfl, fun h => ?_, fun h => ?_⟩
    · simp [blanks_length]; omega
    · rw [blanks_of_neg (by omega)]; simp
  · refine ⟨blanks (l - s.length) ++ s, rfl, fun h => ?_, fun h => ?_⟩
    · simp [blanks_length]; omega
    · rw [blanks_of_neg (by omega)]; simp
  · refine ⟨_, rfl, fun h => ?_, fun h => ?_⟩
    · simp only [List.length_append, blanks_length]; split <;> omega
    · rw [blanks_of_neg (by omega), blanks_of_neg (by split <;> omega)]; simp

/-- **C17.** Left-justified values start with the value, right-justified ones end with it, centred ones are centred up to one column. -/
theorem C17_side (s : Str) (l dpos : Int) :
    (∃ n, applyPJ s l .L dpos = .ok (s ++ List.replicate n ' ', s.length + n, dpos)) ∧
    (∃ n, applyPJ s l .R dpos = .ok (List.replicate n ' ' ++ s, n + s.length, dpos)) ∧
    (∃ n m, applyPJ s l .C dpos = .ok (List.replicate n ' ' ++ s ++ List.replicate m ' ', n + s.length + m, dpos) ∧ n ≤ m ∧ m ≤ n + 1) := by
  refine ⟨⟨(l - s.length).toNat, by simp [applyPJ, blanks]⟩, ⟨(l - s.length).toNat, by simp [applyPJ, blanks]⟩,
    ⟨((l - s.length) / 2).toNat, (if (l - s.length) / 2 * 2 ≠ l - s.length then (l - s.length) / 2 + 1 else (l - s.length) / 2).toNat, ?_, ?_, ?_⟩⟩
  · simp [applyPJ, blanks, Nat.add_assoc]
  · split <;> omega
  · split <;> omega

/-- **C17.** Decimal justification of `a.b`: the decimal point is in the reported column, which is the requested one if the digits before
    the point fit; the width is the requested one if both parts fit. -/
theorem C17_decimal {a b : Str} (ha : '.' ∉ a) (hb : '.' ∉ b) (l dpos : Nat) :
    ∃ r d, applyPJ (a ++ '.' :: b) l .D dpos = .ok (r, r.length, ((d : Nat) : Int)) ∧
      1 ≤ d ∧ r[d - 1]? = some '.' ∧ (a.length + 1 ≤ dpos → d = dpos) ∧ (a.length + 1 ≤ dpos → dpos + b.length ≤ l → r.length = l) := by
  rw [applyPJ_point ha hb l dpos (by omega)]
  have em : (max (dpos : Int) (a.length + 1)) = ((max dpos (a.length + 1) : Nat) : Int) := by omega
  refine ⟨blanks (dpos - 1 - a.length) ++ (a ++ '.' :: b) ++ blanks (l - max (dpos : Int) (a.length + 1) - b.length),
    max dpos (a.length + 1), ?_, by omega, ?_, by omega, ?_⟩
  · simp only [em]
  · rw [List.append_assoc, List.append_assoc, ← List.append_assoc, List.getElem?_append_right (by simp [blanks_length]; omega)]
    have : max dpos (a.length + 1) - 1 - (blanks (↑dpos - 1 - ↑a.length) ++ a).length = 0 := by
      simp [blanks_length]; omega
    rw [this]; simp
  · intro h1 h2
    simp only [List.length_append, blanks_length, List.length_cons]; omega
example : ∃ r, applyPJ "-1.25".toList 10 .D 4 = .ok (r, 10, 4) ∧ r[3]? = some '.' := ⟨" -1.25    ".toList, by decide +kernel, by decide⟩

/-- **C17.** Without a decimal point the value ends just left of the column where the point would be. -/
theorem C17_integer {a : Str} (ha : '.' ∉ a) (l dpos : Nat) (h1 : a.length + 1 ≤ dpos) (h2 : dpos ≤ l + 1) :
    applyPJ a l .D dpos = .ok (List.replicate (dpos - 1 - a.length) ' ' ++ a ++ List.replicate (l + 1 - dpos) ' ', l, (dpos : Int)) := by
  rw [applyPJ_nopoint ha l dpos (by omega)]
  have e1 : (dpos : Int) - 1 - a.length = ((dpos - 1 - a.length : Nat) : Int) := by omega
  have e2 : (l : Int) - (dpos : Int) + 1 = ((l + 1 - dpos : Nat) : Int) := by omega
  have e3 : max (dpos : Int) (a.length + 1) = dpos := by omega
  simp only [e3, e2, e1, blanks, Int.toNat_natCast, Except.ok.injEq, Prod.mk.injEq, true_and, and_true]
  simp only [List.length_append, List.length_replicate]; omega

/-- **C17.** Decimal justification fails, with RuntimeError, exactly for a negative column or a value with more than one decimal point. -/
theorem C17_decimal_errors (s : Str) (l dpos : Int) :
    applyPJ s l .D dpos = .error .runtimeError ↔ dpos < 0 ∨ 2 ≤ s.count '.' := by
  constructor
  · intro h
    apply Classical.byContradiction
    intro hn
    have hd : 0 ≤ dpos := by omega
    by_cases h0 : '.' ∈ s
    · obtain ⟨a, b, rfl, ha⟩ := exists_split h0
      have hb : '.' ∉ b := by
        intro hb
        have := List.count_pos_iff.2 hb
        simp at hn; omega
      rw [applyPJ_point ha hb l dpos hd] at h; simp at h
    · rw [applyPJ_nopoint h0 l dpos hd] at h; simp at h
  · rintro (h | h)
    · simp [applyPJ, h, raiseRT]
    · exact applyPJ_points h l dpos

/-! ### C15 -/

/-- an unsigned number as it occurs in a field: no white space at its ends, at most one decimal point, not empty -/
structure Unsigned (a b : Str) (u : Str) : Prop where
  eq : u = a ++ '.' :: b
  ha : '.' ∉ a
  hb : '.' ∉ b
  first : ∀ c ∈ u.head?, isSpace c = false
  last : ∀ c ∈ u.getLast?, isSpace c = false

/-- **C15.** A signed number that fits is spread over exactly the field width, sign first and decimal point in the requested column
    (columns counted from 1), and is read back unchanged. -/
theorem C15_signed {a b u : Str} (hu : Unsigned a b u) (sign : Char) (hs : sign = '+' ∨ sign = '-') (w col : Nat)
    (h1 : a.length + 2 ≤ col) (h2 : col + b.length ≤ w) :
    ∃ f, unPackSigned (sign :: u) w col = .ok f ∧ f.length = w ∧ f.head? = some sign ∧ f[col - 1]? = some '.' ∧ packSigned f = .ok (sign :: u) := by
  obtain ⟨r, d, hr, hd1, hdot, hd, hlen⟩ := C17_decimal hu.ha hu.hb (w - 1) (col - 1)
  have e1 : ((w : Int) - 1) = ((w - 1 : Nat) : Int) := by omega
  have e2 : ((col : Int) - 1) = ((col - 1 : Nat) : Int) := by omega
  have hd := hd (by omega)
  have hlen := hlen (by omega) (by omega)
  rw [← hu.eq] at hr
  have hdig : (c! "0123456789").contains sign = false := by rcases hs with rfl | rfl <;> decide
  have hsg : (c! "+-").contains sign = true := by rcases hs with rfl | rfl <;> decide
  refine ⟨sign :: r, ?_, by simp [hlen]; omega, rfl, ?_, ?_⟩
  · simp only [unPackSigned, charAt, List.getElem?_cons_zero, bind, Except.bind, hdig, Bool.false_eq_true, if_false, hsg, not_true, List.drop_succ_cons, List.drop_zero,
      e1, e2, hr, pure, Except.pure]
  · subst hd
    rw [show col - 1 = (col - 1 - 1) + 1 by omega, List.getElem?_cons_succ]; exact hdot
  · have := C17_strip u _ _ _ r _ _ hr hu.first hu.last
    have hne : sign ≠ ' ' := by rcases hs with rfl | rfl <;> decide
    simp [packSigned, charAt, bind, Except.bind, pure, Except.pure, this, hne]
example : unPackSigned "-32.3".toList 10 5 = .ok "- 32.3    ".toList ∧ packSigned "- 32.3    ".toList = .ok "-32.3".toList := by decide +kernel

/-- **C15.** A number without sign, starting with a digit, is given an explicit `+`. -/
theorem C15_unsigned {a b u : Str} (hu : Unsigned a b u) (h : ∀ c ∈ u.head?, c ∈ (c! "0123456789")) (w col : Nat) :
    unPackSigned u w col = unPackSigned ('+' :: u) w col := by
  have hne : u ≠ [] := by rw [hu.eq]; simp
  cases u with
  | nil => exact absurd rfl hne
  | cons c t =>
    have hc : (c! "0123456789").contains c = true := by simpa using h c (by simp)
    have hp : (c! "0123456789").contains '+' = false := by decide
    simp only [unPackSigned, charAt, List.getElem?_cons_zero, bind, Except.bind, hc, if_true, hp, Bool.false_eq_true, if_false]
example : unPackSigned "32.3".toList 10 5 = .ok "+ 32.3    ".toList := by decide +kernel

/-- **C15 (finding).** A number that does not fit is not refused (the documentation promises RuntimeError): the field comes out wider than
    requested. -/
theorem C15_overflow {a b u : Str} (hu : Unsigned a b u) (sign : Char) (hs : sign = '+' ∨ sign = '-') (w col : Nat) (hc : 1 ≤ col) (hw : 1 ≤ w)
    (h : w < u.length + 1) : ∃ f, unPackSigned (sign :: u) w col = .ok f ∧ w < f.length := by
  obtain ⟨r, d, hr, -⟩ := C17_decimal hu.ha hu.hb (w - 1) (col - 1)
  have e1 : ((w : Int) - 1) = ((w - 1 : Nat) : Int) := by omega
  have e2 : ((col : Int) - 1) = ((col - 1 : Nat) : Int) := by omega
  rw [← hu.eq] at hr
  have hdig : (c! "0123456789").contains sign = false := by rcases hs with rfl | rfl <;> decide
  have hsg : (c! "+-").contains sign = true := by rcases hs with rfl | rfl <;> decide
  refine ⟨sign :: r, ?_, ?_⟩
  · simp only [unPackSigned, charAt, List.getElem?_cons_zero, bind, Except.bind, hdig, Bool.false_eq_true, if_false, hsg, not_true, List.drop_succ_cons, List.drop_zero,
      e1, e2, hr, pure, Except.pure]
  · obtain ⟨⟨i, j, e⟩, -, -⟩ := C17_only_padding _ _ _ _ _ _ _ hr
    rw [List.length_cons, e]; simp; omega
example : unPackSigned "+12345.678".toList 8 5 = .ok "+12345.678".toList := by decide +kernel

/-! ### C16 -/

/-- **C16.** Catalogue codes: column code to ADES name and back, and ADES name to column code and back. -/
theorem C16_catalogues (c : Char) (v : Str) : dictGet catCodes c = some v ↔ dictGet rCatCodes v = some c := by
  have h1 : ∀ x ∈ catCodes, dictGet rCatCodes x.2 = some x.1 ∧ dictGet catCodes x.1 = some x.2 := by decide +kernel
  constructor <;> intro h
  · simp only [dictGet, Option.map_eq_some_iff] at h
    obtain ⟨x, hx, rfl⟩ := h
    have hm := List.mem_of_find?_eq_some hx
    have he := List.find?_some hx
    simp at hm he
    rw [← he]; exact (h1 x hm).1
  · simp only [dictGet, rCatCodes, dictInvert, Option.map_eq_some_iff] at h
    obtain ⟨x, hx, rfl⟩ := h
    have hm := List.mem_of_find?_eq_some hx
    have he := List.find?_some hx
    simp at hm he
    obtain ⟨a, b, hab, rfl⟩ := hm
    rw [← he]; exact (h1 _ hab).2
example : dictGet catCodes 'V' = some (c! "Gaia2") ∧ dictGet rCatCodes (c! "Gaia2") = some 'V' := by decide +kernel

/-- **C16.** Observing modes likewise. -/
theorem C16_modes (c : Char) (v : Str) : dictGet codeDict c = some v ↔ dictGet reverseCodeDict v = some c := by
  have h1 : ∀ x ∈ codeDict, dictGet reverseCodeDict x.2 = some x.1 ∧ dictGet codeDict x.1 = some x.2 := by decide +kernel
  constructor <;> intro h
  · simp only [dictGet, Option.map_eq_some_iff] at h
    obtain ⟨x, hx, rfl⟩ := h
    have hm := List.mem_of_find?_eq_some hx
    have he := List.find?_some hx
    simp at hm he
    rw [← he]; exact (h1 x hm).1
  · simp only [dictGet, reverseCodeDict, dictInvert, Option.map_eq_some_iff] at h
    obtain ⟨x, hx, rfl⟩ := h
    have hm := List.mem_of_find?_eq_some hx
    have he := List.find?_some hx
    simp at hm he
    obtain ⟨a, b, hab, rfl⟩ := hm
    rw [← he]; exact (h1 _ hab).2
example : dictGet codeDict ' ' = some (c! "PHO") := by decide +kernel

end Verif
