import Verif.Lemmas.TotalUnpack
/-!
  C09, C10: `packTupleID` and `unpackPackedID` on **arbitrary** strings.
-/
namespace Verif
open Verif.PackUtil Verif.Spec

/-- **C09.** Whatever triple is given, if packing returns at all the result has exactly 12 characters. -/
theorem C09_twelve_columns (t : IDs) (s : Str) (h : packTupleID t = .ok s) : s.length = 12 := (packTupleID_wp t).get h
example : packTupleID ⟨some "433".toList, some "1898 DQ".toList, some "x".toList⟩ = .ok "00433I98D00Q".toList := by decide +kernel
example : packTupleID ⟨some "73P-AF".toList, none, some "ignored".toList⟩ = .ok "0073P     af".toList := by decide +kernel

/-- **C10.** Unpacking any string whatsoever either succeeds or raises RuntimeError. -/
theorem C10_unpack_only_RuntimeError (s : Str) (e : PyErr) (h : unpackPackedID s = .error e) : e = .runtimeError :=
  (unpackPackedID_wp s).err h
example : unpackPackedID "not packed".toList = .error .runtimeError := by decide +kernel

/-- **C10.** Packing raises RuntimeError; or ValueError, and then the provID is a comet fragment without number
    (`t/YYYY h-f`); or IndexError, and then the provID has a year from 6200 on, or is an extended designation of a year ending in
    62 to 99.  Nothing else. -/
theorem C10_pack_errors (t : IDs) (e : PyErr) (h : packTupleID t = .error e) :
    e = .runtimeError ∨
    (e = .valueError ∧ ∃ s, t.provID = some s ∧ NoNumberFragment s) ∨
    (e = .indexError ∧ ∃ s, t.provID = some s ∧ (LateComet s ∨ LateExtended s)) := by
  rcases (packTupleID_wp t).err h with h | ⟨s, hs, h | ⟨h, h'⟩ | ⟨h, h'⟩⟩
  · exact Or.inl h
  · exact Or.inl h
  · exact Or.inr (Or.inl ⟨h, s, hs, h'⟩)
  · exact Or.inr (Or.inr ⟨h, s, hs, h'⟩)

/-- **C10.** In particular packing without provID raises nothing but RuntimeError. -/
theorem C10_pack_no_provID (perm trk : Option Str) (e : PyErr) (h : packTupleID ⟨perm, none, trk⟩ = .error e) : e = .runtimeError := by
  rcases C10_pack_errors _ e h with h | ⟨-, s, hs, -⟩ | ⟨-, s, hs, -⟩
  · exact h
  · simp at hs
  · simp at hs

/-- **C10 (finding).** The IndexError does occur: for every provisional comet designation of the years 6200 to 9999. -/
theorem C10_comet_late_year {y n : Nat} {ty half : Char} {order : Option Char} (hy1 : 6200 ≤ y) (hy2 : y ≤ 9999) (hn : n ≤ 619)
    (hh : half ∈ halfMonths) (ht : ty ∈ ['A', 'C', 'D', 'P', 'X']) (ho : ∀ o ∈ order, o ∈ upperCase) :
    packTupleID ⟨none, some ([ty, '/'] ++ dec y ++ [' ', half] ++ order.toList ++ count n), none⟩ = .error .indexError := by
  rw [dec_eq, count_eq]
  simp only [packTupleID, packPerm, packProv_comet (by omega) hy2 hh ht ho, if_neg (show ¬ 620 ≤ n by omega), if_pos hy1, bind, Except.bind]
example : packTupleID ⟨none, some "C/6200 A1".toList, none⟩ = .error .indexError := by decide +kernel

/-- **C10 (finding).** The IndexError also occurs for every extended designation of a year ending in 62 to 99, for instance 1999. -/
theorem C10_extended_late_year {y c : Nat} {half order : Char} (hy1 : 1800 ≤ y) (hy2 : y ≤ 6199) (hy : 62 ≤ y % 100)
    (hh : half ∈ halfMonths) (ho : order ∈ orders) (hc : 620 ≤ c) (hc2 : 25 * c + orderIndex order ≤ 25 * 591673 + orderIndex 'L') :
    packTupleID ⟨none, some (dec y ++ [' ', half, order] ++ count c), none⟩ = .error .indexError := by
  have hL : orderIndex 'L' = 10 := by decide +kernel
  rw [dec_eq, count_eq]
  simp only [packTupleID, packPerm, packProv_minor (show 1000 ≤ y by omega) (show y ≤ 9999 by omega) hh ho,
    if_neg (show ¬ (y < 1800 ∨ 6199 < y) by omega), if_neg (show ¬ c ≤ 619 by omega),
    if_neg (show ¬ 15500 + 62 ^ 4 ≤ 25 * c + orderIndex order by omega), if_pos hy, bind, Except.bind]
example : packTupleID ⟨none, some "1999 XA620".toList, none⟩ = .error .indexError := by decide +kernel

/-- **C10 (finding).** The ValueError occurs, and for a text `unpackPackedID` itself produces. -/
theorem C10_fragment_without_number : ∃ cols s, unpackPackedID cols = .ok ⟨none, some s, none⟩ ∧
    packTupleID ⟨none, some s, none⟩ = .error .valueError :=
  ⟨"    PJ94P00b".toList, "P/1994 P-B".toList, by decide +kernel, by decide +kernel⟩

end Verif
