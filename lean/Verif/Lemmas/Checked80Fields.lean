import Verif.Lemmas.Checked80Names
import Verif.Lemmas.Mpc80Second
import Verif.Lemmas.BackNormal
import Mathlib.Tactic.Linarith
import Mathlib.Tactic.Positivity
import Mathlib.Tactic.FieldSimp
import Mathlib.Tactic.Ring
import Mathlib.Tactic.NormNum
/-!
  Lemmas.Checked80Fields : the values that the converter writes.
-/
namespace Verif.Checked
open Verif.Xml Verif.Spec Verif.Check Verif.Xsd Verif.Fields Verif.Submission Verif.PackUtil Verif.Mpc80
open Verif.Spec.Mpc80 (leafOf nodeOf val Optical RefCols modeOf catName precText progText bandText noteLetters programLetters)
open Verif.Spec.Xsd (white)

/-! ### fields by name -/

/-- membership in a list given by its elements -/
macro "in_list" l:ident : tactic => `(tactic| (unfold $l; repeat (first | exact List.mem_cons_self | apply List.mem_cons_of_mem)))


theorem general_field {n : Str} {P : Str → Prop} (hp : (n, P) ∈ fieldValue) (hn : n ∉ [c! "provID", c! "trkSub", c! "obsCenter"]) {v : Str} : Field n v ↔ P v := C49_general _ hp hn v
theorem archive_field {n : Str} {P : Str → Prop} (hp : (n, P) ∈ archiveValue) {v : Str} : Field n v ↔ P v := C49_archive _ hp v

/-- elements with a given text -/
theorem field_known {n v : Str} (h : isValid S S 80 (typeOf n) (.mk n (some v) [] []) = true) (hn : (lookup S.elements n).isSome = true) : Field n v := ⟨_, type_of hn, isValid_sound h⟩

theorem perm_field {p : Perm} (h : p.Valid) : Field (c! "permID") p.text := (general_field (P := PermanentName) (by in_list fieldValue) (by decide)).2 (perm_name h)
theorem prov_field {q : Prov} (h : q.Valid) (hu : '_' ∉ q.cols.drop 1) : Field (c! "provID") q.text :=
  (archive_field (P := fun v => ProvisionalName v ∨ OldName v) (by in_list archiveValue)).2 (.inl (prov_name h hu))
theorem trk_field {t : Str} (h : (Designation.tracklet t).Valid) : Field (c! "trkSub") t :=
  (archive_field (P := fun v => TrackletName v ∨ OldTracklet v) (by in_list archiveValue)).2 (.inl (trk_name h))

def alnumChars : Str := c! "ABCDEFGHIJKLMNOPQRSTUVWXYZabcdefghijklmnopqrstuvwxyz0123456789_"

theorem ite_in {α : Type} {L : List α} {p : Prop} [Decidable p] {a b : α} (ha : a ∈ L) (hb : b ∈ L) : (if p then a else b) ∈ L := by
  split <;> assumption

theorem code_alnum {c : Char} (h : c ∈ alnumChars) : Alnum c := by
  have : ∀ c ∈ alnumChars, 'A' ≤ c ∧ c ≤ 'Z' ∨ 'a' ≤ c ∧ c ≤ 'z' ∨ '0' ≤ c ∧ c ≤ '9' ∨ c = '_' := by decide +kernel
  exact this c h

theorem mode_field (c : Char) : Field (c! "mode") (modeOf c) := by
  refine (general_field (P := Code 1 3) (by in_list fieldValue) (by decide)).2 ?_
  have h : ∀ v ∈ [c! "PHO", c! "PHo", c! "ENC", c! "CMO", c! "MER", c! "MIC", c! "ccd", c! "OCC", c! "OFF", c! "PMT", c! "NOR", c! "VID", c! "CCD"], v.length = 3 ∧
    ∀ c ∈ v, c ∈ alnumChars := by decide +kernel
  have k : modeOf c ∈ [c! "PHO", c! "PHo", c! "ENC", c! "CMO", c! "MER", c! "MIC", c! "ccd", c! "OCC", c! "OFF", c! "PMT", c! "NOR", c! "VID", c! "CCD"] := by
    unfold modeOf
    repeat (first | refine ite_in (by decide +kernel) ?_)
    decide +kernel
  obtain ⟨h1, h2⟩ := h _ k
  exact ⟨by omega, by omega, fun c hc => code_alnum (h2 c hc)⟩

theorem stn_field {v : Str} (hl : v.length = 3) {n : Str} (hn : n ∈ [c! "stn", c! "trx", c! "rcv"]) : Field n v ↔ ∀ c ∈ v, Alnum c := by
  have : Field n v ↔ Code 3 4 v := by
    simp only [List.mem_cons, List.not_mem_nil, or_false] at hn
    rcases hn with rfl | rfl | rfl <;> exact general_field (by in_list fieldValue) (by decide)
  rw [this]
  exact ⟨fun h => h.2.2, fun h => ⟨by omega, by omega, h⟩⟩

theorem b62_alnum {k : Nat} (h : k < 62) : Alnum (b62 k) := by
  have : ∀ k < 62, b62 k ∈ alnumChars := by decide +kernel
  exact code_alnum (this k h)

theorem prog_field {c : Char} (h : c ∈ programLetters) : Field (c! "prog") (progText c) := by
  refine (archive_field (P := Code 1 2) (by in_list archiveValue)).2 ⟨by simp [progText], by simp [progText], ?_⟩
  have : programLetters.idxOf c < programLetters.length := List.idxOf_lt_length_of_mem h
  have l : programLetters.length ≤ 100 := by decide +kernel
  intro d hd
  simp only [progText, List.mem_cons, List.not_mem_nil, or_false] at hd
  rcases hd with rfl | rfl
  · exact b62_alnum (by omega)
  · exact b62_alnum (by omega)

theorem cat_field (c : Char) : Field (c! "astCat") (catName c) ↔ c ≠ '6' := by
  rw [general_field (P := Catalogue) (by in_list fieldValue) (by decide)]
  constructor
  · rintro h rfl
    exact absurd h.2.1 (by decide)
  · intro hc
    have h : ∀ x ∈ catCodes, x.1 ≠ '6' → 1 ≤ x.2.length ∧ x.2.length ≤ 8 ∧ ∀ c ∈ x.2, c ∈ alnumChars ∨ c = '.' := by decide +kernel
    have k : catName c = c! "UNK" ∨ (c, catName c) ∈ catCodes := by
      unfold catName
      cases e : dictGet catCodes c with
      | none => exact .inl rfl
      | some v => 
        unfold dictGet at e
        obtain ⟨x, hx, hv⟩ := Option.map_eq_some_iff.1 e
        have h1 := List.mem_of_find?_eq_some hx
        have h2 := List.find?_some hx
        simp only [beq_iff_eq] at h2
        refine .inr ?_
        rw [Option.getD_some, ← h2, ← hv]
        simpa using h1
    rcases k with k | k
    · rw [k]
      exact ⟨by decide, by decide, fun c hc => .inl (code_alnum (by revert c; decide))⟩
    · obtain ⟨h1, h2, h3⟩ := h _ k hc
      exact ⟨h1, h2, fun c hc => (h3 c hc).imp code_alnum id⟩

theorem note_field {c : Char} (h : c ∈ noteLetters) (hb : c ≠ ' ') : Field (c! "notes") [c] := by
  refine (general_field (P := Code 1 6) (by in_list fieldValue) (by decide)).2 ⟨by simp, by simp, ?_⟩
  have : ∀ c ∈ noteLetters, c ≠ ' ' → c ∈ alnumChars := by decide +kernel
  intro d hd; simp at hd; subst hd
  exact code_alnum (this d h hb)

theorem disc_field {c : Char} (h : c ∈ [' ', '*', '+']) (hb : c ≠ ' ') : Field (c! "disc") [c] := by
  refine (general_field (P := fun v => v = c! "*" ∨ v = c! "+") (by in_list fieldValue) (by decide)).2 ?_
  simp at h
  rcases h with rfl | rfl | rfl
  · exact absurd rfl hb
  · exact .inl rfl
  · exact .inr rfl

theorem frm_field : Field (c! "subFrm") (c! "B1950.0") := field_known (by decide +kernel) (by decide +kernel)
theorem fmt_field : Field (c! "subFmt") (c! "M92") := field_known (by decide +kernel) (by decide +kernel)
theorem dep_field : Field (c! "deprecated") (c! "X") := field_known (by decide +kernel) (by decide +kernel)

theorem precTime_field {d : Nat} (h1 : 1 ≤ d) (h2 : d ≤ 6) : Field (c! "precTime") (Spec.dec (10 ^ (6 - d))) := by
  have : ∀ k ≤ 5, isValid S S 80 (typeOf (c! "precTime")) (.mk (c! "precTime") (some (Spec.dec (10 ^ k))) [] []) = true := by decide +kernel
  exact field_known (this (6 - d) (by omega)) (by decide +kernel)

theorem prec_field {n : Str} (hn : n ∈ [c! "precRA", c! "precDec"]) (s : Sexagesimal) : Field n (precText s) := by
  have h : ∀ n ∈ [c! "precRA", c! "precDec"], ∀ v ∈ [c! "0.1", c! "0.01", c! "0.001", c! "1", c! "6", c! "0.6", c! "60"], isValid S S 80 (typeOf n) (.mk n (some v) [] []) = true := by decide +kernel
  have h' : ∀ n ∈ [c! "precRA", c! "precDec"], (lookup S.elements n).isSome = true := by decide +kernel
  have k : precText s ∈ [c! "0.1", c! "0.01", c! "0.001", c! "1", c! "6", c! "0.6", c! "60"] := by
    cases s with
    | seconds a b c d f => exact ite_in (by decide +kernel) (ite_in (by decide +kernel) (by decide +kernel))
    | wholeSeconds a b c => show c! "1" ∈ _; decide +kernel
    | minutes a b d f => exact ite_in (by decide +kernel) (by decide +kernel)
    | wholeMinutes a b => show c! "60" ∈ _; decide +kernel
  exact field_known (h n hn _ k) (h' n hn)

theorem sys_field {n v : Str} (h : (n, v) ∈ [(c! "sys", c! "ICRF_AU"), (c! "sys", c! "ICRF_KM"), (c! "sys", c! "WGS84"), (c! "ctr", c! "399"), (c! "com", c! "0"), (c! "com", c! "1")]) : Field n v := by
  have k : ∀ x ∈ [(c! "sys", c! "ICRF_AU"), (c! "sys", c! "ICRF_KM"), (c! "sys", c! "WGS84"), (c! "ctr", c! "399"), (c! "com", c! "0"), (c! "com", c! "1")],
    isValid S S 80 (typeOf x.1) (.mk x.1 (some x.2) [] []) = true ∧ (lookup S.elements x.1).isSome = true := by decide +kernel
  exact field_known (k _ h).1 (k _ h).2

/-! ### texts without blanks at the ends -/

theorem xtrim_plain {t : Str} (h : Mpc80.Plain t) : Spec.Xsd.trim (Mpc80.trim t) = Mpc80.trim t := trim_of_strip (ToMpc80.trim_strip h)

theorem nonspace_white {c : Char} (h : isSpace c = false) : white c = false := by
  cases e : white c with
  | false => rfl
  | true => rw [white_space e] at h; cases h

theorem trim_solid {t : Str} (h : Mpc80.Plain t) (hne : Mpc80.trim t ≠ []) : ∃ c ∈ Mpc80.trim t, white c = false := by
  cases e : Mpc80.trim t with
  | nil => exact absurd e hne
  | cons c s =>
    refine ⟨c, by simp, nonspace_white ?_⟩
    have h1 := (ToMpc80.trim_ends t).1 c (by simp [e])
    cases hc : isSpace c with
    | false => rfl
    | true => exact absurd (h c ((ToMpc80.trim_sublist t).subset (by simp [e])) hc) h1

theorem mag_field {t : Str} (h : Mpc80.Plain t) : Field (c! "mag") (Mpc80.trim t) ↔ Magnitude (Mpc80.trim t) := by
  rw [general_field (P := fun v => Magnitude (Spec.Xsd.trim v)) (by in_list fieldValue) (by decide), xtrim_plain h]

theorem band_field {c : Char} : Field (c! "band") [c] ↔ Alnum c := by
  rw [general_field (P := Code 1 3) (by in_list fieldValue) (by decide)]
  simp [Code]

theorem unk_field : Field (c! "band") (c! "UNK") := field_known (by decide +kernel) (by decide +kernel)

theorem ref_field {v : Str} (hl : v.length ≤ 16) (hs : ∃ c ∈ v, white c = false) : Field (c! "ref") v ↔ '|' ∉ v := by
  rw [archive_field (P := Text 16) (by in_list archiveValue)]
  exact ⟨fun h => h.2.1, fun h => ⟨hl, h, hs⟩⟩

end Verif.Checked
