import Verif.Lemmas.Regex
import Verif.Lemmas.Mpc80Layout
/-
  What a decoded line contains.
-/
namespace Verif.Mpc80
open Verif Verif.PackUtil

theorem bindOk {α β : Type} {x : Py α} {f : α → Py β} {b : β} : (x >>= f) = .ok b ↔ ∃ a, x = .ok a ∧ f a = .ok b := by
  cases x <;> simp [bind, Except.bind]

theorem get?_set (i : Item) (k k' : Str) (v : Val) : (i.set k v).get? k' = if k = k' then some v else i.get? k' := by
  unfold Item.get? Item.set
  by_cases h : k = k'
  · simp [h]
  · simp [h]
theorem get?_put (i : Item) (k k' s : Str) : (i.put k s).get? k' = if k = k' then some (.str s) else i.get? k' := get?_set i k k' _
theorem get?_nil (k : Str) : Item.get? [] k = none := rfl
theorem str_ok {i : Item} {k s : Str} : i.str k = .ok s ↔ i.get? k = some (.str s) := by
  unfold Item.str
  split <;> simp_all
theorem get_ok {i : Item} {k : Str} {v : Val} : i.get k = .ok v ↔ i.get? k = some v := by
  unfold Item.get
  split <;> simp_all

theorem putDate_ok {ret item : Item} {radar : Bool} : putDate ret radar = .ok item ↔ ∃ d t p, ret.get? (c! "date") = some (.str d) ∧
    Sex.checkDate d radar = .ok (t, p) ∧ item = (ret.put (c! "obsTime") t).set (c! "precTime") (.num p) := by
  unfold putDate
  simp only [bindOk, str_ok]
  constructor
  · rintro ⟨d, h1, ⟨t, p⟩, h2, h3⟩
    exact ⟨d, t, p, h1, h2, by injection h3 with h3; exact h3.symm⟩
  · rintro ⟨d, t, p, h1, h2, h3⟩
    exact ⟨d, h1, (t, p), h2, by rw [h3]; rfl⟩

/-- what the common checks add -/
def checked (ret : Item) (t : Str) (p : Sex.Num) (c : Char) (ids : IDs) : Item :=
  (((((ret.put (c! "obsTime") t).set (c! "precTime") (.num p)).put (c! "astCat") [c]).set (c! "permID") (ofOpt ids.permID)).set (c! "provID")
    (ofOpt ids.provID)).set (c! "trkSub") (ofOpt ids.trkSub)

/-- the note is one the station may use -/
def noteOk (stn notes : Str) : Prop :=
  (stn ∈ programCodeSites ∨ inStr notes validNotes = true) ∧ inStr notes validProgramCodes = true
instance (stn notes : Str) : Decidable (noteOk stn notes) := by unfold noteOk; infer_instance

theorem decodeChecks_ok {ret item : Item} : decodeChecks ret = .ok item ↔
    ∃ date t p code stn notes c cs id ids, ret.get? (c! "date") = some (.str date) ∧ Sex.checkDate date (ret.get? (c! "trx")).isSome = .ok (t, p) ∧
      ret.get? (c! "code") = some (.str code) ∧ ret.get? (c! "stn") = some (.str stn) ∧ ret.get? (c! "notes") = some (.str notes) ∧
      inStr code validCodes = true ∧ noteOk stn notes ∧ ret.get? (c! "packedref") = some (.str (c :: cs)) ∧
      ret.get? (c! "totalid") = some (.str id) ∧ unpackPackedID id = .ok ids ∧ item = checked ret t p c ids := by
  unfold decodeChecks
  constructor
  · intro h
    obtain ⟨r, hr, h⟩ := bindOk.1 h
    obtain ⟨d, t, p, h1, h2, rfl⟩ := putDate_ok.1 hr
    obtain ⟨code, h3, h⟩ := bindOk.1 h
    obtain ⟨stn, h4, h⟩ := bindOk.1 h
    obtain ⟨notes, h5, h⟩ := bindOk.1 h
    rw [str_ok, get?_set, if_neg (by decide), get?_put, if_neg (by decide)] at h3 h4 h5
    split at h
    · simp [raiseRT] at h
    · rename_i g1
      split at h
      · simp [raiseRT] at h
      · rename_i g2
        split at h
        · simp [raiseRT] at h
        · rename_i g3
          split at h
          · simp [raiseRT] at h
          · rename_i g4
            obtain ⟨pr, h6, h⟩ := bindOk.1 h
            obtain ⟨c, h7, h⟩ := bindOk.1 h
            obtain ⟨id, h8, h⟩ := bindOk.1 h
            obtain ⟨ids, h9, h⟩ := bindOk.1 h
            rw [str_ok, get?_set, if_neg (by decide), get?_put, if_neg (by decide)] at h6
            rw [str_ok, get?_put, if_neg (by decide), get?_set, if_neg (by decide), get?_put, if_neg (by decide)] at h8
            cases pr with
            | nil => simp [charAt] at h7
            | cons c' cs =>
              simp [charAt] at h7
              subst h7
              refine ⟨d, t, p, code, stn, notes, c', cs, id, ids, h1, h2, h3, h4, h5, by simpa using g1, ?_, h6, h8, h9, ?_⟩
              · refine ⟨?_, by simpa using g4⟩
                simp at g2 g3
                by_cases hs : stn ∈ programCodeSites
                · exact Or.inl hs
                · exact Or.inr (g3 hs)
              · injection h with h; exact h.symm
  · rintro ⟨d, t, p, code, stn, notes, c, cs, id, ids, h1, h2, h3, h4, h5, g1, ⟨g2, g3⟩, h6, h8, h9, rfl⟩
    refine bindOk.2 ⟨_, putDate_ok.2 ⟨d, t, p, h1, h2, rfl⟩, ?_⟩
    refine bindOk.2 ⟨code, by rw [str_ok, get?_set, if_neg (by decide), get?_put, if_neg (by decide)]; exact h3, ?_⟩
    refine bindOk.2 ⟨stn, by rw [str_ok, get?_set, if_neg (by decide), get?_put, if_neg (by decide)]; exact h4, ?_⟩
    refine bindOk.2 ⟨notes, by rw [str_ok, get?_set, if_neg (by decide), get?_put, if_neg (by decide)]; exact h5, ?_⟩
    rw [if_neg (by simp [g1]), if_neg (by simp [g3]), if_neg (by simp; exact fun h => g2.resolve_left h), if_neg (by simp [g3])]
    refine bindOk.2 ⟨_, by rw [str_ok, get?_set, if_neg (by decide), get?_put, if_neg (by decide)]; exact h6, ?_⟩
    refine bindOk.2 ⟨c, rfl, ?_⟩
    refine bindOk.2 ⟨id, by rw [str_ok, get?_put, if_neg (by decide), get?_set, if_neg (by decide), get?_put, if_neg (by decide)]; exact h8, ?_⟩
    exact bindOk.2 ⟨ids, h9, rfl⟩

/-! ### the five kinds of data line -/

/-- the columns common to all data lines -/
def commonItem (s : Str) : Item :=
  (((((Item.put [] (c! "subFmt") (c! "M92")).put (c! "totalid") (slice s 0 12)).put (c! "disc") (slice s 12 13)).put (c! "notes") (slice s 13 14)).put
    (c! "code") (slice s 14 15)).put (c! "date") (slice s 15 32)

/-- an optical line's own columns -/
def normalColumns (s : Str) : Item :=
  ((((((commonItem s).put (c! "raSexagesimal") (slice s 32 44)).put (c! "decSexagesimal") (slice s 44 56)).put (c! "bl1") (slice s 56 65)).put
    (c! "mag") (slice s 65 70)).put (c! "band") (slice s 70 71)).put (c! "packedref") (slice s 71 77) |>.put (c! "stn") (slice s 77 80)

/-- an optical line -/
def normalItem (s t : Str) (p : Sex.Num) (ra : Str) (pra : Sex.Num) (dec : Str) (pdec : Sex.Num) : Item :=
  ((((((normalColumns s).put (c! "obsTime") t).set (c! "precTime") (.num p)).put (c! "ra") ra).set (c! "precRA") (.num pra)).put (c! "dec") dec).set
    (c! "precDec") (.num pdec)

/-- a radar first line -/
def radar1Item (s shift : Str) : Item :=
  ((((((commonItem s).put (c! "delay") (if strip (slice s 32 47) ≠ [] then slice s 32 37 ++ ['.'] ++ slice s 37 47 else [])).put (c! "shift") shift).put
    (c! "frq") (slice s 62 67 ++ ['.'] ++ slice s 67 68)).put (c! "trx") (slice s 68 71)).put (c! "packedref") (slice s 71 77)).put (c! "stn") (slice s 77 80)

/-- a radar second line -/
def radar2Item (s : Str) : Item :=
  (((((((commonItem s).put (c! "sc") (slice s 32 33)).put (c! "delay uncertainty") (if strip (slice s 33 47) ≠ [] then slice s 33 43 ++ ['.'] ++ slice s 43 47 else [])).put
    (c! "shift uncertainty") (if strip (slice s 47 62) ≠ [] then slice s 47 58 ++ ['.'] ++ slice s 58 62 else [])).put (c! "frq continuation") (slice s 62 68)).put
    (c! "trx") (slice s 68 71)).put (c! "packedref") (slice s 71 77)).put (c! "stn") (slice s 77 80)

/-- a satellite second line -/
def satItem (s p1 p2 p3 : Str) : Item :=
  ((((((((commonItem s).put (c! "parallax_type") (slice s 32 33)).put (c! "ctr") (c! "399")).put (c! "pos1") p1).put (c! "pos2") p2).put (c! "pos3") p3).put
    (c! "sys") (if slice s 32 33 = c! "1" then c! "ICRF_KM" else c! "ICRF_AU")).put (c! "packedref") (slice s 71 77)).put (c! "stn") (slice s 77 80)

/-- a rover second line -/
def roverItem (s : Str) : Item :=
  (((((((commonItem s).put (c! "sys") (c! "WGS84")).put (c! "ctr") (c! "399")).put (c! "pos1") (slice s 34 44)).put (c! "pos2") (slice s 45 55)).put
    (c! "pos3") (slice s 56 61)).put (c! "packedref") (slice s 71 77)).put (c! "stn") (slice s 77 80)

theorem g_lookup (k : Caps) (n : Nat) (t : Str) (h : group k n = some t) : g k n = t := by simp [g, h]

theorem date_cols (s : Str) : slice s 15 19 ++ slice s 19 20 ++ slice s 20 32 = slice s 15 32 := by
  rw [slice_append s (by omega) (by omega), slice_append s (by omega) (by omega)]

theorem drop_slice (s : Str) (a b k : Nat) : (slice s a b).drop k = slice s (a + k) b := by
  unfold slice
  rw [List.drop_take, List.drop_drop]; congr 1; omega
theorem slice_slice (s : Str) {a b k : Nat} (h : a + k ≤ b) : slice (slice s a b) 0 k = slice s a (a + k) := by
  unfold slice
  simp only [List.drop_zero, Nat.sub_zero, List.take_take]; congr 1; omega

theorem putCommon_eq {k : Caps} {s : Str} (h : ∃ l, k = [(1, slice s 0 12), (2, slice s 12 13), (3, slice s 13 14), (4, slice s 14 15), (5, slice s 15 19), (6, slice s 19 20),
    (7, slice s 20 32)] ++ l) : putCommon k = commonItem s := by
  obtain ⟨l, rfl⟩ := h
  unfold putCommon commonItem
  rw [← date_cols]
  simp [g, group]

theorem decodeNormal_ok {s : Str} {item : Item} : decodeNormal (normalL.caps s) = .ok item ↔
    ∃ t p ra pra dec pdec, Sex.checkDate (slice s 15 32) false = .ok (t, p) ∧ Sex.checkRa (slice s 32 44) = .ok (ra, pra) ∧
      Sex.checkDec (slice s 44 56) = .ok (dec, pdec) ∧ item = normalItem s t p ra pra dec pdec := by
  unfold decodeNormal
  rw [putCommon_eq (s := s) (by rw [normal_caps]; exact ⟨_, rfl⟩)]
  have e8 : g (normalL.caps s) 8 = slice s 32 44 := by rw [normal_caps]; rfl
  have e9 : g (normalL.caps s) 9 = slice s 44 56 := by rw [normal_caps]; rfl
  have e10 : g (normalL.caps s) 10 = slice s 56 65 := by rw [normal_caps]; rfl
  have e11 : g (normalL.caps s) 11 = slice s 65 70 := by rw [normal_caps]; rfl
  have e12 : g (normalL.caps s) 12 = slice s 70 71 := by rw [normal_caps]; rfl
  have e13 : g (normalL.caps s) 13 = slice s 71 77 := by rw [normal_caps]; rfl
  have e14 : g (normalL.caps s) 14 = slice s 77 80 := by rw [normal_caps]; rfl
  rw [e8, e9, e10, e11, e12, e13, e14]
  constructor
  · intro h
    obtain ⟨r, hr, h⟩ := bindOk.1 h
    obtain ⟨d, t, p, h1, h2, rfl⟩ := putDate_ok.1 hr
    obtain ⟨⟨ra, pra⟩, h3, h⟩ := bindOk.1 h
    obtain ⟨⟨dec, pdec⟩, h4, h⟩ := bindOk.1 h
    have : d = slice s 15 32 := by simp [get?_put, commonItem] at h1; exact h1.symm
    subst this
    exact ⟨t, p, ra, pra, dec, pdec, h2, h3, h4, by injection h with h; exact h.symm⟩
  · rintro ⟨t, p, ra, pra, dec, pdec, h2, h3, h4, rfl⟩
    refine bindOk.2 ⟨_, putDate_ok.2 ⟨_, t, p, by simp [get?_put, commonItem], h2, rfl⟩, ?_⟩
    refine bindOk.2 ⟨_, h3, ?_⟩
    exact bindOk.2 ⟨_, h4, rfl⟩

theorem decodeRadar1_ok {s : Str} {item : Item} : decodeRadar1 (radar1L.caps s) = .ok item ↔
    ∃ shift, (if strip (slice s 47 62) ≠ [] then packSigned (slice s 47 58 ++ ['.'] ++ slice s 58 62) else pure []) = .ok shift ∧ item = radar1Item s shift := by
  unfold decodeRadar1
  rw [putCommon_eq (s := s) (by rw [radar1_caps]; exact ⟨_, rfl⟩)]
  have e8 : g (radar1L.caps s) 8 = slice s 32 47 := by rw [radar1_caps]; rfl
  have e9 : g (radar1L.caps s) 9 = slice s 47 62 := by rw [radar1_caps]; rfl
  have e10 : g (radar1L.caps s) 10 = slice s 62 68 := by rw [radar1_caps]; rfl
  have e11 : g (radar1L.caps s) 11 = slice s 68 71 := by rw [radar1_caps]; rfl
  have e12 : g (radar1L.caps s) 12 = slice s 71 77 := by rw [radar1_caps]; rfl
  have e13 : g (radar1L.caps s) 13 = slice s 77 80 := by rw [radar1_caps]; rfl
  rw [e8, e9, e10, e11, e12, e13]
  simp only [drop_slice, slice_slice s (show 32 + 5 ≤ 47 by omega), slice_slice s (show 47 + 11 ≤ 62 by omega), slice_slice s (show 62 + 5 ≤ 68 by omega)]
  unfold radar1Item
  by_cases hb : strip (slice s 47 62) ≠ []
  · rw [if_pos hb, if_pos hb, bindOk]
    constructor
    · rintro ⟨shift, h1, h2⟩
      exact ⟨shift, h1, by injection h2 with h2; exact h2.symm⟩
    · rintro ⟨shift, h1, rfl⟩
      exact ⟨shift, h1, rfl⟩
  · rw [if_neg hb, if_neg hb, bindOk]
    constructor
    · rintro ⟨shift, h1, h2⟩
      exact ⟨shift, h1, by injection h2 with h2; exact h2.symm⟩
    · rintro ⟨shift, h1, rfl⟩
      exact ⟨shift, h1, rfl⟩

theorem decodeRadar2_eq (s : Str) : decodeRadar2 (radar2L.caps s) = radar2Item s := by
  unfold decodeRadar2
  rw [putCommon_eq (s := s) (by rw [radar2_caps]; exact ⟨_, rfl⟩)]
  have e8 : g (radar2L.caps s) 8 = slice s 32 33 := by rw [radar2_caps]; rfl
  have e9 : g (radar2L.caps s) 9 = slice s 33 47 := by rw [radar2_caps]; rfl
  have e10 : g (radar2L.caps s) 10 = slice s 47 62 := by rw [radar2_caps]; rfl
  have e11 : g (radar2L.caps s) 11 = slice s 62 68 := by rw [radar2_caps]; rfl
  have e12 : g (radar2L.caps s) 12 = slice s 68 71 := by rw [radar2_caps]; rfl
  have e13 : g (radar2L.caps s) 13 = slice s 71 77 := by rw [radar2_caps]; rfl
  have e14 : g (radar2L.caps s) 14 = slice s 77 80 := by rw [radar2_caps]; rfl
  rw [e8, e9, e10, e11, e12, e13, e14]
  simp only [drop_slice, slice_slice s (show 33 + 10 ≤ 47 by omega), slice_slice s (show 47 + 11 ≤ 62 by omega)]
  rfl

theorem decodeRover_eq (s : Str) : decodeRover (roverL.caps s) = roverItem s := by
  unfold decodeRover
  rw [putCommon_eq (s := s) (by rw [rover_caps]; exact ⟨_, rfl⟩)]
  have e8 : g (roverL.caps s) 8 = slice s 34 44 := by rw [rover_caps]; rfl
  have e9 : g (roverL.caps s) 9 = slice s 45 55 := by rw [rover_caps]; rfl
  have e10 : g (roverL.caps s) 10 = slice s 56 61 := by rw [rover_caps]; rfl
  have e11 : g (roverL.caps s) 11 = slice s 71 77 := by rw [rover_caps]; rfl
  have e12 : g (roverL.caps s) 12 = slice s 77 80 := by rw [rover_caps]; rfl
  rw [e8, e9, e10, e11, e12]
  rfl

/-- decimals of a satellite coordinate -/
def satDigits (s : Str) : Int := if slice s 32 33 = c! "1" then 7 else 3

theorem decodeSat_ok {s : Str} {item : Item} : decodeSat (satL.caps s) = .ok item ↔
    ∃ p1 p2 p3, packSigned (slice s 34 45) = .ok p1 ∧ packSigned (slice s 46 57) = .ok p2 ∧ packSigned (slice s 58 69) = .ok p3 ∧
      unPackSigned p1 11 (satDigits s) = .ok (slice s 34 45) ∧ unPackSigned p2 11 (satDigits s) = .ok (slice s 46 57) ∧
      unPackSigned p3 11 (satDigits s) = .ok (slice s 58 69) ∧ item = satItem s p1 p2 p3 := by
  unfold decodeSat
  rw [putCommon_eq (s := s) (by rw [sat_caps]; exact ⟨_, rfl⟩)]
  have e8 : g (satL.caps s) 8 = slice s 32 33 := by rw [sat_caps]; rfl
  have e9 : g (satL.caps s) 9 = slice s 34 45 := by rw [sat_caps]; rfl
  have e10 : g (satL.caps s) 10 = slice s 46 57 := by rw [sat_caps]; rfl
  have e11 : g (satL.caps s) 11 = slice s 58 69 := by rw [sat_caps]; rfl
  have e12 : g (satL.caps s) 12 = slice s 71 77 := by rw [sat_caps]; rfl
  have e13 : g (satL.caps s) 13 = slice s 77 80 := by rw [sat_caps]; rfl
  rw [e8, e9, e10, e11, e12, e13]
  unfold satItem satDigits
  have hs : ((if slice s 32 33 = c! "1" then (c! "ICRF_KM", (7 : Int)) else (c! "ICRF_AU", 3)) : Str × Int) =
      (if slice s 32 33 = c! "1" then c! "ICRF_KM" else c! "ICRF_AU", if slice s 32 33 = c! "1" then 7 else 3) := by split <;> rfl
  rw [hs]
  generalize (if slice s 32 33 = c! "1" then (7 : Int) else 3) = nd
  generalize (if slice s 32 33 = c! "1" then c! "ICRF_KM" else c! "ICRF_AU") = sys
  constructor
  · intro h
    obtain ⟨p1, h1, h⟩ := bindOk.1 h
    obtain ⟨p2, h2, h⟩ := bindOk.1 h
    obtain ⟨p3, h3, h⟩ := bindOk.1 h
    obtain ⟨q1, k1, h⟩ := bindOk.1 h
    split at h
    · simp [raiseRT] at h
    rename_i g1
    obtain ⟨q2, k2, h⟩ := bindOk.1 h
    split at h
    · simp [raiseRT] at h
    rename_i g2
    obtain ⟨q3, k3, h⟩ := bindOk.1 h
    split at h
    · simp [raiseRT] at h
    rename_i g3
    simp only [ne_eq, Decidable.not_not] at g1 g2 g3
    subst g1 g2 g3
    exact ⟨p1, p2, p3, h1, h2, h3, k1, k2, k3, by injection h with h; exact h.symm⟩
  · rintro ⟨p1, p2, p3, h1, h2, h3, k1, k2, k3, rfl⟩
    refine bindOk.2 ⟨p1, h1, bindOk.2 ⟨p2, h2, bindOk.2 ⟨p3, h3, bindOk.2 ⟨_, k1, ?_⟩⟩⟩⟩
    rw [if_neg (by simp)]
    refine bindOk.2 ⟨_, k2, ?_⟩
    rw [if_neg (by simp)]
    refine bindOk.2 ⟨_, k3, ?_⟩
    rw [if_neg (by simp)]
    rfl

/-! ### the code column selects the format -/


theorem common_ok (s : Str) (p : Char → Bool) (l : Layout) : Layout.ok (common1L ++ [⟨some 4, [.one p]⟩] ++ common2L ++ l) s ↔
    (∀ c ∈ slice s 0 1, (ch ' ' c || alnum c || ch '~' c) = true) ∧ (∀ c ∈ slice s 1 12, (alnum c || ch ' ' c) = true) ∧ (∀ c ∈ slice s 12 13, oneOf [' ', '*', '+'] c = true) ∧
      (∀ c ∈ slice s 13 14, anyCh c = true) ∧ (∀ c ∈ slice s 14 15, p c = true) ∧ (∀ c ∈ slice s 15 19, isDec c = true) ∧
      (∀ c ∈ slice s 19 20, (ch ' ' c || rng 'a' 'e' c) = true) ∧ (∀ c ∈ slice s 20 32, numCh c = true) ∧ Layout.ok l (s.drop 32) := by
  simp only [common1L, common2L, List.cons_append, List.nil_append, Layout.ok, Field.width, subsWidth, Sub.width, subsOk, Sub.ok, List.drop_drop, List.take_take,
    List.drop_take, slice, Nat.add_zero, Nat.reduceAdd, Nat.reduceSub, List.drop_zero, and_true, and_assoc]
  exact Iff.rfl

theorem oneOf_iff (l : Str) (c : Char) : oneOf l c = true ↔ c ∈ l := by
  simp only [oneOf, List.any_eq_true, beq_iff_eq, Char.toNat_inj]
  constructor
  · rintro ⟨a, h, rfl⟩; exact h
  · intro h; exact ⟨c, h, rfl⟩

theorem one_col {s : Str} {n : Nat} {c : Char} (h : s[n]? = some c) : slice s n (n + 1) = [c] := by
  obtain ⟨h1, h2⟩ := List.getElem?_eq_some_iff.1 h
  unfold slice
  rw [List.drop_eq_getElem_cons h1, h2]
  simp

/-- the code column, column 15 -/
theorem normal_code {s : Str} (h : normalL.ok s) {c : Char} (hc : s[14]? = some c) : c ∈ c! "A PeCBTMcEOHNnSVXx" := by
  have := (common_ok _ _ _).1 h
  have := this.2.2.2.2.1 c (by rw [one_col hc]; simp)
  exact (oneOf_iff _ _).1 this
theorem radar1_code {s : Str} (h : radar1L.ok s) {c : Char} (hc : s[14]? = some c) : c = 'R' := by
  have := (common_ok _ _ _).1 h
  have := this.2.2.2.2.1 c (by rw [one_col hc]; simp)
  exact (ch_iff _ _).1 this
theorem radar2_code {s : Str} (h : radar2L.ok s) {c : Char} (hc : s[14]? = some c) : c = 'r' := by
  have := (common_ok _ _ _).1 h
  have := this.2.2.2.2.1 c (by rw [one_col hc]; simp)
  exact (ch_iff _ _).1 this
theorem sat_code {s : Str} (h : satL.ok s) {c : Char} (hc : s[14]? = some c) : c = 's' := by
  have := (common_ok _ _ _).1 h
  have := this.2.2.2.2.1 c (by rw [one_col hc]; simp)
  exact (ch_iff _ _).1 this
theorem rover_code {s : Str} (h : roverL.ok s) {c : Char} (hc : s[14]? = some c) : c = 'v' := by
  have := (common_ok _ _ _).1 h
  have := this.2.2.2.2.1 c (by rw [one_col hc]; simp)
  exact (ch_iff _ _).1 this

theorem decodeColumns_eq {s : Str} (h : s.length = 80) : decodeColumns s =
    if normalL.ok s then decodeNormal (normalL.caps s) else if radar1L.ok s then decodeRadar1 (radar1L.caps s) else if radar2L.ok s then .ok (radar2Item s)
    else if satL.ok s then decodeSat (satL.caps s) else if roverL.ok s then .ok (roverItem s) else raiseRT := by
  unfold decodeColumns
  rw [normal_match h, radar1_match h, radar2_match h, sat_match h, rover_match h, ← decodeRadar2_eq, ← decodeRover_eq]
  repeat' (split <;> simp_all)

theorem decodeColumns_ok {s : Str} (h : s.length = 80) {item : Item} : decodeColumns s = .ok item ↔
    (normalL.ok s ∧ decodeNormal (normalL.caps s) = .ok item) ∨ (radar1L.ok s ∧ decodeRadar1 (radar1L.caps s) = .ok item) ∨
    (radar2L.ok s ∧ item = radar2Item s) ∨ (satL.ok s ∧ decodeSat (satL.caps s) = .ok item) ∨ (roverL.ok s ∧ item = roverItem s) := by
  rw [decodeColumns_eq h]
  obtain ⟨c, hc⟩ : ∃ c, s[14]? = some c := ⟨s[14], by simp [h]⟩
  have k0 := fun hh => normal_code (s := s) hh hc
  have k1 := fun hh => radar1_code (s := s) hh hc
  have k2 := fun hh => radar2_code (s := s) hh hc
  have k3 := fun hh => sat_code (s := s) hh hc
  have k4 := fun hh => rover_code (s := s) hh hc
  by_cases h0 : normalL.ok s
  · have n1 : ¬ radar1L.ok s := fun hh => by have := k0 h0; rw [k1 hh] at this; simp at this
    have n2 : ¬ radar2L.ok s := fun hh => by have := k0 h0; rw [k2 hh] at this; simp at this
    have n3 : ¬ satL.ok s := fun hh => by have := k0 h0; rw [k3 hh] at this; simp at this
    have n4 : ¬ roverL.ok s := fun hh => by have := k0 h0; rw [k4 hh] at this; simp at this
    simp [h0, n1, n2, n3, n4]
  · by_cases h1 : radar1L.ok s
    · have n2 : ¬ radar2L.ok s := fun hh => by have := (k1 h1).symm.trans (k2 hh); simp at this
      have n3 : ¬ satL.ok s := fun hh => by have := (k1 h1).symm.trans (k3 hh); simp at this
      have n4 : ¬ roverL.ok s := fun hh => by have := (k1 h1).symm.trans (k4 hh); simp at this
      simp [h0, h1, n2, n3, n4]
    · by_cases h2 : radar2L.ok s
      · have n3 : ¬ satL.ok s := fun hh => by have := (k2 h2).symm.trans (k3 hh); simp at this
        have n4 : ¬ roverL.ok s := fun hh => by have := (k2 h2).symm.trans (k4 hh); simp at this
        simp [h0, h1, h2, n3, n4, eq_comm]
      · by_cases h3 : satL.ok s
        · have n4 : ¬ roverL.ok s := fun hh => by have := (k3 h3).symm.trans (k4 hh); simp at this
          simp [h0, h1, h2, h3, n4]
        · by_cases h4 : roverL.ok s <;> simp [h0, h1, h2, h3, h4, eq_comm, raiseRT]

/-- a decoded line that is not a header has 80 columns, of one of the five kinds -/
theorem decode_ok {s : Str} {item : Item} : decode80ColumnDataLine s = .ok item ↔ (s = [] ∧ item = []) ∨
    (s ≠ [] ∧ s.length ≤ 80 ∧ ∃ m, reMatch headerRegex s = some m ∧ item = ((Item.put [] (c! "headerKeyword") (g m 1)).put (c! "headerValue") (g m 2)).put (c! "code") (c! "0")) ∨
    (s.length = 80 ∧ reMatch headerRegex s = none ∧ ∃ ret, decodeColumns s = .ok ret ∧ decodeChecks ret = .ok item) := by
  unfold decode80ColumnDataLine
  by_cases h0 : s = []
  · simp [h0, eq_comm]
  · rw [if_neg h0]
    by_cases h1 : s.length > 80
    · rw [if_pos h1]
      simp only [raiseRT, reduceCtorEq, false_iff]
      rintro (h | h | h)
      · exact h0 h.1
      · exact absurd h.2.1 (by omega)
      · exact absurd h.1 (by omega)
    · rw [if_neg h1]
      cases hm : reMatch headerRegex s with
      | some m => simp [h0, eq_comm]; omega
      | none =>
        simp only [h0, reduceCtorEq, false_and, exists_false, and_false, false_or, true_and]
        split
        · simp_all [raiseRT]
        · rw [bindOk]; simp_all

end Verif.Mpc80

