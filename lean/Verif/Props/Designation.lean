import Verif.Lemmas.Designation
/-!
  C01–C08, C11: packing and unpacking of every valid designation.

  `Spec.Designation` (Verif/Spec/Designation.lean) lists the designations, the text ADES uses for
  them and the 12 columns the MPC documents; the theorems say that `packTupleID` and
  `unpackPackedID` convert between exactly these.  `Reads cols d` : `unpackPackedID cols` returns
  the permID, provID and trkSub texts of `d` (a bare minor-planet number is reported with
  trkSub `''` instead of `None`).
-/
namespace Verif
open Verif.PackUtil Verif.Spec

/-- pack gives the documented columns, which unpack to the same designation -/
def RoundTrips (d : Designation) : Prop :=
  packTupleID ⟨d.permText, d.provText, d.trkText⟩ = .ok d.columns ∧ d.columns.length = 12 ∧ Reads d.columns d

/-- **C01–C07, all classes at once.** Every valid designation packs to its documented 12 columns, and these
    unpack to the designation. -/
theorem designation_round_trip {d : Designation} (h : d.Valid) : RoundTrips d :=
  ⟨pack_valid h, columns_length h, unpack_valid h⟩

/-! ### C01 minor-planet numbers -/

/-- **C01.** -/
theorem C01_number_round_trip (n : Nat) (h1 : 1 ≤ n) (h2 : n ≤ 15396335) :
    ∃ cols, packTupleID ⟨some (dec n), none, none⟩ = .ok cols ∧ cols.length = 12 ∧
      unpackPackedID cols = .ok ⟨some (dec n), none, some []⟩ := by
  obtain ⟨a, b, c⟩ := designation_round_trip (d := .perm (.minor n)) ⟨h1, h2⟩
  exact ⟨_, a, b, c⟩
example : packTupleID ⟨some "620061".toList, none, none⟩ = .ok "~000z       ".toList := by decide +kernel
example : unpackPackedID "~000z       ".toList = .ok ⟨some "620061".toList, none, some []⟩ := by decide +kernel

/-- **C01.** Numbers that do not exist are refused, whatever the rest of the triple. -/
theorem C01_number_refused (n : Nat) (h : n = 0 ∨ 15396335 < n) (provID trkSub : Option Str) :
    packTupleID ⟨some (dec n), provID, trkSub⟩ = raiseRT := by
  simp only [packTupleID, dec_eq, packPerm_minor_err h, raiseRT, bind, Except.bind]
example : packTupleID ⟨some (dec 15396336), none, none⟩ = raiseRT := C01_number_refused _ (by omega) _ _

/-! ### C02, C03, C04 provisional designations of minor planets -/

/-- **C02.** -/
theorem C02_normal_round_trip (y : Nat) (half order : Char) (c : Nat) (h1 : 1800 ≤ y) (h2 : y ≤ 2099)
    (hh : half ∈ halfMonths) (ho : order ∈ orders) (hc : c ≤ 619) :
    let text := dec y ++ [' ', half, order] ++ count c
    let cols := List.replicate 5 ' ' ++ (yearCols y ++ [half] ++ countCols c ++ [order])
    packTupleID ⟨none, some text, none⟩ = .ok cols ∧ unpackPackedID cols = .ok ⟨none, some text, none⟩ := by
  have hv : (Designation.prov (.minor y half order c)).Valid := ⟨h1, h2, hh, ho, Or.inl hc⟩
  have e : (Designation.prov (.minor y half order c)).columns =
      List.replicate 5 ' ' ++ (yearCols y ++ [half] ++ countCols c ++ [order]) := by
    simp [Designation.columns, Prov.cols, hc, List.replicate]
  have hu := unpack_valid hv
  rw [Reads, e] at hu
  refine ⟨?_, hu⟩
  rw [← e]; exact pack_valid hv
example : packTupleID ⟨none, some "1995 XA12".toList, none⟩ = .ok "     J95X12A".toList := by decide +kernel

/-- **C03.** -/
theorem C03_extended_round_trip (y : Nat) (half order : Char) (c : Nat) (h1 : 2025 ≤ y) (h2 : y ≤ 2035)
    (hh : half ∈ halfMonths) (ho : order ∈ orders) (hc : 620 ≤ c)
    (hc2 : 25 * c + orderIndex order ≤ 25 * 591673 + orderIndex 'L') :
    let text := dec y ++ [' ', half, order] ++ dec c
    let cols := List.replicate 5 ' ' ++ ['_', b62 (y % 100), half] ++ b62x4 (25 * c + orderIndex order - 25 * 620)
    packTupleID ⟨none, some text, none⟩ = .ok cols ∧ unpackPackedID cols = .ok ⟨none, some text, none⟩ := by
  have hL : orderIndex 'L' = 10 := by decide +kernel
  have hv : (Designation.prov (.minor y half order c)).Valid := ⟨by omega, by omega, hh, ho, Or.inr ⟨h1, h2, by omega⟩⟩
  have hcnt : count c = dec c := by simp [count]; omega
  have e : (Designation.prov (.minor y half order c)).columns =
      List.replicate 5 ' ' ++ ['_', b62 (y % 100), half] ++ b62x4 (25 * c + orderIndex order - 25 * 620) := by
    simp [Designation.columns, Prov.cols, show ¬ c ≤ 619 by omega, List.replicate]
  have hp := pack_valid hv
  have hu := unpack_valid hv
  rw [Reads, e] at hu
  rw [e] at hp
  simp only [ades, Designation.permText, Designation.provText, Designation.trkText, trkRead, Prov.text, hcnt] at hp hu
  exact ⟨hp, hu⟩
example : packTupleID ⟨none, some "2026 CA620".toList, none⟩ = .ok "     _QC0000".toList := by decide +kernel

/-- **C03.** Beyond cycle 591673, letter L the designation is refused, in every year. -/
theorem C03_extended_refused (y : Nat) (half order : Char) (c : Nat) (h1 : 1000 ≤ y) (h2 : y ≤ 9999)
    (hh : half ∈ halfMonths) (ho : order ∈ orders) (hc : 25 * 591673 + orderIndex 'L' < 25 * c + orderIndex order) :
    packTupleID ⟨none, some (dec y ++ [' ', half, order] ++ dec c), none⟩ = raiseRT := by
  have hL : orderIndex 'L' = 10 := by decide +kernel
  have ho' := (order_of_index ho).2
  have hcnt : dec c = numOrBlank c := by
    have : c ≠ 0 := by omega
    simp [numOrBlank, dec_eq, this]
  rw [hcnt, dec_eq]
  simp only [packTupleID, packPerm, packProv_minor h1 h2 hh ho, bind, Except.bind]
  have h6 : ¬ c ≤ 619 := by omega
  have h7 : 15500 + 62 ^ 4 ≤ 25 * c + orderIndex order := by omega
  by_cases hy : y < 1800 ∨ 6199 < y
  · simp only [if_pos hy, raiseRT]
  · simp only [if_neg hy, if_neg h6, if_pos h7, raiseRT]
example : packTupleID ⟨none, some "2026 CM591673".toList, none⟩ = raiseRT := by decide +kernel

/-- **C03 (finding).** The century is not written: extended designations of years a multiple of 100 apart get the
    same columns (so at most one of them can be read back). -/
theorem C03_century_lost (y k : Nat) (half order : Char) (c : Nat) (h1 : 1800 ≤ y) (h2 : y + 100 * k ≤ 6199) (hy : y % 100 < 62)
    (hh : half ∈ halfMonths) (ho : order ∈ orders) (hc : 620 ≤ c) (hc2 : 25 * c + orderIndex order ≤ 25 * 591673 + orderIndex 'L') :
    ∃ cols, packTupleID ⟨none, some (dec y ++ [' ', half, order] ++ dec c), none⟩ = .ok cols ∧
      packTupleID ⟨none, some (dec (y + 100 * k) ++ [' ', half, order] ++ dec c), none⟩ = .ok cols := by
  have hL : orderIndex 'L' = 10 := by decide +kernel
  have hcnt : dec c = numOrBlank c := by
    have : c ≠ 0 := by omega
    simp [numOrBlank, dec_eq, this]
  rw [hcnt, dec_eq, dec_eq]
  have h6 : ¬ c ≤ 619 := by omega
  have h7 : ¬ 15500 + 62 ^ 4 ≤ 25 * c + orderIndex order := by omega
  have he : (y + 100 * k) % 100 = y % 100 := by omega
  refine ⟨c! "    " ++ (Prov.minor y half order c).cols, ?_, ?_⟩
  · simp only [packTupleID, packPerm, packProv_minor (show 1000 ≤ y by omega) (show y ≤ 9999 by omega) hh ho, bind, Except.bind,
      if_neg h6, if_neg h7, if_neg (show ¬ (y < 1800 ∨ 6199 < y) by omega), if_neg (show ¬ 62 ≤ y % 100 by omega), packTrk, pure, Except.pure]
  · simp only [packTupleID, packPerm, packProv_minor (show 1000 ≤ y + 100 * k by omega) (show y + 100 * k ≤ 9999 by omega) hh ho, bind, Except.bind,
      if_neg h6, if_neg h7, if_neg (show ¬ (y + 100 * k < 1800 ∨ 6199 < y + 100 * k) by omega),
      if_neg (show ¬ 62 ≤ (y + 100 * k) % 100 by omega), packTrk, pure, Except.pure]
    simp only [Prov.cols, if_neg h6, he]
example : packTupleID ⟨none, some "1926 CA620".toList, none⟩ = .ok "     _QC0000".toList := by decide +kernel

/-- **C04.** -/
theorem C04_survey_round_trip (n : Nat) (s : Survey) (h : n ≤ 9999) :
    let text := fixed 4 n ++ [' ', s.letter, '-', s.digit]
    let cols := List.replicate 5 ' ' ++ [s.letter, s.digit, 'S'] ++ fixed 4 n
    packTupleID ⟨none, some text, none⟩ = .ok cols ∧ unpackPackedID cols = .ok ⟨none, some text, none⟩ := by
  have hv : (Designation.prov (.survey n s)).Valid := h
  have e : (Designation.prov (.survey n s)).columns = List.replicate 5 ' ' ++ [s.letter, s.digit, 'S'] ++ fixed 4 n := by
    simp [Designation.columns, Prov.cols, List.replicate]
  have hp := pack_valid hv
  have hu := unpack_valid hv
  rw [Reads, e] at hu
  rw [e] at hp
  simp only [ades, Designation.permText, Designation.provText, Designation.trkText, trkRead, Prov.text] at hp hu
  exact ⟨hp, hu⟩
example : packTupleID ⟨none, some "2040 P-L".toList, none⟩ = .ok "     PLS2040".toList := by decide +kernel

/-! ### C05 comets, C06 satellites, C07 tracklets -/

/-- is a comet designation -/
def IsComet : Designation → Prop
  | .perm (.comet ..) | .perm (.fragment ..) | .prov (.comet ..) | .prov (.fragment ..) => True
  | .both (.comet ..) _ | .both (.fragment ..) _ => True
  | _ => False
/-- is a natural satellite designation -/
def IsSatellite : Designation → Prop
  | .perm (.satellite ..) | .prov (.satellite ..) | .both (.satellite ..) _ => True
  | _ => False

/-- **C05.** Comets: `cols` is the packed form of the comet designation `d` exactly when it packs to it, and
    unpacking gives `d` back; consequently repacking what was read gives the same columns. -/
theorem C05_comet_round_trip {d : Designation} (h : d.Valid) (hc : IsComet d) :
    packTupleID (ades d) = .ok d.columns ∧ unpackPackedID d.columns = .ok (ades d) ∧ d.columns.length = 12 := by
  refine ⟨pack_valid h, ?_, columns_length h⟩
  have hr := unpack_valid h
  have : trkRead d = d.trkText := by
    cases d with
    | perm p => cases p <;> first | rfl | exact hc.elim
    | _ => rfl
  rw [Reads, this] at hr; exact hr
example : packTupleID ⟨some "73P-AF".toList, none, none⟩ = .ok "0073P     af".toList := by decide +kernel
example : packTupleID ⟨some "141P-B".toList, some "P/1994 P1-B".toList, none⟩ = .ok "0141PJ94P01b".toList := by decide +kernel
example : (Designation.both (.fragment 141 'P' ['B']) (.fragment 'P' 1994 'P' 1 'B')).Valid ∧
    IsComet (.both (.fragment 141 'P' ['B']) (.fragment 'P' 1994 'P' 1 'B')) := by
  simp [Designation.Valid, Perm.Valid, Prov.Valid, Compatible, IsComet, halfMonths, upperCase]

/-- **C06.** Natural satellites. -/
theorem C06_satellite_round_trip {d : Designation} (h : d.Valid) (hs : IsSatellite d) :
    packTupleID (ades d) = .ok d.columns ∧ unpackPackedID d.columns = .ok (ades d) ∧ d.columns.length = 12 := by
  refine ⟨pack_valid h, ?_, columns_length h⟩
  have hr := unpack_valid h
  have : trkRead d = d.trkText := by
    cases d with
    | perm p => cases p <;> first | rfl | exact hs.elim
    | _ => rfl
  rw [Reads, this] at hr; exact hr
example : packTupleID ⟨some "Jupiter 13".toList, some "S/2010 J 1".toList, none⟩ = .ok "J013SK10J010".toList := by decide +kernel
example : (Designation.both (.satellite .jupiter 13) (.satellite 2010 .jupiter 1)).Valid := by
  simp [Designation.Valid, Perm.Valid, Prov.Valid, Compatible]

/-- **C06.** Satellite number 0 (permanent or provisional) is refused. -/
theorem C06_satellite_zero_refused (p : Planet) (y : Nat) (h1 : 1000 ≤ y) (h2 : y ≤ 9999) :
    packTupleID ⟨some (p.name ++ [' ', '0']), none, none⟩ = raiseRT ∧
    packTupleID ⟨none, some (['S', '/'] ++ dec y ++ [' ', p.letter, ' ', '0']), none⟩ = raiseRT := by
  constructor
  · cases p <;> decide +kernel
  · have := packProv_satellite (n := 0) p h1 h2
    rw [show natStr 0 = ['0'] from rfl] at this
    rw [dec_eq]
    simp only [List.append_assoc, List.cons_append, List.nil_append] at this ⊢
    simp only [packTupleID, packPerm, this, bind, Except.bind]
    simp [raiseRT]

/-- **C07.** Tracklet IDs of up to seven characters. -/
theorem C07_tracklet_round_trip {t : Str} (h1 : 1 ≤ t.length) (h2 : t.length ≤ 7) (h3 : ∀ c ∈ t, c ∈ trkChars) (h4 : ¬ LooksPacked t) :
    ∃ cols, packTupleID ⟨none, none, some t⟩ = .ok cols ∧ cols.length = 12 ∧ unpackPackedID cols = .ok ⟨none, none, some t⟩ :=
  have hv : (Designation.tracklet t).Valid := ⟨h1, h2, h3, h4⟩
  ⟨_, pack_valid hv, columns_length hv, unpack_valid hv⟩
example : packTupleID ⟨none, none, some "a-1B".toList⟩ = .ok "     a-1B   ".toList := by decide +kernel
example : ∃ t : Str, 1 ≤ t.length ∧ t.length ≤ 7 ∧ (∀ c ∈ t, c ∈ trkChars) ∧ ¬ LooksPacked t := by
  refine ⟨"a-1B".toList, by decide, by decide, by decide +kernel, ?_⟩
  rintro (⟨_, _, _, _, _, _, _, h, _⟩ | ⟨s, n, hn, h⟩)
  · simp at h
  · have := congrArg List.length h
    rw [fixed4 (by omega)] at this; simp at this

/-- **C07.** Of an eight-character tracklet ID exactly the first character is dropped. -/
theorem C07_tracklet_eight {a : Char} {t : Str} (h2 : t.length = 7) (ha : a ∈ trkChars) (h3 : ∀ c ∈ t, c ∈ trkChars) :
    packTupleID ⟨none, none, some (a :: t)⟩ = .ok (List.replicate 5 ' ' ++ t) := by
  have hne : t.isEmpty = false := by cases t <;> simp_all
  simp only [packTupleID, packPerm, packProv, packTrk,
      trksub_match (t := a :: t) (by simp; omega) (by simpa using ⟨ha, h3⟩), group, List.find?_cons, beq_self_eq_true, Option.map_some, Option.getD_some,
      List.length_cons, h2, truthy, hne, Bool.not_false, if_true, List.drop_succ_cons, List.drop_zero,
      bind, Except.bind, pure, Except.pure, ljust, gt_iff_lt, Nat.lt_add_one]
  simp [List.replicate, h2]
example : packTupleID ⟨none, none, some "abcdefgh".toList⟩ = .ok "     bcdefgh".toList := by decide +kernel

/-- **C07 (finding).** The restriction is needed: a tracklet ID that looks packed is read back as a provisional designation. -/
theorem C07_lookalike : ∃ t cols, (∀ c ∈ t, c ∈ trkChars) ∧ packTupleID ⟨none, none, some t⟩ = .ok cols ∧
    unpackPackedID cols = .ok ⟨none, some "2014 AA".toList, none⟩ :=
  ⟨"K14A00A".toList, "     K14A00A".toList, by decide +kernel, by decide +kernel, by decide +kernel⟩

/-! ### C08 -/


/-- **C08.** Two valid designations with the same packed columns are the same designation. -/
theorem C08_columns_injective {d d' : Designation} (h : d.Valid) (h' : d'.Valid) (e : d.columns = d'.columns) : d = d' := by
  have h1 := unpack_valid h
  have h2 := unpack_valid h'
  rw [Reads] at h1 h2
  rw [e, h2] at h1
  injection h1 with h1
  injection h1 with e1 e2 e3
  refine designation_inj h h' e1.symm e2.symm ?_
  have hr : ∀ {d : Designation}, d.Valid → d.trkText = (if trkRead d = some [] then none else trkRead d) := by
    intro d h
    cases d with
    | perm p => cases p <;> rfl
    | prov => rfl
    | both => rfl
    | tracklet t =>
      have : t ≠ [] := by rintro rfl; exact absurd h.1 (by simp)
      simp [trkRead, Designation.trkText, this]
  rw [hr h, hr h', e3]

/-- **C08, as packed.** If two valid designations pack to the same result they are the same designation. -/
theorem C08_pack_injective {d d' : Designation} (h : d.Valid) (h' : d'.Valid) (e : packTupleID (ades d) = packTupleID (ades d')) : d = d' := by
  rw [pack_valid h, pack_valid h'] at e
  injection e with e
  exact C08_columns_injective h h' e

/-! ### C11 -/

/-- **C11.** A permID and provID of different kinds of object, or of different fragments of a comet, are refused. -/
theorem C11_contradiction_refused {p : Perm} {q : Prov} (hp : p.Valid) (hq : q.Valid) (trk : Option Str)
    (h : p.kind ≠ q.kind ∨ (p.kind = .cometFragment ∧ p.fragment? ≠ q.fragment?)) :
    packTupleID ⟨some p.text, some q.text, trk⟩ = raiseRT := by
  have ht : packTrk trk (some ⟨p.cols, permTy p, permFrag p⟩) (some ⟨q.cols, provTy q, provFrag q⟩) = .ok none := by
    cases trk <;> rfl
  simp only [packTupleID, packPerm_valid hp, packProv_valid hq, ht, bind, Except.bind]
  have hk : ∀ p : Perm, ∀ q : Prov, (permTy p = provTy q → p.kind = q.kind) ∧ (p.kind = .cometFragment → permTy p = .F) ∧
      permFrag p = p.fragment? ∧ provFrag q = q.fragment? := by
    intro p q
    refine ⟨?_, ?_, ?_, ?_⟩
    · cases p <;> cases q <;> simp [permTy, provTy, Perm.kind, Prov.kind] <;> split <;> simp
    · cases p <;> simp [permTy, Perm.kind]
    · cases p <;> rfl
    · cases q <;> rfl
  obtain ⟨k1, k2, k3, k4⟩ := hk p q
  by_cases hT : permTy p = provTy q
  · have hf : permTy p = .F ∧ permFrag p ≠ provFrag q := by
      rcases h with h | ⟨h, h'⟩
      · exact absurd (k1 hT) h
      · exact ⟨k2 h, by rw [k3, k4]; exact h'⟩
    simp only [ne_eq, hT, not_true, if_false] at hf ⊢
    rw [if_pos hf]
  · simp only [ne_eq, hT, not_false_iff, if_true]
example : packTupleID ⟨some "433".toList, some "P/1994 P1".toList, none⟩ = raiseRT := by decide +kernel
example : packTupleID ⟨some "141P-A".toList, some "P/1994 P1-B".toList, none⟩ = raiseRT := by decide +kernel

/-- **C11 (finding).** The orbit-type letters of the two halves of a comet are not compared: any provisional comet is accepted with any
    numbered comet, and its own type letter is lost. -/
theorem C11_comet_type_not_checked (n : Nat) (ty ty' : Char) (y : Nat) (half : Char) (o : Option Char) (c : Nat)
    (hp : (Perm.comet n ty).Valid) (hq : (Prov.comet ty' y half o c).Valid) (hA : ty' ≠ 'A') :
    packTupleID ⟨some (Perm.comet n ty).text, some (Prov.comet ty' y half o c).text, none⟩ =
      .ok (fixed 4 n ++ [ty] ++ yearCols y ++ [half] ++ countCols c ++ [o.getD '0']) := by
  simp only [packTupleID, packPerm_valid hp, packProv_valid hq, packTrk, bind, Except.bind, pure, Except.pure]
  simp [permTy, provTy, hA, Perm.cols, Prov.cols]
example : packTupleID ⟨some "141P".toList, some "C/1994 P1".toList, none⟩ = .ok "0141PJ94P010".toList := by decide +kernel

end Verif
