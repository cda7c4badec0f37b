import Verif.Spec.Sent
import Verif.Props.Angles
import Verif.Props.Written80
import Verif.Lemmas.XmlToPsvTable
import Verif.Lemmas.WidthsRun
/-
  Lemmas for C44: the columns written for arbitrary optical observations.
-/
namespace Verif.ToMpc80
open Verif Verif.Mpc80 Verif.PackUtil Verif.Spec.Mpc80 Verif.Xml Verif.Master
open Verif.Spec hiding Item Group fileText Group.lines contextElem

/-! ### fields -/

theorem dict_set {d : Dict} {k v n : Str} : dictGet (dictSet d k v) n = if n = k then some v else dictGet d n := ToPsv.dictGet_set

theorem field_get (e : Elem) (k : Str) : dictGet (ToPsv.subDict e) k = fieldOf e k := by
  unfold ToPsv.subDict fieldOf
  have : ∀ (l : List Elem) (d : Dict), dictGet (l.foldl (fun d i => let (t, x) := getElementTagText i; if x.isEmpty then d else dictSet d t x) d) k =
      (((l.filter fun j => j.tag = k ∧ strip (j.text.getD []) ≠ []).map fun j => strip (j.text.getD [])).getLast?).or (dictGet d k) := by
    intro l
    induction l with
    | nil => intro d; rfl
    | cons i l ih =>
      intro d
      rw [List.foldl_cons, ih]
      have hx : (getElementTagText i) = (i.tag, strip (i.text.getD [])) := by
        unfold getElementTagText regularizeWhiteSpace
        cases i.text with
        | none => rfl
        | some t => rfl
      rw [hx]
      simp only
      rw [List.filter_cons]
      by_cases he : strip (i.text.getD []) = []
      · simp [he]
      · have he' : (strip (i.text.getD [])).isEmpty = false := by simpa using he
        rw [if_neg (by simp [he']), dict_set]
        by_cases hk : i.tag = k
        · simp only [hk, he, ne_eq, not_false_eq_true, and_self, decide_true, if_true, List.map_cons, List.getLast?_cons]
          cases (((l.filter fun j => j.tag = k ∧ strip (j.text.getD []) ≠ []).map fun j => strip (j.text.getD [])).getLast?) <;> simp
        · rw [if_neg (c := k = i.tag) (fun h => hk h.symm)]
          simp only [hk, false_and, decide_false, Bool.false_eq_true, if_false]
  rw [this]
  cases ((e.kids.filter fun j => j.tag = k ∧ strip (j.text.getD []) ≠ []).map fun j => strip (j.text.getD [])).getLast? <;> rfl

/-! ### time -/

theorem digitsNat_pad (ds : Str) (k : Nat) : digitsNat (ds ++ List.replicate k '0') = digitsNat ds * 10 ^ k := by
  induction k with
  | zero => simp
  | succ k ih =>
    rw [List.replicate_succ', ← List.append_assoc]
    unfold digitsNat at *
    rw [List.foldl_append, ih]
    simp only [List.foldl_cons, List.foldl_nil]
    rw [show '0'.toNat - 48 = 0 from rfl, Nat.pow_succ]; ring

theorem pyNat_digits {ds : Str} (h : ∀ c ∈ ds, c ∈ digits10) (hne : ds ≠ []) : pyNat ds = .ok (digitsNat ds) := by
  have key : ∀ (ds : Str) (acc : Nat) (b : Bool), (∀ c ∈ ds, c ∈ digits10) → (ds ≠ [] ∨ b = true) →
      intDigits acc b ds = some (ds.foldl (fun n c => 10 * n + (c.toNat - 48)) acc) := by
    intro ds
    induction ds with
    | nil => intro acc b _ hb; simp at hb; simp [intDigits, hb]
    | cons c ds ih =>
      intro acc b hd _
      have hc := hd c (by simp)
      have : ∃ d < 10, c = digitChar d ∧ c.toNat - 48 = d := by
        have q : digits10.all (fun c => (List.range 10).any fun d => decide (c = digitChar d ∧ c.toNat - 48 = d)) = true := by decide
        have := all_mem q hc
        simp only [List.any_eq_true, List.mem_range, decide_eq_true_eq] at this
        exact this
      obtain ⟨d, hd10, rfl, hval⟩ := this
      rw [intDigits_cons hd10, List.foldl_cons, hval, ih _ _ (fun c hc => hd c (by simp [hc])) (.inr rfl)]
      congr 2; ring
  unfold pyNat
  rw [key ds 0 false h (.inl hne)]
  rfl

theorem core_prec {t : Sex.DateTime} {p : Sex.Num} {n : Nat} (h1 : 1 ≤ n) (h6 : n ≤ 6) (hp : ¬ p.f.val ≤ 0) (hl : 6 - Flt.truncLog10 p.f.val = (n : Int)) :
    Sex.backCore t p = Sex.backCore t (.int (10 ^ (6 - n))) := by
  obtain ⟨p1, _, p3⟩ := Sex.prec_digits h1 h6
  unfold Sex.backCore
  rw [if_neg hp, if_neg p1, p3, hl]

theorem units_prec : ∀ u ∈ timeUnits, 1 ≤ u.2 ∧ u.2 ≤ 6 ∧ ¬ (Flt.rnd (u.1 : ℚ)) ≤ 0 ∧ 6 - Flt.truncLog10 (Flt.rnd (u.1 : ℚ)) = (u.2 : Int) := by
  decide +kernel

theorem digitsNat_lt (ds : Str) (h : ∀ c ∈ ds, c ∈ digits10) : digitsNat ds < 10 ^ ds.length := by
  by_cases hne : ds = []
  · subst hne; decide
  · exact pyNat_bound (pyNat_digits h hne)

/-- the date columns for an arbitrary time -/
theorem time_column {a : Sent} (h : a.Writable) : ∃ (p : Flt.F64) (d : ObsDate) (k : Nat), Flt.parse a.precTime.text = .ok p ∧ Sex.isoToSexDate a.timeText (.flt p) = .ok d.column ∧
    d.year = a.year ∧ d.month = a.month ∧ d.day = a.day ∧ (∃ u ∈ timeUnits, a.precTime.value = (u.1 : ℚ) ∧ d.digits = u.2) ∧ d.frac = k % 10 ^ d.digits ∧
    |a.seconds / 86400 * ((10 ^ d.digits : Nat) : ℚ) - k| ≤ 1 / 2 + 1 / 10 ^ 9 := by
  obtain ⟨hv, u, hu, hval⟩ := h.precTime
  obtain ⟨u1, u6, u2, u3⟩ := units_prec u hu
  have hpos : (0 : ℚ) < (u.1 : ℚ) := by
    have q : ∀ u ∈ timeUnits, 0 < u.1 := by decide
    have := q u hu
    exact_mod_cast this
  have hp := Verif.parse_unit hv hpos hval
  have h31 := Sex.monthDays_le (y := a.year) (m := a.month)
  have hy := h.year; have hm := h.month; have hd := h.day
  have hsec := h.second
  have hback : ∃ us : Nat, us < 1000000 ∧ a.seconds = a.second + (us : ℚ) / 1000000 ∧ ∀ prec, Sex.isoToSexDate a.timeText prec = Sex.backCore ⟨a.year, a.month, a.day, a.second * 1000000 + us⟩ prec := by
    unfold Sent.timeText Sent.seconds
    cases hdec : a.decimals with
    | none =>
      obtain ⟨w1, w2⟩ := Sex.strptime_whole (y := a.year) (m := a.month) (d := a.day) (w := a.second) (by omega) hy.2 hm.1 hm.2 hd.1 hd.2 hsec
      refine ⟨0, by omega, by simp [digitsNat], fun prec => ?_⟩
      rw [Nat.add_zero]
      exact Sex.back_whole w1 w2 prec
    | some ds =>
      obtain ⟨d1, d6, dd⟩ := h.decimals ds (by simp [hdec])
      have dd : ∀ c ∈ ds, c ∈ digits10 := dd
      have hpad : ∀ c ∈ ds ++ List.replicate (6 - ds.length) '0', c ∈ digits10 := by
        intro c hc
        rcases List.mem_append.1 hc with hc | hc
        · exact dd c hc
        · rw [List.eq_of_mem_replicate hc]; decide
      have hn := pyNat_digits hpad (by intro e; rw [List.append_eq_nil_iff] at e; rw [e.1] at d1; simp at d1)
      rw [digitsNat_pad] at hn
      have hlt := digitsNat_lt ds dd
      have e6 : 10 ^ ds.length * 10 ^ (6 - ds.length) = 1000000 := by rw [← Nat.pow_add, show ds.length + (6 - ds.length) = 6 by omega]
      refine ⟨digitsNat ds * 10 ^ (6 - ds.length), ?_, ?_, fun prec => ?_⟩
      · rw [← e6]; exact Nat.mul_lt_mul_of_pos_right hlt (by positivity)
      · congr 1
        simp only [Option.getD_some]
        have e6' : ((10 ^ ds.length : Nat) : ℚ) * ((10 ^ (6 - ds.length) : Nat) : ℚ) = 1000000 := by exact_mod_cast e6
        have hp1 : ((10 ^ ds.length : Nat) : ℚ) ≠ 0 := by positivity
        rw [div_eq_div_iff hp1 (by norm_num), ← e6']; push_cast; ring
      · exact Sex.back_frac (Sex.strptime_frac (by omega) hy.2 hm.1 hm.2 hd.1 hd.2 hsec dd d1 d6 hn) prec
  obtain ⟨us, hus, hs, hb⟩ := hback
  obtain ⟨k, k1, k2⟩ := Sex.back_any (y := a.year) (m := a.month) (d := a.day) u1 u6 hsec hus (by omega) hy.2 (by omega) (by omega)
  refine ⟨_, ⟨a.year, a.month, a.day, u.2, k % 10 ^ u.2⟩, k, hp, ?_, rfl, rfl, rfl, ⟨u, hu, hval, rfl⟩, rfl, ?_⟩
  · rw [hb, core_prec (p := .flt ⟨false, Flt.rnd (u.1 : ℚ)⟩) u1 u6 u2 u3, k2]
  · rw [hs]; push_cast; exact k1

/-! ### the other columns -/

section columns
variable {a : Sent} {pt pr pd : Str} {e : Elem}

theorem key_or (e : Elem) (k v : Str) : hasKeyOrVal (ToPsv.subDict e) k v = (fieldOf e k).getD v := by
  unfold hasKeyOrVal; rw [field_get]

theorem item_field {k v : Str} (h : fieldOf e k = some v) : Psv.getItem (ToPsv.subDict e) k = .ok v := item_of (by rw [field_get, h])

theorem perm_some {p : Str} (h : packPerm (some p) = .ok none) : False := by
  unfold packPerm at h
  obtain ⟨a1, -, h⟩ := bind_inv h
  obtain ⟨a2, -, h⟩ := bind_inv h
  obtain ⟨a3, -, h⟩ := bind_inv h
  obtain ⟨a4, -, h⟩ := bind_inv h
  split at h
  · cases h
  · split at h
    · split at h <;> cases h
    · cases h

theorem prov_some {p : Str} (h : packProv (some p) = .ok none) : False := by
  unfold packProv at h
  obtain ⟨a1, -, h⟩ := bind_inv h
  obtain ⟨a2, -, h⟩ := bind_inv h
  obtain ⟨a3, -, h⟩ := bind_inv h
  obtain ⟨a4, -, h⟩ := bind_inv h
  obtain ⟨a5, -, h⟩ := bind_inv h
  split at h
  · split at h <;> cases h
  · cases h

/-- a name of the observer's own does not matter beside a designation -/
theorem pack_beside (p q t : Option Str) (h : p ≠ none ∨ q ≠ none) : packTupleID ⟨p, q, t⟩ = packTupleID ⟨p, q, none⟩ := by
  unfold packTupleID
  simp only
  cases hp : packPerm p with
  | error e => rfl
  | ok x =>
    cases hq : packProv q with
    | error e => rfl
    | ok y =>
      simp only [Sex.okBind]
      cases x with
      | some x => cases t <;> rfl
      | none =>
        cases y with
        | some y =>
          cases t with
          | none => rfl
          | some t =>
            have : ∃ z, packTrk (some t) none (some y) = .ok z := by
              unfold packTrk
              simp only [Option.isSome_some, if_true, ite_self]
              exact ⟨_, rfl⟩
            obtain ⟨z, hz⟩ := this
            rw [hz]; rfl
        | none =>
          exfalso
          rcases h with h | h
          · cases p with
            | none => exact h rfl
            | some p => exact perm_some hp
          · cases q with
            | none => exact h rfl
            | some q => exact prov_some hq

theorem id_column (h : a.desig.Valid) (hi : a.In pt pr pd e) : idColumns (ToPsv.subDict e) = .ok a.desig.columns := by
  unfold idColumns
  rw [field_get, field_get, field_get, field_get, hi.artSat, hi.permID, hi.provID]
  refine Eq.trans ?_ (pack_valid h)
  show packTupleID ⟨_, _, _⟩ = _
  cases hd : a.desig with
  | tracklet t => rw [hi.trkSub t (by rw [hd]; rfl)]; rfl
  | perm p => exact pack_beside _ _ _ (.inl (by simp [Designation.permText]))
  | prov q => exact pack_beside _ _ _ (.inr (by simp [Designation.provText]))
  | both p q => exact pack_beside _ _ _ (.inl (by simp [Designation.permText]))

theorem prog_letter {i : Nat} (h : i < 62 * 62) : unpackProgID [b62 (i / 62), b62 (i % 62)] = .ok (programLetters.getD i ' ') := by
  have h1 : charAt [b62 (i / 62), b62 (i % 62)] 1 = .ok (b62 (i % 62)) := rfl
  have h0 : charAt [b62 (i / 62), b62 (i % 62)] 0 = .ok (b62 (i / 62)) := rfl
  have e : i % 62 + 62 * (i / 62) = i := by omega
  unfold unpackProgID
  simp only [h1, h0, bind, Except.bind, unpackLetter_b62 (show i % 62 < 62 by omega), unpackLetter_b62 (show i / 62 < 62 by omega), e]
  by_cases h93 : i ≤ 93
  · have q : (List.range 94).all (fun i => decide (charAt programCodesArray i = .ok (programLetters.getD i ' '))) = true := by decide +kernel
    rw [if_pos h93, of_decide_eq_true (List.all_eq_true.1 q i (List.mem_range.2 (by omega)))]
  · rw [if_neg h93]
    have : programLetters.length = 94 := by decide
    rw [List.getD_eq_getElem?_getD, List.getElem?_eq_none (by omega)]
    rfl

theorem note_column (h : a.Writable) (hi : a.In pt pr pd e) :
    ∃ n, charAt (hasKeyOrVal (ToPsv.subDict e) (c! "notes") [' ']) 0 = .ok n ∧ notesColumn (ToPsv.subDict e) n = .ok [a.noteLetter] := by
  rw [key_or, hi.notes]
  have hne : ∀ v, a.notes = some v → v ≠ [] := by
    intro v hv
    have := hi.notes
    rw [hv] at this
    have := field_value (e := e) (by rw [field_get, this])
    obtain ⟨_, _, _, _, _, _, h⟩ := this
    exact h
  have hc : ∃ n, charAt (a.notes.getD [' ']) 0 = .ok n ∧ n = ((a.notes.getD []).head?).getD ' ' := by
    cases hn : a.notes with
    | none => exact ⟨' ', rfl, rfl⟩
    | some v =>
      cases v with
      | nil => exact absurd rfl (hne [] hn)
      | cons c v => exact ⟨c, rfl, rfl⟩
  obtain ⟨n, n1, n2⟩ := hc
  refine ⟨n, n1, ?_⟩
  unfold notesColumn Sent.noteLetter
  rw [field_get, hi.prog]
  cases hp : a.prog with
  | none => simp [n2]
  | some i =>
    have hlt : i < 62 * 62 := h.prog i (by simp [hp])
    simp only [Option.map_some, List.isEmpty_cons, Bool.false_eq_true, if_false]
    rw [prog_letter hlt]
    rfl

theorem mode_letter {m : Str} (h : m ∈ modeLetters.map Prod.fst) :
    Psv.getItem reverseCodeDict m = .ok (((modeLetters.find? fun x => x.1 = m).map Prod.snd).getD ' ') := by
  revert m; decide +kernel

theorem code_column (h : a.Writable) (hi : a.In pt pr pd e) : codeColumn (ToPsv.subDict e) = .ok [a.codeLetter] := by
  unfold codeColumn Sent.codeLetter
  rw [field_get, hi.deprecated]
  have hx : ∀ b : Bool, (b = true → a.deprecated = false) → (b = true) → codeColumn.positionCode (ToPsv.subDict e) = .ok [match a.place with
    | .rover _ _ _ => 'V'
    | .spacecraft _ _ _ _ => 'S'
    | .ground => if a.subFrm.isSome then 'A' else ((modeLetters.find? fun x => x.1 = a.mode).map Prod.snd).getD ' '] := by
    intro b hb hb'
    have hd := hb hb'
    unfold codeColumn.positionCode
    have hp := hi.place
    rw [field_get, field_get, hi.subFrm]
    cases hpl : a.place with
    | ground =>
      rw [hpl] at hp
      have hp : fieldOf e (c! "pos1") = none := hp
      rw [hp]
      simp only [Option.isSome_none, Bool.false_eq_true, if_false]
      cases hs : a.subFrm with
      | some v => simp
      | none =>
        simp only [Option.isSome_none, Bool.false_eq_true, if_false]
        rw [item_field hi.mode, Sex.okBind, mode_letter (h.mode hd hpl hs)]
        rfl
    | spacecraft au x y z =>
      rw [hpl] at hp
      obtain ⟨h1, ⟨t, _, h2⟩, _⟩ := hp
      rw [h2]
      simp only [Option.isSome_some, if_true]
      rw [item_field h1, Sex.okBind]
      cases au <;> rfl
    | rover lon lat alt =>
      rw [hpl] at hp
      obtain ⟨h1, h2, _⟩ := hp
      rw [h2]
      simp only [Option.isSome_some, if_true]
      rw [item_field h1, Sex.okBind]
      rfl
  cases hd : a.deprecated with
  | true => rfl
  | false =>
    simp only [Bool.false_eq_true, if_false]
    exact hx true (fun _ => hd) rfl

theorem find_rev {β : Type} {l : List (Str × β)} (hn : (l.map Prod.fst).Nodup) (k : Str) : dictGet l k = (l.find? fun x => x.1 = k).map Prod.snd := by
  unfold dictGet
  congr 1
  induction l with
  | nil => rfl
  | cons x l ih =>
    simp only [List.map_cons, List.nodup_cons] at hn
    rw [List.reverse_cons, List.find?_append, ih hn.2, List.find?_cons]
    by_cases hx : x.1 = k
    · have : (l.find? fun x => x.1 = k) = none := by
        rw [List.find?_eq_none]
        intro y hy hyk
        simp at hyk
        exact hn.1 (List.mem_map.2 ⟨y, hy, hyk.trans hx.symm⟩)
      simp [this, hx]
    · have : (x.1 == k) = false := by simpa using hx
      simp [hx, this]

theorem band_column (b : Option Str) (hb : b ≠ some []) : bandColumn (b.getD [' ']) = [bandLetter (b.getD [])] := by
  cases b with
  | none => decide
  | some b =>
    simp only [Option.getD_some]
    unfold bandColumn bandLetter
    rw [find_rev (by decide)]
    match b, hb with
    | [], hb => exact absurd rfl hb
    | [c], _ =>
      have : (bandconv.find? fun x => x.1 = [c]) = none := by simp [bandconv]
      simp [this]
    | c :: d :: b, _ =>
      have hl : ¬ (c :: d :: b).length ≤ 1 := by simp
      rw [if_neg hl]
      have : bandconv = bandLetters := rfl
      rw [this]
      generalize (bandLetters.find? fun x => x.1 = c :: d :: b).map Prod.snd = r
      cases r <;> simp

theorem cat_column (c : Str) (hc : strip c = c) : catColumn c = .ok (catLetter c) := by
  unfold catColumn catLetter
  rw [hc]
  have e : dictGet rCatCodes c = (catCodes.find? fun x => x.2 = c).map Prod.fst := by
    rw [find_rev (by decide +kernel)]
    have : rCatCodes = catCodes.map fun x => (x.2, x.1) := by decide +kernel
    rw [this, List.find?_map, Option.map_map]
    rfl
  cases hg : dictGet rCatCodes c with
  | none => rw [← e, hg]; rfl
  | some v => rw [← e, hg]; simp [Psv.getItem, hg]

theorem ref_column (h : ∀ r ∈ a.ref, r.Writable) : packRef ((a.ref.map RefText.text).getD [' ']) = .ok (((a.ref.map RefText.cols).getD (.other (c! "     "))).columns) := by
  cases hr : a.ref with
  | none => decide +kernel
  | some r =>
    have hw := h r (by simp [hr])
    simp only [Option.map_some, Option.getD_some]
    cases r with
    | page r =>
      exact C13_pack (by cases r <;> exact hw)
    | other t =>
      obtain ⟨h1, h2⟩ := hw
      have e : slice t 0 3 = t.take 3 := by simp [slice]
      simp only [RefText.text, packRef, e, if_neg h1, if_neg h2, bind, Except.bind, pure, Except.pure, RefText.cols, RefCols.columns]
      rfl

theorem mag_column (m : Option Numeral) (h : ∀ n ∈ m, n.Valid) : ∃ u x y, applyPJ ((m.map Numeral.text).getD []) 5 .D 3 = .ok (u, x, y) ∧ u.take 5 = pointColumn 2 3 ((m.map Numeral.text).getD []) := by
  refine point_column 2 3 ?_
  cases m with
  | none => simp
  | some n =>
    obtain ⟨h1, h2, h3, _⟩ := h n (by simp)
    simp only [Option.map_some, Option.getD_some]
    unfold Numeral.text
    have z1 : n.sign.toList.count '.' = 0 := by
      rw [List.count_eq_zero]
      intro hm
      rcases h1 '.' (by simpa using hm) with e | e <;> cases e
    have z2 : n.whole.count '.' = 0 := by
      rw [List.count_eq_zero]
      intro hm
      have := h2 _ hm
      revert this; decide
    rw [List.count_append, List.count_append, z1, z2]
    cases hf : n.frac with
    | none => simp
    | some f =>
      have z3 : f.count '.' = 0 := by
        rw [List.count_eq_zero]
        intro hm
        have := h3 f (by simp [hf]) _ hm
        revert this; decide
      simp [z3]

theorem field_good {k v : Str} (h : fieldOf e k = some v) : v ≠ [] ∧ strip v = v := by
  obtain ⟨_, _, t, _, _, rfl, h2⟩ := field_value (e := e) (k := k) (v := v) (by rw [field_get, h])
  exact ⟨h2, strip_idem t⟩

/-- what the two lines share -/
def sharedBy (o : Optical) : Shared := ⟨o.desig.columns, [o.disc], [o.note], o.date.column, o.cat, o.ref.columns, o.stn⟩

theorem tie_far (h : a.Writable) : fullField a.precDec.value = 60 → FarFrom 60 (3600 * a.dec.size + a.precDec.value / 2) (1 / 10 ^ 9) := by
  intro hf
  have := h.tie hf
  push_cast at this
  exact this

theorem first_line (op : Opts) (h : a.Writable) (hi : a.In op.precTime op.precRA op.precDec e) :
    ∃ o : Optical, a.Line o ∧ o.date.Valid ∧ opticalFirst op (ToPsv.subDict e) = .ok (sharedBy o, o.line) := by
  obtain ⟨p1, d, k, t1, t2, t3, t4, t5, t6, t7, t8⟩ := time_column h
  obtain ⟨p2, r, r1, r2, r3, r4, r5⟩ := C42_ra a.ra a.precRA h.ra.1 h.ra.2.1 h.ra.2.2 h.precRA.1 h.precRA.2
  obtain ⟨p3, s, s1, s2, s3, s4, s5⟩ := C42_dec a.dec a.precDec h.dec.1 h.dec.2 h.precDec.1 h.precDec.2 (tie_far h)
  obtain ⟨n, n1, n2⟩ := note_column h hi
  obtain ⟨m, m1, m2, m3, m4⟩ := mag_column a.mag h.mag
  have hr := ref_column h.ref
  have hcat := cat_column a.cat (field_good hi.cat).2
  have hband := band_column a.band (by
    intro hb
    have := hi.band
    rw [hb] at this
    exact (field_good this).1 rfl)
  refine ⟨⟨a.desig, a.disc.getD ' ', a.noteLetter, a.codeLetter, d, r, decide (a.dec.sign = some '-'), s, List.replicate 9 ' ', pointColumn 2 3 ((a.mag.map Numeral.text).getD []),
    bandLetter (a.band.getD []), catLetter a.cat, (a.ref.map RefText.cols).getD (.other (c! "     ")), a.stn⟩, ?_, ?_, ?_⟩
  · refine ⟨rfl, rfl, rfl, rfl, ⟨t3, t4, t5⟩, t6, ⟨k, t7, ?_⟩, ⟨r3, r4, ?_⟩, rfl, ⟨s3, s4, ?_⟩, rfl, rfl, rfl, rfl, rfl, rfl⟩
    · rw [abs_le] at t8; push_cast at t8 ⊢; constructor <;> linarith [t8.1, t8.2]
    · rw [abs_le] at r5; push_cast at r5 ⊢; constructor <;> linarith [r5.1, r5.2]
    · rw [abs_le] at s5; push_cast at s5 ⊢; constructor <;> linarith [s5.1, s5.2]
  · obtain ⟨u, hu, -, hd⟩ := t6
    obtain ⟨u1, u6, -⟩ := units_prec u hu
    have := h.year; have := h.month; have := h.day
    refine ⟨by rw [t3]; omega, by rw [t3]; omega, by rw [t4]; omega, by rw [t4]; omega, by rw [t5]; omega, by rw [t3, t4, t5]; omega, by show 1 ≤ d.digits; omega, by show d.digits ≤ 6; omega, ?_⟩
    show d.frac < 10 ^ d.digits
    rw [t7]
    exact Nat.mod_lt _ (by positivity)
  · have k1 : hasKeyOrVal (ToPsv.subDict e) (c! "precTime") op.precTime = a.precTime.text := by rw [key_or]; exact hi.precTime
    have k2 : hasKeyOrVal (ToPsv.subDict e) (c! "precRA") op.precRA = a.precRA.text := by rw [key_or]; exact hi.precRA
    have k3 : hasKeyOrVal (ToPsv.subDict e) (c! "precDec") op.precDec = a.precDec.text := by rw [key_or]; exact hi.precDec
    have k4 : hasKeyOrVal (ToPsv.subDict e) (c! "mag") [] = (a.mag.map Numeral.text).getD [] := by rw [key_or, hi.mag]
    have k5 : hasKeyOrVal (ToPsv.subDict e) (c! "ref") [' '] = (a.ref.map RefText.text).getD [' '] := by rw [key_or, hi.ref]
    have k6 : hasKeyOrVal (ToPsv.subDict e) (c! "band") [' '] = a.band.getD [' '] := by rw [key_or, hi.band]
    have k7 : hasKeyOrVal (ToPsv.subDict e) (c! "disc") [' '] = [a.disc.getD ' '] := by rw [key_or, hi.disc]; cases a.disc <;> rfl
    have hang : angleColumns (ToPsv.subDict e) (.flt p2) (.flt p3) =
        .ok (Spec.column 12 r.text, Spec.column 12 ((if a.dec.sign = some '-' then '-' else '+') :: s.text)) := by
      unfold angleColumns
      rw [item_field hi.stn, Sex.okBind, if_neg h.stn.1, if_neg h.stn.2, item_field hi.ra, Sex.okBind, r2, Sex.okBind, item_field hi.dec, Sex.okBind, s2, Sex.okBind]
      rfl
    unfold opticalFirst
    rw [id_column h.desig hi, Sex.okBind]
    rw [n1, Sex.okBind, k1, k2, k3, t1, Sex.okBind, r1, Sex.okBind, s1, Sex.okBind, item_field hi.obsTime, Sex.okBind, t2, Sex.okBind]
    rw [hang, Sex.okBind]
    simp only
    rw [k4, m3, Sex.okBind]
    simp only
    rw [item_field hi.cat, Sex.okBind, hcat, Sex.okBind, k5, hr, Sex.okBind, n2, Sex.okBind, code_column h hi, Sex.okBind, item_field hi.stn, Sex.okBind, m4, k6, hband, k7]
    simp only [pure, Except.pure, sharedBy, Optical.line, List.append_assoc, decide_eq_true_eq]
    rfl

theorem unsigned_plus {t : Str} {c : Char} (hc : (c! "0123456789").contains c = true) (l n : Int) : unPackSigned (c :: t) l n = unPackSigned ('+' :: c :: t) l n := by
  unfold unPackSigned
  have h1 : charAt (c :: t) 0 = .ok c := rfl
  have h2 : charAt ('+' :: c :: t) 0 = .ok '+' := rfl
  rw [h1, h2, Sex.okBind, Sex.okBind, if_pos hc, if_neg (by decide)]

theorem coord_column {c : Coord} {t : Str} {w : Nat} (hw : 1 ≤ w) (hw' : w ≤ 9) (h : c.Valid w) (ht : CoordText c t) : unPackSigned t 11 (w + 2 : Nat) = .ok (c.column w) := by
  have hs := (coord_signed hw hw' h).2
  rcases ht with rfl | ⟨hn, e⟩
  · exact hs
  · cases t with
    | nil =>
      unfold Coord.text at e
      injection e with _ e
      simp at e
    | cons d t =>
      have hd : (c! "0123456789").contains d = true := by
        unfold Coord.text at e
        injection e with _ e
        have hne := dec_ne c.whole
        have hm := natStr_mem c.whole
        rw [← dec_eq] at hm
        generalize Spec.dec c.whole = x at *
        cases x with
        | nil => exact absurd rfl hne
        | cons y x =>
          injection e with e _
          subst e
          have := hm d (by simp)
          exact List.elem_eq_true_of_mem this
      rw [unsigned_plus hd, e]
      exact hs

theorem drop_head {t : Str} (h : ∀ c ∈ t.head?, isSpace c = false) : t.dropWhile (fun x => decide (x = ' ')) = t := by
  cases t with
  | nil => rfl
  | cons c t =>
    have : c ≠ ' ' := by
      rintro rfl
      have := h ' ' rfl
      revert this; decide
    simp [this]

theorem trim_of_strip {t : Str} (h : strip t = t) : trim t = t := by
  obtain ⟨h1, h2⟩ := Psv.strip_ends t
  rw [h] at h1 h2
  unfold trim
  rw [drop_head h1, drop_head (by rw [List.head?_reverse]; exact h2), List.reverse_reverse]

theorem second_lines (h : a.Writable) (hi : a.In pt pr pd e) {o : Optical} : 
    ∃ sec, opticalSecond (ToPsv.subDict e) (sharedBy o) = .ok sec ∧ (sec = none ∧ a.secondLines o = [] ∨ ∃ l, sec = some (some l) ∧ a.secondLines o = [l]) := by
  have hp := hi.place
  have hw := h.place
  unfold Sent.secondLines Sent.obs
  cases hpl : a.place with
  | ground =>
    rw [hpl] at hp
    have hp : fieldOf e (c! "pos1") = none := hp
    refine ⟨none, ?_, .inl ⟨rfl, rfl⟩⟩
    unfold opticalSecond
    rw [field_get, hp]
  | spacecraft au x y z =>
    rw [hpl] at hp hw
    obtain ⟨h1, ⟨t1, c1, f1⟩, ⟨t2, c2, f2⟩, ⟨t3, c3, f3⟩⟩ := hp
    obtain ⟨v1, v2, v3⟩ := hw
    have hr : 1 ≤ (if au then 1 else 5) ∧ (if au then 1 else 5) ≤ 9 := by cases au <;> decide
    have hx := coord_column hr.1 hr.2 v1 c1
    have hy := coord_column hr.1 hr.2 v2 c2
    have hz := coord_column hr.1 hr.2 v3 c3
    have lx := coord_length hr.1 hr.2 v1
    have ly := coord_length hr.1 hr.2 v2
    have lz := coord_length hr.1 hr.2 v3
    refine ⟨some (some _), ?_, .inr ⟨_, rfl, rfl⟩⟩
    unfold opticalSecond
    rw [field_get, f1]
    simp only
    rw [item_field h1, Sex.okBind]
    have hne : (if au then c! "ICRF_AU" else c! "ICRF_KM") ≠ c! "WGS84" := by cases au <;> decide
    have hor : (if au then c! "ICRF_AU" else c! "ICRF_KM") = c! "ICRF_AU" ∨ (if au then c! "ICRF_AU" else c! "ICRF_KM") = c! "ICRF_KM" := by cases au <;> decide
    rw [if_neg hne, if_pos hor]
    have hnd : (if (if au then c! "ICRF_AU" else c! "ICRF_KM") = c! "ICRF_AU" then (3 : Int) else 7) = (((if au then 1 else 5) + 2 : Nat) : Int) := by
      cases au <;> decide
    simp only [hnd]
    rw [show (11 : Int) = ((11 : Nat) : Int) from rfl] at *
    rw [hx, Sex.okBind, item_field f2, Sex.okBind, hy, Sex.okBind, item_field f3, Sex.okBind, hz, Sex.okBind]
    rw [take_len lx, take_len ly, take_len lz]
    simp only [pure, Except.pure, sharedBy, Spacecraft.line, Spacecraft.places, List.append_assoc, List.cons_append, List.nil_append]
    cases au <;> simp
  | rover lon lat alt =>
    rw [hpl] at hp hw
    obtain ⟨h1, f1, f2, f3⟩ := hp
    obtain ⟨v1, v2⟩ := hw
    obtain ⟨u, x, y, a1, a2⟩ := point_column 3 8 (t := lon) v1.2.1
    obtain ⟨u', x', y', b1, b2⟩ := point_column 3 8 (t := lat) v2.2.1
    have w1 := v1.2.2; have w2 := v2.2.2
    rw [trim_of_strip (field_good f1).2] at w1
    rw [trim_of_strip (field_good f2).2] at w2
    refine ⟨some (some _), ?_, .inr ⟨_, rfl, rfl⟩⟩
    unfold opticalSecond
    rw [field_get, f1]
    simp only
    rw [item_field h1, Sex.okBind, if_pos rfl]
    rw [show (11 : Int) = ((3 + 8 : Nat) : Int) from rfl, show (4 : Int) = ((3 + 1 : Nat) : Int) from rfl, a1, Sex.okBind]
    simp only
    rw [item_field f2, Sex.okBind, b1, Sex.okBind]
    simp only
    rw [item_field f3, Sex.okBind]
    rw [show u.take 11 = pointColumn 3 8 lon from a2, show u'.take 11 = pointColumn 3 8 lat from b2, (fits_column w1).1, (fits_column w2).1]
    simp only [pure, Except.pure, sharedBy, Rover.line, rjust, leftpad_eq, List.append_assoc, List.cons_append, List.nil_append]
    rfl

end columns

end Verif.ToMpc80
