import Verif.Lemmas.Widths
import Verif.Lemmas.Numeral
import Verif.Spec.Widths
import Verif.Lemmas.BackRun
/-
  Lemmas for C29: the lengths of the record lines.
-/
namespace Verif.ToMpc80
open Verif Verif.Flt Verif.Xml Verif.PackUtil Verif.Spec Verif.Master

theorem dictGet_mem {d : Dict} {k v : Str} (h : dictGet d k = some v) : (k, v) ∈ d := by
  simp only [dictGet, Option.map_eq_some_iff] at h
  obtain ⟨x, hx, rfl⟩ := h
  have hm := List.mem_of_find?_eq_some hx
  have he := List.find?_some hx
  simp at hm he
  rw [← he]; exact hm

theorem dictSet_mem {d : Dict} {k v : Str} {x : Str × Str} (h : x ∈ dictSet d k v) : x ∈ d ∨ x = (k, v) := by
  unfold dictSet at h
  split at h
  · obtain ⟨y, hy, rfl⟩ := List.mem_map.1 h
    split
    · exact .inr rfl
    · exact .inl hy
  · rcases List.mem_append.1 h with h | h
    · exact .inl h
    · exact .inr (by simpa using h)

theorem field_value {e : Elem} {k v : Str} (h : dictGet (ToPsv.subDict e) k = some v) : FieldValue e k v := by
  have hm := dictGet_mem h
  unfold ToPsv.subDict at hm
  have : ∀ (l : List Elem) (d : Dict), (k, v) ∈ l.foldl (fun d i => let (t, x) := getElementTagText i; if x.isEmpty then d else dictSet d t x) d →
      (k, v) ∈ d ∨ ∃ i ∈ l, ∃ t, i.tag = k ∧ i.text = some t ∧ strip t = v ∧ v ≠ [] := by
    intro l
    induction l with
    | nil => intro d h; exact .inl h
    | cons i l ih =>
      intro d h
      rw [List.foldl_cons] at h
      rcases ih _ h with h | ⟨j, hj, h⟩
      · have h : (k, v) ∈ (if (regularizeWhiteSpace i.text).isEmpty then d else dictSet d i.tag (regularizeWhiteSpace i.text)) := h
        by_cases hne : (regularizeWhiteSpace i.text).isEmpty = true
        · rw [if_pos hne] at h; exact .inl h
        · rw [if_neg hne] at h
          rcases dictSet_mem h with h | h
          · exact .inl h
          · right
            injection h with h1 h2
            refine ⟨i, by simp, ?_⟩
            cases ht : i.text with
            | none => rw [ht] at hne; simp [regularizeWhiteSpace] at hne
            | some t =>
              rw [ht] at hne h2
              exact ⟨t, h1.symm, rfl, h2.symm, by rw [h2]; simpa [regularizeWhiteSpace] using hne⟩
      · exact .inr ⟨j, by simp [hj], h⟩
  rcases this _ _ hm with h | ⟨i, hi, t, h⟩
  · cases h
  · exact ⟨i, hi, t, h⟩

theorem len_applyPJ {s r : Str} {l : Nat} {d : Int} {w : Nat} {e : Int} (h : applyPJ s l .D d = .ok (r, w, e)) : (r.take l).length = l := by
  obtain ⟨-, h2, h3⟩ := C17_only_padding _ _ _ _ _ _ _ h
  rw [List.length_take]; omega

theorem len_signed {s r : Str} {l : Nat} {d : Int} (h : unPackSigned s l d = .ok r) : (r.take l).length = l := by
  unfold unPackSigned at h
  cases hc : charAt s 0 with
  | error e => rw [hc] at h; cases h
  | ok c =>
    rw [hc, Sex.okBind] at h
    generalize (if (c! "0123456789").contains c then ('+' :: s, '+') else (s, c)) = vs at h
    obtain ⟨v, c'⟩ := vs
    simp only at h
    split at h
    · cases ha : applyPJ v l .D d with
      | error e => rw [ha] at h; cases h
      | ok x =>
        obtain ⟨x, w, e⟩ := x
        rw [ha, Sex.okBind] at h
        injection h with h; subst h
        exact len_applyPJ ha
    · cases ha : applyPJ (v.drop 1) ((l : Int) - 1) .D (d - 1) with
      | error e => rw [ha] at h; cases h
      | ok x =>
        obtain ⟨x, w, e⟩ := x
        rw [ha, Sex.okBind] at h
        injection h with h; subst h
        obtain ⟨-, h2, h3⟩ := C17_only_padding _ _ _ _ _ _ _ ha
        rw [List.length_take]; simp; omega


theorem bind_inv {α β : Type} {x : Py α} {f : α → Py β} {b : β} (h : (x >>= f) = .ok b) : ∃ a, x = .ok a ∧ f a = .ok b := by
  cases x with
  | error e => cases h
  | ok a => exact ⟨a, rfl, h⟩

theorem getItem_inv {α : Type} {d : List (Str × α)} {k : Str} {v : α} (h : Psv.getItem d k = .ok v) : dictGet d k = some v := by
  unfold Psv.getItem at h
  cases hg : dictGet d k with
  | none => rw [hg] at h; cases h
  | some x => rw [hg] at h; injection h with h; rw [h]

theorem id_len {item : Dict} {s : Str} (ha : ∀ v, dictGet item (c! "artSat") = some v → v.length ≤ 12) (h : idColumns item = .ok s) : s.length = 12 := by
  unfold idColumns at h
  cases hg : dictGet item (c! "artSat") with
  | none => rw [hg] at h; exact C09_twelve_columns _ _ h
  | some v =>
    rw [hg] at h
    injection h with h
    have := ha v hg
    rw [← h]; simp [rjust]; omega

theorem notes_len {item : Dict} {c : Char} {s : Str} (h : notesColumn item c = .ok s) : s.length = 1 := by
  unfold notesColumn at h
  split at h
  · split at h
    · injection h with h; rw [← h]; rfl
    · obtain ⟨a, -, h⟩ := bind_inv h
      injection h with h; rw [← h]; rfl
  · injection h with h; rw [← h]; rfl

theorem code_len {item : Dict} {s : Str} (hd : ∀ v, dictGet item (c! "deprecated") = some v → v.length = 1) (h : codeColumn item = .ok s) : s.length = 1 := by
  have pos : ∀ s, codeColumn.positionCode item = .ok s → s.length = 1 := by
    intro s h
    unfold codeColumn.positionCode at h
    split at h
    · obtain ⟨a, -, h⟩ := bind_inv h
      repeat' split at h
      all_goals first | (injection h with h; rw [← h]; rfl) | cases h
    · split at h
      · injection h with h; rw [← h]; rfl
      · obtain ⟨a, -, h⟩ := bind_inv h
        obtain ⟨b, -, h⟩ := bind_inv h
        injection h with h; rw [← h]; rfl
  unfold codeColumn at h
  split at h
  · rename_i d hg
    split at h
    · exact pos s h
    · injection h with h; rw [← h]; exact hd d hg
  · exact pos s h

theorem band_len {b : Str} (h : b ≠ []) : (bandColumn b).length = 1 := by
  unfold bandColumn
  split
  · rfl
  · have := List.length_pos_iff.2 h
    split
    · simp; omega
    · omega

/-- the conditions on the dict that make the first line 80 columns wide -/
structure FitsDict (m : Nat) (item : Dict) : Prop where
  empty : ∀ k v, dictGet item k = some v → v ≠ []
  disc : ∀ v, dictGet item (c! "disc") = some v → v.length = 1
  deprecated : ∀ v, dictGet item (c! "deprecated") = some v → v.length = 1
  artSat : ∀ v, dictGet item (c! "artSat") = some v → v.length ≤ 12
  stn : ∀ v, dictGet item (c! "stn") = some v → v.length = m ∧ v ≠ c! "244"
  years : ∀ v, dictGet item (c! "obsTime") = some v → ∃ y rest, 1000 ≤ y ∧ y ≤ 9999 ∧ v = Spec.dec y ++ rest
  ra : ∀ v, dictGet item (c! "ra") = some v ∨ dictGet item (c! "raStar") = some v → ∃ n : Numeral, n.Valid ∧ v = n.text ∧ n.size ≤ 360
  dec : ∀ v, dictGet item (c! "dec") = some v ∨ dictGet item (c! "decStar") = some v → ∃ n : Numeral, n.Valid ∧ v = n.text ∧ n.size ≤ 90
  precTime : ∀ v, dictGet item (c! "precTime") = some v → ∃ n : Numeral, n.Valid ∧ v = n.text ∧ 1 ≤ n.size
  precRA : ∀ v, dictGet item (c! "precRA") = some v → ∃ n : Numeral, n.Valid ∧ v = n.text ∧ 1 / 1000 ≤ n.size
  precDec : ∀ v, dictGet item (c! "precDec") = some v → ∃ n : Numeral, n.Valid ∧ v = n.text ∧ 1 / 100 ≤ n.size
  pos3 : dictGet item (c! "sys") = some (c! "WGS84") → ∀ v, dictGet item (c! "pos3") = some v → v.length ≤ 5

theorem fits_dict {m : Nat} {e : Elem} (h : FitsOptical m e) : FitsDict m (ToPsv.subDict e) where
  empty := fun k v hv => by obtain ⟨_, _, _, _, _, _, hn⟩ := field_value hv; exact hn
  disc := fun v hv => h.disc v (field_value hv)
  deprecated := fun v hv => h.deprecated v (field_value hv)
  artSat := fun v hv => h.artSat v (field_value hv)
  stn := fun v hv => h.stn v (field_value hv)
  years := fun v hv => h.years v (field_value hv)
  ra := fun v hv => h.ra v (hv.imp field_value field_value)
  dec := fun v hv => h.dec v (hv.imp field_value field_value)
  precTime := fun v hv => h.precTime v (field_value hv)
  precRA := fun v hv => h.precRA v (field_value hv)
  precDec := fun v hv => h.precDec v (field_value hv)
  pos3 := fun hs v hv => h.pos3 (field_value hs) v (field_value hv)

/-- the precision options as the command line can set them -/
def StdOpts (o : Opts) : Prop := o = { noHeader := o.noHeader } ∨ o = Opts.low { noHeader := o.noHeader }


theorem prec_numeral {item : Dict} {k d : Str} {q : ℚ} (hk : ∀ v, dictGet item k = some v → ∃ n : Numeral, n.Valid ∧ v = n.text ∧ q ≤ n.size)
    (hd : ∃ n : Numeral, n.Valid ∧ d = n.text ∧ q ≤ n.size) : ∃ n : Numeral, n.Valid ∧ hasKeyOrVal item k d = n.text ∧ q ≤ n.size := by
  unfold hasKeyOrVal
  cases h : dictGet item k with
  | none => exact hd
  | some v => exact hk v h

theorem mkNumeral (w f : Str) (t : Str) (q : ℚ) (ht : t = w ++ '.' :: f) (hw : w.all (· ∈ c! "0123456789") = true) (hf : f.all (· ∈ c! "0123456789") = true) (hne : w ≠ [])
    (hq : q ≤ digitsNat w + (digitsNat f : ℚ) / (10 ^ f.length : Nat)) : ∃ n : Numeral, n.Valid ∧ t = n.text ∧ q ≤ n.size := by
  refine ⟨⟨none, w, some f⟩, ⟨by simp, fun c hc => ?_, fun g hg c hc => ?_, .inl hne⟩, by rw [ht]; rfl, hq⟩
  · simpa using List.all_eq_true.1 hw c hc
  · injection hg with hg; subst hg; simpa using List.all_eq_true.1 hf c hc

theorem std_precs {o : Opts} (ho : StdOpts o) :
    (∃ n : Numeral, n.Valid ∧ o.precTime = n.text ∧ 1 ≤ n.size) ∧ (∃ n : Numeral, n.Valid ∧ o.precRA = n.text ∧ 1 / 1000 ≤ n.size) ∧
    (∃ n : Numeral, n.Valid ∧ o.precDec = n.text ∧ 1 / 100 ≤ n.size) := by
  have whole : ∀ (w : Str) (q : ℚ), w.all (· ∈ c! "0123456789") = true → w ≠ [] → q ≤ digitsNat w → ∃ n : Numeral, n.Valid ∧ w = n.text ∧ q ≤ n.size := by
    intro w q hw hne hq
    refine ⟨⟨none, w, none⟩, ⟨by simp, fun c hc => ?_, by simp, .inl hne⟩, by simp [Numeral.text], ?_⟩
    · simpa using List.all_eq_true.1 hw c hc
    · unfold Numeral.size
      have : digitsNat [] = 0 := rfl
      simpa [this] using hq
  have e1 : digitsNat (c! "1") = 1 ∧ digitsNat (c! "10") = 10 ∧ digitsNat (c! "0") = 0 ∧ digitsNat (c! "001") = 1 ∧ digitsNat (c! "01") = 1 := by decide
  obtain ⟨a1, a2, a3, a4, a5⟩ := e1
  rcases ho with ho | ho
  · rw [ho]
    refine ⟨whole (c! "1") 1 (by decide) (by decide) (by rw [a1]; norm_num), mkNumeral (c! "0") (c! "001") _ _ rfl (by decide) (by decide) (by decide) ?_,
      mkNumeral (c! "0") (c! "01") _ _ rfl (by decide) (by decide) (by decide) ?_⟩
    · rw [a3, a4]; norm_num
    · rw [a3, a5]; norm_num
  · rw [ho]
    refine ⟨whole (c! "10") 1 (by decide) (by decide) (by rw [a2]; norm_num), mkNumeral (c! "0") (c! "01") _ _ rfl (by decide) (by decide) (by decide) ?_,
      mkNumeral (c! "0") (c! "1") _ _ rfl (by decide) (by decide) (by decide) ?_⟩
    · rw [a3, a5]; norm_num
    · rw [a3, a1]; norm_num

theorem angles_len {m : Nat} {item : Dict} (hf : FitsDict m item) {pr pd : F64} (hpr : 0 ≤ pr.mag) (hpd : 0 ≤ pd.mag)
    (hr : 0 < pr.val → -((3 : Nat) : Int) ≤ truncLog10 pr.val) (hd : 0 < pd.val → -((2 : Nat) : Int) ≤ truncLog10 pd.val)
    {ra dec : Str} (h : angleColumns item (.flt pr) (.flt pd) = .ok (ra, dec)) : ra.length = 12 ∧ dec.length = 12 := by
  have R : ∀ v, dictGet item (c! "ra") = some v ∨ dictGet item (c! "raStar") = some v → ∀ t, Sex.decRaToSexRa v (.flt pr) = .ok t → t.length = 12 := by
    intro v hv t ht
    obtain ⟨n, hn, rfl, hs⟩ := hf.ra v hv
    have hp := Sex.parse_numeral hn
    refine Sex.ra_len hp ?_ (fun k hk => (Sex.precDigits_bound (p := .flt pr) hpr hr hk).1) ht
    show rnd n.size ≤ 1000
    have := Sex.rnd_near (Sex.size_nonneg n)
    have h2 : n.size / 2 ^ 53 ≤ 1 := by rw [div_le_one (by norm_num)]; norm_num; linarith
    linarith [this.2]
  have D : ∀ v, dictGet item (c! "dec") = some v ∨ dictGet item (c! "decStar") = some v → ∀ t, Sex.degDeclToSexDecl v (.flt pd) = .ok t → t.length = 12 := by
    intro v hv t ht
    obtain ⟨n, hn, rfl, hs⟩ := hf.dec v hv
    have hp := Sex.parse_numeral hn
    refine Sex.dec_len hp ?_ (fun k hk => Sex.precDigits_bound (p := .flt pd) hpd hd hk) ht
    show rnd n.size ≤ 91
    have := Sex.rnd_near (Sex.size_nonneg n)
    have h2 : n.size / 2 ^ 53 ≤ 1 := by rw [div_le_one (by norm_num)]; norm_num; linarith
    linarith [this.2]
  unfold angleColumns at h
  obtain ⟨stn, hstn, h⟩ := bind_inv h
  have hstn := getItem_inv hstn
  split at h
  · obtain ⟨v, hv, h⟩ := bind_inv h
    obtain ⟨t, ht, h⟩ := bind_inv h
    obtain ⟨v', hv', h⟩ := bind_inv h
    obtain ⟨t', ht', h⟩ := bind_inv h
    injection h with h
    injection h with h1 h2
    subst h1; subst h2
    exact ⟨R v (.inr (getItem_inv hv)) _ ht, D v' (.inr (getItem_inv hv')) _ ht'⟩
  · split at h
    · rename_i h244
      exact absurd h244 (hf.stn _ hstn).2
    · obtain ⟨v, hv, h⟩ := bind_inv h
      obtain ⟨t, ht, h⟩ := bind_inv h
      obtain ⟨v', hv', h⟩ := bind_inv h
      obtain ⟨t', ht', h⟩ := bind_inv h
      injection h with h
      injection h with h1 h2
      subst h1; subst h2
      exact ⟨R v (.inl (getItem_inv hv)) _ ht, D v' (.inl (getItem_inv hv')) _ ht'⟩


theorem nonneg_of_parse {s : Str} {x : F64} (h : parse s = .ok x) : 0 ≤ x.mag := Sex.parse_mag h

/-- The first line of an observation that fits: 80 columns.  The parts shared with the second line have their widths. -/
theorem first_len {o : Opts} (ho : StdOpts o) {m : Nat} {item : Dict} (hf : FitsDict m item) {p : Shared} {l : Str} (h : opticalFirst o item = .ok (p, l)) :
    l.length = 77 + m ∧ p.packedID.length = 12 ∧ p.disc.length = 1 ∧ p.notes.length = 1 ∧ p.sexDate.length = 17 ∧ p.packedref.length = 5 ∧ p.stn.length = m := by
  obtain ⟨t0, r0, d0⟩ := std_precs ho
  obtain ⟨nt, vt, et, st⟩ := prec_numeral hf.precTime t0
  obtain ⟨nr, vr, er, sr⟩ := prec_numeral hf.precRA r0
  obtain ⟨nd, vd, ed, sd⟩ := prec_numeral hf.precDec d0
  unfold opticalFirst at h
  rw [et, er, ed] at h
  obtain ⟨pid, hid, h⟩ := bind_inv h
  obtain ⟨note, hnote, h⟩ := bind_inv h
  obtain ⟨pt, hpt, h⟩ := bind_inv h
  obtain ⟨pr, hpr, h⟩ := bind_inv h
  obtain ⟨pd, hpd, h⟩ := bind_inv h
  obtain ⟨ot, hot, h⟩ := bind_inv h
  obtain ⟨sdate, hdate, h⟩ := bind_inv h
  obtain ⟨⟨ra, dec⟩, hang, h⟩ := bind_inv h
  obtain ⟨⟨mag, w, dp⟩, hmag, h⟩ := bind_inv h
  obtain ⟨cat0, hcat0, h⟩ := bind_inv h
  obtain ⟨cat, hcat, h⟩ := bind_inv h
  obtain ⟨ref, href, h⟩ := bind_inv h
  obtain ⟨notes, hnotes, h⟩ := bind_inv h
  obtain ⟨code, hcode, h⟩ := bind_inv h
  obtain ⟨stn, hstn, h⟩ := bind_inv h
  injection h with h
  injection h with h1 h2
  subst h1; subst h2
  obtain ⟨y, rest, y1, y2, rfl⟩ := hf.years _ (getItem_inv hot)
  have l1 := id_len hf.artSat hid
  have l2 : (hasKeyOrVal item (c! "disc") [' ']).length = 1 := by
    unfold hasKeyOrVal
    cases hd : dictGet item (c! "disc") with
    | none => rfl
    | some v => exact hf.disc v hd
  have l3 := notes_len hnotes
  have l4 := code_len hf.deprecated hcode
  have l5 := Sex.date_len (prec := .flt pt) y1 y2 (fun h0 => by
    have := Sex.digits_le vt (m := 0) (by omega) (by simpa using st) hpt h0
    show 0 ≤ truncLog10 pt.val
    simpa using this) hdate
  obtain ⟨l6, l7⟩ := angles_len hf (nonneg_of_parse hpr) (nonneg_of_parse hpd)
    (fun h0 => Sex.digits_le vr (m := 3) (by omega) (by norm_num at sr ⊢; exact sr) hpr h0)
    (fun h0 => Sex.digits_le vd (m := 2) (by omega) (by norm_num at sd ⊢; exact sd) hpd h0) hang
  have l8 : (mag.take 5).length = 5 := len_applyPJ (l := 5) hmag
  have l9 : (bandColumn (hasKeyOrVal item (c! "band") [' '])).length = 1 := by
    apply band_len
    unfold hasKeyOrVal
    cases hd : dictGet item (c! "band") with
    | none => simp
    | some v => exact hf.empty _ _ hd
  have l10 := C13_five_columns _ _ href
  have l11 := (hf.stn _ (getItem_inv hstn)).1
  refine ⟨?_, l1, l2, l3, l5, l10, l11⟩
  have l12 : (c! "         ").length = 9 := by decide
  simp only [List.length_append, l1, l2, l3, l4, l5, l6, l7, l8, l9, l10, l11, l12, List.length_cons, List.length_nil]

/-- The second line, if there is one. -/
theorem second_len {m : Nat} {item : Dict} (hf : FitsDict m item) {p : Shared} (h1 : p.packedID.length = 12) (h2 : p.disc.length = 1) (h3 : p.notes.length = 1)
    (h4 : p.sexDate.length = 17) (h5 : p.packedref.length = 5) (h6 : p.stn.length = m) {l : Str} (h : opticalSecond item p = .ok (some (some l))) : l.length = 77 + m := by
  unfold opticalSecond at h
  split at h
  · cases h
  · rename_i pos1 hpos1
    obtain ⟨sys, hsys, h⟩ := bind_inv h
    split at h
    · rename_i hw
      subst hw
      obtain ⟨⟨x, _, _⟩, hx, h⟩ := bind_inv h
      obtain ⟨p2, hp2, h⟩ := bind_inv h
      obtain ⟨⟨y, _, _⟩, hy, h⟩ := bind_inv h
      obtain ⟨p3, hp3, h⟩ := bind_inv h
      injection h with h
      injection h with h
      injection h with h
      have a := len_applyPJ (l := 11) hx
      have b := len_applyPJ (l := 11) hy
      have c := hf.pos3 (getItem_inv hsys) _ (getItem_inv hp3)
      have d : (rjust 5 p3).length = 5 := by simp [rjust]; omega
      have e1 : (c! "         ").length = 9 := by decide
      have e2 : (c! "1 ").length = 2 := by decide
      rw [← h]
      simp only [List.length_append, h1, h2, h3, h4, h5, h6, a, b, d, e1, e2, List.length_cons, List.length_nil]
    · split at h
      · obtain ⟨x, hx, h⟩ := bind_inv h
        obtain ⟨p2, hp2, h⟩ := bind_inv h
        obtain ⟨y, hy, h⟩ := bind_inv h
        obtain ⟨p3, hp3, h⟩ := bind_inv h
        obtain ⟨z, hz, h⟩ := bind_inv h
        injection h with h
        injection h with h
        injection h with h
        have a := len_signed (l := 11) hx
        have b := len_signed (l := 11) hy
        have c := len_signed (l := 11) hz
        have e1 : (if sys = c! "ICRF_AU" then c! "2 " else c! "1 ").length = 2 := by split <;> decide
        have e2 : (c! "  ").length = 2 := by decide
        rw [← h]
        simp only [List.length_append, h1, h2, h3, h4, h5, h6, a, b, c, e1, e2, List.length_cons, List.length_nil]
      · injection h with h
        injection h with h
        cases h


/-! ### radar -/

theorem pj_len {n : Numeral} (hn : n.Valid) (hs : n.sign = none) {l d : Nat} (h1 : n.whole.length + 1 ≤ d) (h2 : d + (n.frac.getD []).length ≤ l) :
    ∃ r w e, applyPJ n.text l .D d = .ok (r, w, e) ∧ r.length = l := by
  have dot : ∀ s : Str, (∀ c ∈ s, c ∈ digits10) → '.' ∉ s := fun s h hc => absurd (h _ hc) (by decide)
  have ht : n.text = Sex.unsigned n := by rw [Sex.text_unsigned, hs]; rfl
  rw [ht]
  unfold Sex.unsigned
  cases hf : n.frac with
  | none =>
    simp only [List.append_nil]
    rw [applyPJ_nopoint (dot _ hn.2.1) _ _ (by omega)]
    refine ⟨_, _, _, rfl, ?_⟩
    simp only [List.length_append, blanks_length]
    rw [hf] at h2
    simp at h2
    omega
  | some f =>
    simp only
    rw [applyPJ_point (dot _ hn.2.1) (dot _ (hn.2.2.1 f hf)) _ _ (by omega)]
    refine ⟨_, _, _, rfl, ?_⟩
    rw [hf] at h2
    simp only [Option.getD_some] at h2
    simp only [List.length_append, blanks_length, List.length_cons]
    omega

/-- a field, or blanks if it is missing -/
theorem field_len {item : Dict} {k : Str} {b : Nat} {l d : Nat} (hb : b + 1 = l ∨ b = l) (hd : d ≤ l)
    (hk : ∀ v, dictGet item k = some v → ∃ n : Numeral, n.Valid ∧ v = n.text ∧ n.sign = none ∧ n.whole.length + 1 ≤ d ∧ d + (n.frac.getD []).length ≤ l)
    {r : Str} {w : Nat} {e : Int} (h : applyPJ (hasKeyOrVal item k (List.replicate b ' ')) l .D d = .ok (r, w, e)) : r.length = l := by
  unfold hasKeyOrVal at h
  cases hg : dictGet item k with
  | none =>
    rw [hg, Option.getD_none, applyPJ_nopoint (by simp) _ _ (by omega)] at h
    injection h with h
    injection h with h _
    rw [← h]
    simp only [List.length_append, blanks_length, List.length_replicate]
    omega
  | some v =>
    obtain ⟨n, hn, rfl, h0, h1, h2⟩ := hk v hg
    obtain ⟨r', w', e', hr, hl⟩ := pj_len hn h0 h1 h2
    rw [hg, Option.getD_some, hr] at h
    injection h with h
    injection h with h _
    rw [← h]; exact hl

theorem cut_len {s : Str} {i n : Nat} (h : s.length = n + 1) (hi : i ≤ n) : (cutPoint i s).length = n := by
  unfold cutPoint
  rw [List.length_append, List.length_take, List.length_drop]; omega

structure FitsRadarDict (item : Dict) : Prop where
  disc : ∀ v, dictGet item (c! "disc") = some v → v.length = 1
  notes : ∀ v, dictGet item (c! "notes") = some v → v.length = 1
  years : ∀ v, dictGet item (c! "obsTime") = some v → ∃ y rest, 1000 ≤ y ∧ y ≤ 9999 ∧ v = Spec.dec y ++ rest
  delay : ∀ v, dictGet item (c! "delay") = some v → ∃ n : Numeral, n.Valid ∧ v = n.text ∧ n.sign = none ∧ n.whole.length ≤ 5 ∧ (n.frac.getD []).length ≤ 10
  rmsDelay : ∀ v, dictGet item (c! "rmsDelay") = some v → ∃ n : Numeral, n.Valid ∧ v = n.text ∧ n.sign = none ∧ n.whole.length ≤ 10 ∧ (n.frac.getD []).length ≤ 4
  doppler : ∀ v, dictGet item (c! "doppler") = some v → ∃ n : Numeral, n.Valid ∧ v = n.text ∧ n.whole.length ≤ 10 ∧ (n.frac.getD []).length ≤ 4
  rmsDoppler : ∀ v, dictGet item (c! "rmsDoppler") = some v → ∃ n : Numeral, n.Valid ∧ v = n.text ∧ n.sign = none ∧ n.whole.length ≤ 11 ∧ (n.frac.getD []).length ≤ 4
  frq : ∀ v, dictGet item (c! "frq") = some v → ∃ n : Numeral, n.Valid ∧ v = n.text ∧ n.sign = none ∧ n.whole.length ≤ 5 ∧ (n.frac.getD []).length ≤ 1
  trx : ∀ v, dictGet item (c! "trx") = some v → v.length = 3
  rcv : ∀ v, dictGet item (c! "rcv") = some v → v.length = 3
  ref : ∀ v, dictGet item (c! "ref") = some v → v.length = 5

theorem fits_radar {e : Elem} (h : FitsRadar e) : FitsRadarDict (ToPsv.subDict e) where
  disc := fun v hv => h.disc v (field_value hv)
  notes := fun v hv => h.notes v (field_value hv)
  years := fun v hv => h.years v (field_value hv)
  delay := fun v hv => h.delay v (field_value hv)
  rmsDelay := fun v hv => h.rmsDelay v (field_value hv)
  doppler := fun v hv => h.doppler v (field_value hv)
  rmsDoppler := fun v hv => h.rmsDoppler v (field_value hv)
  frq := fun v hv => h.frq v (field_value hv)
  trx := fun v hv => h.trx v (field_value hv)
  rcv := fun v hv => h.rcv v (field_value hv)
  ref := fun v hv => h.ref v (field_value hv)

/-- the Doppler column -/
theorem doppler_len {item : Dict} (hk : ∀ v, dictGet item (c! "doppler") = some v → ∃ n : Numeral, n.Valid ∧ v = n.text ∧ n.whole.length ≤ 10 ∧ (n.frac.getD []).length ≤ 4)
    {r : Str} (h : unPackSigned (hasKeyOrVal item (c! "doppler") (List.replicate 15 ' ')) 16 12 = .ok r) : r.length = 16 := by
  unfold hasKeyOrVal at h
  cases hg : dictGet item (c! "doppler") with
  | none =>
    rw [hg, Option.getD_none] at h
    have : unPackSigned (List.replicate 15 ' ') 16 12 = .ok (List.replicate 16 ' ') := by decide +kernel
    rw [this] at h; injection h with h; rw [← h]; rfl
  | some v =>
    obtain ⟨n, hn, rfl, h1, h2⟩ := hk v hg
    rw [hg, Option.getD_some] at h
    have un : ∀ (l d : Nat), n.whole.length + 1 ≤ d → d + (n.frac.getD []).length ≤ l → ∃ r w e, applyPJ (Sex.unsigned n) l .D d = .ok (r, w, e) ∧ r.length = l := by
      intro l d a b
      exact pj_len (n := ⟨none, n.whole, n.frac⟩) ⟨by simp, hn.2⟩ rfl a b
    obtain ⟨r1, w1, e1, p1, q1⟩ := un 15 11 (by omega) (by omega)
    obtain ⟨r2, w2, e2, p2, q2⟩ := un 16 12 (by omega) (by omega)
    have hne : Sex.unsigned n ≠ [] := by
      intro e
      have hd := Sex.decimalVal_numeral hn
      have : decimalVal [] = none := rfl
      rw [e, this] at hd; cases hd
    have withSign : ∀ c, c = '+' ∨ c = '-' → unPackSigned (c :: Sex.unsigned n) 16 12 = .ok (c :: r1) := by
      intro c hc
      have hdig : (c! "0123456789").contains c = false := by rcases hc with rfl | rfl <;> decide
      have hsg : (c! "+-").contains c = true := by rcases hc with rfl | rfl <;> decide
      have : applyPJ (Sex.unsigned n) (16 - 1) .D (12 - 1) = .ok (r1, w1, e1) := p1
      simp only [unPackSigned, charAt, List.getElem?_cons_zero, bind, Except.bind, hdig, Bool.false_eq_true, if_false, hsg, not_true, List.drop_succ_cons, List.drop_zero,
        this, pure, Except.pure]
    cases hs : n.sign with
    | some c =>
      have ht : n.text = c :: Sex.unsigned n := by rw [Sex.text_unsigned, hs]; rfl
      rw [ht, withSign c (hn.1 c hs)] at h
      injection h with h; rw [← h]; simp [q1]
    | none =>
      have ht : n.text = Sex.unsigned n := by rw [Sex.text_unsigned, hs]; rfl
      rw [ht] at h
      cases hu : Sex.unsigned n with
      | nil => exact absurd hu hne
      | cons c t =>
        by_cases hc : (c! "0123456789").contains c = true
        · have : unPackSigned (c :: t) 16 12 = unPackSigned ('+' :: c :: t) 16 12 := by
            have hp : (c! "0123456789").contains '+' = false := by decide
            simp only [unPackSigned, charAt, List.getElem?_cons_zero, bind, Except.bind, hc, if_true, hp, Bool.false_eq_true, if_false]
          rw [hu, this, ← hu, withSign '+' (.inl rfl)] at h
          injection h with h; rw [← h]; simp [q1]
        · have hc : (c! "0123456789").contains c = false := by simpa using hc
          have hsg : (c! "+-").contains c = false := by
            have := (Sex.unsigned_head hn c (by rw [hu]; simp)).2
            simp [this.1, this.2]
          have p2' : applyPJ (c :: t) 16 .D 12 = .ok (r2, w2, e2) := by rw [← hu]; exact p2
          rw [hu] at h
          simp only [unPackSigned, charAt, List.getElem?_cons_zero, bind, Except.bind, hc, Bool.false_eq_true, if_false, hsg, not_false_eq_true, if_true, p2', pure, Except.pure] at h
          injection h with h; rw [← h]; exact q2

theorem radar_len {item : Dict} (hf : FitsRadarDict item) {l1 : Str} {second : Py Str} (h : radarLines item = .ok (l1, second)) :
    l1.length = 80 ∧ ∀ l2, second = .ok l2 → l2.length = 80 := by
  unfold radarLines at h
  obtain ⟨pid, hid, h⟩ := bind_inv h
  obtain ⟨ot, hot, h⟩ := bind_inv h
  obtain ⟨sdate, hdate, h⟩ := bind_inv h
  obtain ⟨pref, hpref, h⟩ := bind_inv h
  obtain ⟨dop, hdop, h⟩ := bind_inv h
  obtain ⟨⟨rdop, _, _⟩, hrdop, h⟩ := bind_inv h
  obtain ⟨⟨del, _, _⟩, hdel, h⟩ := bind_inv h
  obtain ⟨⟨rdel, _, _⟩, hrdel, h⟩ := bind_inv h
  obtain ⟨⟨frq, _, _⟩, hfrq, h⟩ := bind_inv h
  obtain ⟨trx, htrx, h⟩ := bind_inv h
  obtain ⟨ref, href, h⟩ := bind_inv h
  obtain ⟨rcv, hrcv, h⟩ := bind_inv h
  injection h with h
  injection h with h1 h2
  obtain ⟨y, rest, y1, y2, rfl⟩ := hf.years _ (getItem_inv hot)
  have one : ∀ k, (∀ v, dictGet item k = some v → v.length = 1) → (hasKeyOrVal item k [' ']).length = 1 := by
    intro k hk
    unfold hasKeyOrVal
    cases hd : dictGet item k with
    | none => rfl
    | some v => exact hk v hd
  have a1 := C09_twelve_columns _ _ hid
  have a2 := one _ hf.disc
  have a3 := one _ hf.notes
  have a4 := Sex.date_len (prec := .int 1) y1 y2 (fun _ => by decide +kernel) hdate
  have a5 := cut_len (n := 15) (i := 11) (doppler_len hf.doppler hdop) (by omega)
  have a6 := cut_len (n := 15) (i := 11) (field_len (l := 16) (d := 12) (.inl rfl) (by omega) (fun v hv => by
    obtain ⟨n, b1, b2, b3, b4, b5⟩ := hf.rmsDoppler v hv; exact ⟨n, b1, b2, b3, by omega, by omega⟩) hrdop) (by omega)
  have a7 := cut_len (n := 15) (i := 5) (field_len (l := 16) (d := 6) (.inl rfl) (by omega) (fun v hv => by
    obtain ⟨n, b1, b2, b3, b4, b5⟩ := hf.delay v hv; exact ⟨n, b1, b2, b3, by omega, by omega⟩) hdel) (by omega)
  have a8 := cut_len (n := 14) (i := 10) (field_len (l := 15) (d := 11) (.inl rfl) (by omega) (fun v hv => by
    obtain ⟨n, b1, b2, b3, b4, b5⟩ := hf.rmsDelay v hv; exact ⟨n, b1, b2, b3, by omega, by omega⟩) hrdel) (by omega)
  have a9 := cut_len (n := 6) (i := 5) (field_len (l := 7) (d := 6) (.inr rfl) (by omega) (fun v hv => by
    obtain ⟨n, b1, b2, b3, b4, b5⟩ := hf.frq v hv; exact ⟨n, b1, b2, b3, by omega, by omega⟩) hfrq) (by omega)
  have a10 := hf.trx _ (getItem_inv htrx)
  have a11 := hf.ref _ (getItem_inv href)
  have a12 := hf.rcv _ (getItem_inv hrcv)
  have a13 : (c! "      ").length = 6 := by decide
  constructor
  · rw [← h1]
    simp only [List.length_append, a1, a2, a3, a4, a5, a7, a9, a10, a11, a12, List.length_cons, List.length_nil]
  · intro l2 hl2
    rw [← h2] at hl2
    obtain ⟨sc, -, hl2⟩ := bind_inv hl2
    injection hl2 with hl2
    rw [← hl2]
    simp only [List.length_append, a1, a2, a3, a4, a6, a8, a10, a11, a12, a13, List.length_cons, List.length_nil]

/-! ### the run -/

/-- whatever happens, `I` is kept -/
def Keeps (I : Out → Prop) {α : Type} (m : W α) : Prop := ∀ s, I s → match m s with | .ok _ s' => I s' | .error _ s' => I s'

theorem Keeps.pure {I : Out → Prop} {α : Type} (a : α) : Keeps I (Pure.pure a : W α) := fun _ h => h

theorem Keeps.bind {I : Out → Prop} {α β : Type} {m : W α} {f : α → W β} (h1 : Keeps I m) (h2 : ∀ a, Keeps I (f a)) : Keeps I (m >>= f) := by
  intro s hs
  have := h1 s hs
  show match EStateM.bind m f s with | .ok _ s' => I s' | .error _ s' => I s'
  unfold EStateM.bind
  cases hm : m s with
  | ok a s' => rw [hm] at this; exact h2 a s' this
  | error e s' => rw [hm] at this; exact this

/-- as `bind`, knowing what the first part returned -/
theorem Keeps.bindLift {I : Out → Prop} {α β : Type} {x : Py α} {f : α → W β} (h2 : ∀ a, x = .ok a → Keeps I (f a)) : Keeps I (lift x >>= f) := by
  intro s hs
  cases hx : x with
  | ok a =>
    have : (lift (Except.ok a : Py α) >>= f) s = f a s := rfl
    rw [this]; exact h2 a hx s hs
  | error e => exact hs

theorem Keeps.lift {I : Out → Prop} {α : Type} (x : Py α) : Keeps I (ToMpc80.lift x) := by
  intro s hs
  cases x <;> exact hs

theorem Keeps.each {I : Out → Prop} {α : Type} {f : α → W Unit} : ∀ {l : List α}, (∀ x ∈ l, Keeps I (f x)) → Keeps I (ToMpc80.each f l)
  | [], _ => Keeps.pure ()
  | x :: l, h => Keeps.bind (h x (by simp)) fun _ => Keeps.each fun y hy => h y (by simp [hy])

/-- the lines are good and so are the stored observations -/
def Inv (P : Str → Prop) (Q : Str × Dict → Prop) (s : Out) : Prop := (∀ l ∈ s.out, P l) ∧ ∀ d ∈ s.dataDicts, Q d

variable {P : Str → Prop} {Q : Str × Dict → Prop}

theorem keeps_print {l : Str} (h : P l) : Keeps (Inv P Q) (print l) := by
  intro s hs
  show Inv P Q { s with out := s.out ++ [l] }
  refine ⟨fun x hx => ?_, hs.2⟩
  rcases List.mem_append.1 hx with hx | hx
  · exact hs.1 x hx
  · rw [List.mem_singleton.1 hx]; exact h

theorem keeps_dicts {o : Opts} (hp : ∀ d, Q d → Keeps (Inv P Q) (printData o d)) : Keeps (Inv P Q) (printDataDicts o) := by
  intro s hs
  have : printDataDicts o s = ToMpc80.each (printData o) s.dataDicts s := rfl
  rw [this]
  exact Keeps.each (fun d hd => hp d (hs.2 d hd)) s hs

theorem keeps_data {b : Bool} {e : Elem} (h : Q (e.tag, ToPsv.subDict e)) : Keeps (Inv P Q) (processDataElement b e) := by
  intro s hs
  show Inv P Q { s with dataDicts := (if b then [] else s.dataDicts) ++ [(e.tag, ToPsv.subDict e)] }
  refine ⟨hs.1, fun x hx => ?_⟩
  rcases List.mem_append.1 hx with hx | hx
  · cases b
    · exact hs.2 x hx
    · cases hx
  · rw [List.mem_singleton.1 hx]; exact h

theorem keeps_obsData {tabs : Master.Tables} : ∀ {l : List Elem} {t : Option Str}, (∀ e ∈ l, Q (e.tag, ToPsv.subDict e)) → Keeps (Inv P Q) (processObsData tabs t l)
  | [], t, _ => by unfold processObsData; exact Keeps.pure t
  | e :: l, none, h => by
    unfold processObsData
    refine Keeps.bind (Keeps.lift _) fun a => ?_
    split
    · exact Keeps.lift _
    · exact Keeps.bind (keeps_data (h e (by simp))) fun _ => keeps_obsData fun x hx => h x (by simp [hx])
  | e :: l, some t, h => by
    unfold processObsData
    split
    · exact Keeps.lift _
    · exact Keeps.bind (keeps_data (h e (by simp))) fun _ => keeps_obsData fun x hx => h x (by simp [hx])

theorem keeps_block {o : Opts} {tabs : Master.Tables} : ∀ {l : List Elem} {t : Option Str},
    (∀ c ∈ l, c.tag = c! "obsData" → ∀ e ∈ c.kids, Q (e.tag, ToPsv.subDict e)) →
    (o.noHeader = false → ∀ c ∈ l, c.tag = c! "obsContext" → ∀ i ∈ c.kids, ∀ x ∈ contextItem i, P x) → Keeps (Inv P Q) (processObsBlock o tabs t l)
  | [], t, _, _ => by unfold processObsBlock; exact Keeps.pure ()
  | c :: l, t, h, hc => by
    have ih : ∀ t, Keeps (Inv P Q) (processObsBlock o tabs t l) := fun t => keeps_block (fun x hx => h x (by simp [hx])) (fun ho x hx => hc ho x (by simp [hx]))
    unfold processObsBlock
    refine Keeps.bind (Keeps.lift _) fun a => ?_
    split
    · exact Keeps.lift _
    · split
      · rename_i hh
        refine Keeps.bind ?_ fun _ => ih t
        unfold processObsContext
        refine Keeps.each fun x hx => keeps_print ?_
        obtain ⟨i, hi, hx⟩ := List.mem_flatMap.1 hx
        exact hc hh.2 c (by simp) hh.1 i hi x hx
      · split
        · rename_i hh
          exact Keeps.bind (keeps_obsData (h c (by simp) hh)) fun t => ih t
        · exact ih t

theorem keeps_children {o : Opts} {tabs : Master.Tables} (hp : ∀ d, Q d → Keeps (Inv P Q) (printData o d)) : ∀ {l : List Elem} {t : Option Str},
    (∀ b ∈ l, b.tag = c! "obsBlock" → (∀ c ∈ b.kids, c.tag = c! "obsData" → ∀ e ∈ c.kids, Q (e.tag, ToPsv.subDict e)) ∧
      (o.noHeader = false → ∀ c ∈ b.kids, c.tag = c! "obsContext" → ∀ i ∈ c.kids, ∀ x ∈ contextItem i, P x)) →
    (∀ e ∈ l, e.tag ≠ c! "obsBlock" → Q (e.tag, ToPsv.subDict e)) → Keeps (Inv P Q) (processChildren o tabs t l)
  | [], t, _, _ => by unfold processChildren; exact Keeps.pure ()
  | c :: l, t, h1, h2 => by
    have ih : ∀ t, Keeps (Inv P Q) (processChildren o tabs t l) := fun t => keeps_children hp (fun x hx => h1 x (by simp [hx])) (fun x hx => h2 x (by simp [hx]))
    unfold processChildren
    refine Keeps.bind (Keeps.lift _) fun a => ?_
    split
    · exact Keeps.lift _
    · split
      · rename_i hb
        obtain ⟨k1, k2⟩ := h1 c (by simp) hb
        exact Keeps.bind (keeps_dicts hp) fun _ => Keeps.bind (keeps_block k1 k2) fun _ => ih _
      · rename_i hb
        have := h2 c (by simp) hb
        split
        · exact Keeps.bind (keeps_dicts hp) fun _ => Keeps.bind (keeps_data this) fun _ => ih _
        · exact Keeps.bind (keeps_data this) fun _ => ih _

theorem keeps_run {o : Opts} {tabs : Master.Tables} {root : Elem} (hp : ∀ d, Q d → Keeps (Inv P Q) (printData o d))
    (h1 : ∀ b ∈ root.kids, b.tag = c! "obsBlock" → (∀ c ∈ b.kids, c.tag = c! "obsData" → ∀ e ∈ c.kids, Q (e.tag, ToPsv.subDict e)) ∧
      (o.noHeader = false → ∀ c ∈ b.kids, c.tag = c! "obsContext" → ∀ i ∈ c.kids, ∀ x ∈ contextItem i, P x))
    (h2 : ∀ e ∈ root.kids, e.tag ≠ c! "obsBlock" → Q (e.tag, ToPsv.subDict e)) : ∀ l ∈ (xmltompc80col o tabs root).lines, P l := by
  have : Keeps (Inv P Q) (processAdesElement o tabs root) := by
    unfold processAdesElement
    split
    · exact Keeps.lift _
    · refine Keeps.bind ?_ fun _ => Keeps.bind (keeps_children hp h1 h2) fun _ => keeps_dicts hp
      intro s hs
      exact ⟨hs.1, by intro d hd; cases hd⟩
  have := this ⟨[], [], []⟩ ⟨by simp, by simp⟩
  unfold xmltompc80col
  cases hm : processAdesElement o tabs root ⟨[], [], []⟩ with
  | ok _ s => rw [hm] at this; exact this.1
  | error _ s => rw [hm] at this; exact this.1

/-- a header line -/
theorem context_header {i : Elem} {l : Str} (h : l ∈ contextItem i) : IsHeader l := by
  unfold contextItem at h
  simp only at h
  unfold IsHeader
  split at h
  · obtain ⟨t, -, rfl⟩ := List.mem_map.1 h; simp
  · split at h
    · obtain ⟨t, -, rfl⟩ := List.mem_map.1 h; simp
    · split at h
      · obtain ⟨t, -, rfl⟩ := List.mem_map.1 h; simp
      · split at h
        · rw [List.mem_singleton.1 h]; simp
        · split at h
          · rw [List.mem_singleton.1 h]; simp
          · split at h
            · rw [List.mem_singleton.1 h]; simp
            · cases h

/-- printing one observation that fits -/
theorem keeps_item {m : Nat} {o : Opts} (ho : StdOpts o) (hP : ∀ l : Str, l.length = 77 + m → P l) {x : Str × Dict} (hR : x.1 = c! "radar" → ∀ l : Str, l.length = 80 → P l)
    (h1 : x.1 = c! "optical" ∨ x.1 = c! "occultation" → FitsDict m x.2) (h2 : x.1 = c! "radar" → FitsRadarDict x.2) : Keeps (Inv P Q) (printData o x) := by
  unfold printData
  split
  · rename_i hx
    have hf := h1 hx
    unfold printOpticalLine
    refine Keeps.bindLift fun a ha => ?_
    obtain ⟨p, l⟩ := a
    obtain ⟨e1, e2, e3, e4, e5, e6, e7⟩ := first_len ho hf ha
    refine Keeps.bind (keeps_print (hP l e1)) fun _ => Keeps.bindLift fun b hb => ?_
    split
    · exact Keeps.pure ()
    · exact keeps_print (hP l e1)
    · exact keeps_print (hP _ (second_len hf e2 e3 e4 e5 e6 e7 hb))
  · split
    · rename_i hx
      have hf := h2 hx
      unfold printRadarLine
      refine Keeps.bindLift fun a ha => ?_
      obtain ⟨l, s⟩ := a
      obtain ⟨e1, e2⟩ := radar_len hf ha
      exact Keeps.bind (keeps_print (hR hx l e1)) fun _ => Keeps.bindLift fun b hb => keeps_print (hR hx b (e2 b hb))
    · intro s hs; exact hs

end Verif.ToMpc80
