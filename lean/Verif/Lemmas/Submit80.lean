import Verif.Spec.Submit80
import Verif.Props.Fields
import Verif.Props.Sent
import Verif.Props.Widths
import Verif.Props.IsoTime
/-!
  Lemmas for C51: the fields of observations of valid submissions.
-/
namespace Verif.Xsd
open Verif.Xml Verif.Spec Verif.Spec.Xsd Verif.Master Verif.Check

/-- every word of `x` that contains an element whose name satisfies `P` contains one whose name satisfies `Q` -/
def pairs (S : Schema) (P Q : Str → Bool) : Nat → What → Bool
  | 0, _ => false
  | f + 1, .one p =>
    match p with
    | .elemRef r _ _ => !P r || Q r
    | .elemDecl r _ _ _ => !P r || Q r
    | .groupRef r _ _ =>
      match lookup S.groups r with
      | none => true
      | some ps => pairs S P Q f (.seq ps)
    | .seq _ ps => pairs S P Q f (.seq ps)
    | .choice _ ps => ps.all fun p => pairs S P Q f (.part p)
    | .all _ _ => false
    | .any => false
  | f + 1, .part p => pairs S P Q f (.one p)
  | _ + 1, .seq [] => true
  | f + 1, .seq (p :: ps) => needs S Q f (.part p) || needs S Q f (.seq ps) || (pairs S P Q f (.part p) && pairs S P Q f (.seq ps))
  | _ + 1, .all _ => false

theorem pairs_sound (S : Schema) (P Q : Str → Bool) {x : What} {w : List Letter'} (hm : Matches S x w) :
    ∀ {f : Nat}, pairs S P Q f x = true → ∀ n, P n = true → some n ∈ heads w → ∃ m, Q m = true ∧ some m ∈ heads w := by
  induction hm with
  | @ref r o m t e =>
    intro f h n hn hw
    cases f with
    | zero => simp [pairs] at h
    | succ f =>
      simp only [pairs, Bool.or_eq_true, Bool.not_eq_true'] at h
      simp only [heads, List.map_cons, List.map_nil, List.mem_singleton, Option.map_some, Option.some.injEq] at hw
      subst hw
      rcases h with h | h
      · rw [hn] at h; cases h
      · exact ⟨_, h, by simp [heads]⟩
  | @decl r t o m =>
    intro f h n hn hw
    cases f with
    | zero => simp [pairs] at h
    | succ f =>
      simp only [pairs, Bool.or_eq_true, Bool.not_eq_true'] at h
      simp only [heads, List.map_cons, List.map_nil, List.mem_singleton, Option.map_some, Option.some.injEq] at hw
      subst hw
      rcases h with h | h
      · rw [hn] at h; cases h
      · exact ⟨_, h, by simp [heads]⟩
  | group e _ ih =>
    intro f h
    cases f with
    | zero => simp [pairs] at h
    | succ f => simp only [pairs, e] at h; exact ih h
  | sequence _ ih =>
    intro f h
    cases f with
    | zero => simp [pairs] at h
    | succ f => simp only [pairs] at h; exact ih h
  | choice hp _ ih =>
    intro f h
    cases f with
    | zero => simp [pairs] at h
    | succ f => simp only [pairs] at h; exact ih (List.all_eq_true.1 h _ hp)
  | unordered _ ih =>
    intro f h
    cases f with
    | zero => simp [pairs] at h
    | succ f => simp [pairs] at h
  | any =>
    intro f h
    cases f with
    | zero => simp [pairs] at h
    | succ f => simp [pairs] at h
  | skip _ => intro f h n hn hw; simp [heads] at hw
  | once _ ih =>
    intro f h
    cases f with
    | zero => simp [pairs] at h
    | succ f => simp only [pairs] at h; exact ih h
  | @more p w w' _ _ _ ih1 ih2 =>
    intro f h n hn hw
    cases f with
    | zero => simp [pairs] at h
    | succ f =>
      have h' := h
      simp only [pairs] at h
      simp only [heads, List.map_append, List.mem_append] at hw ⊢
      rcases hw with hw | hw
      · obtain ⟨m, h1, h2⟩ := ih1 h n hn hw
        exact ⟨m, h1, .inl h2⟩
      · obtain ⟨m, h1, h2⟩ := ih2 h' n hn hw
        exact ⟨m, h1, .inr h2⟩
  | nil => intro f h n hn hw; simp [heads] at hw
  | @cons p ps w w' h1 h2 ih1 ih2 =>
    intro f h n hn hw
    cases f with
    | zero => simp [pairs] at h
    | succ f =>
      simp only [pairs, Bool.or_eq_true, Bool.and_eq_true] at h
      simp only [heads, List.map_append, List.mem_append] at hw ⊢
      rcases h with (h | h) | ⟨h3, h4⟩
      · obtain ⟨m, a, b⟩ := needs_sound S Q f _ h _ h1
        exact ⟨m, a, .inl b⟩
      · obtain ⟨m, a, b⟩ := needs_sound S Q f _ h _ h2
        exact ⟨m, a, .inr b⟩
      · rcases hw with hw | hw
        · obtain ⟨m, a, b⟩ := ih1 h3 n hn hw
          exact ⟨m, a, .inl b⟩
        · obtain ⟨m, a, b⟩ := ih2 h4 n hn hw
          exact ⟨m, a, .inr b⟩
  | none => intro f h n hn hw; simp [heads] at hw
  | pick _ _ _ _ =>
    intro f h
    cases f with
    | zero => simp [pairs] at h
    | succ f => simp [pairs] at h

theorem kids_heads {F : Facets} {S : Schema} : ∀ {w : List Letter'} {es : List Elem} {n : Str}, Valid F S (.kids w es) → none ∉ w → n ∈ es.map Elem.tag → some n ∈ heads w
  | _, _, n, .nil, _, h => by simp at h
  | _, _, n, @Valid.cons _ _ e es m t w ht hv hk, hw, h => by
    simp only [List.map_cons, List.mem_cons] at h
    rcases h with rfl | h
    · simp [heads, ht]
    · have := kids_heads hk (fun h => hw (by simp [h])) h
      simp only [heads, List.map_cons, List.mem_cons]; exact .inr this
  | _, _, n, .consAny _ _, hw, h => absurd (List.mem_cons_self) hw

end Verif.Xsd

namespace Verif.Submit80
open Verif.Xml Verif.Master Verif.PackUtil Verif.Spec Verif.Spec.Mpc80 Verif.ToPsv Verif.Psv Verif.Submission Verif.Fields
open Verif.Spec.Xsd (white)

/-! ### texts -/

theorem strip_drop {p : Char → Bool} (hp : ∀ c, p c = true → isSpace c = true) : ∀ t : Str, strip (t.dropWhile p) = strip t
  | [] => rfl
  | c :: t => by
    by_cases h : p c = true
    · rw [List.dropWhile_cons_of_pos h, strip_drop hp t, strip_cons_space (hp c h)]
    · rw [List.dropWhile_cons_of_neg h]

theorem strip_drop_end {p : Char → Bool} (hp : ∀ c, p c = true → isSpace c = true) (t : Str) : strip (t.reverse.dropWhile p).reverse = strip t := by
  generalize hr : t.reverse = r
  have : t = r.reverse := by rw [← hr, List.reverse_reverse]
  subst this
  clear hr
  induction r with
  | nil => rfl
  | cons c r ih =>
    by_cases h : p c = true
    · rw [List.dropWhile_cons_of_pos h, ih, List.reverse_cons, strip_snoc_space (hp c h)]
    · rw [List.dropWhile_cons_of_neg h]

theorem strip_xtrim (w : Str) : strip (Spec.Xsd.trim w) = strip w := by
  unfold Spec.Xsd.trim
  rw [strip_drop_end (fun c hc => Xsd.white_space hc), strip_drop fun c hc => Xsd.white_space hc]

/-- a text without white space between white space -/
theorem strip_around {w t : Str} (h : Spec.Xsd.trim w = t) (ht : strip t = t) : strip w = t := by rw [← strip_xtrim, h, ht]

theorem numeral_strip {n : Numeral} (h : n.Valid) : strip n.text = n.text := by
  refine strip_of_none fun c hc => ?_
  have q : ∀ c ∈ c! "+-Ee0123456789.", isSpace c = false := by decide
  exact q c (Xsd.text_chars h c hc)

theorem strip_numeral {w : Str} {n : Numeral} (h : n.Valid) (hw : Spec.Xsd.trim w = n.text) : strip w = n.text := strip_around hw (numeral_strip h)

theorem alnum_nospace {c : Char} (h : Alnum c) : isSpace c = false := by
  have hr : ∀ a b : Char, a.toNat > 32 → b.toNat < 127 → a ≤ c → c ≤ b → isSpace c = false := by
    intro a b ha hb h1 h2
    have h1 : a.toNat ≤ c.toNat := h1
    have h2 : c.toNat ≤ b.toNat := h2
    have q : ∀ i : Nat, i < 95 → isSpace (Char.ofNat (i + 33)) = false := by decide +kernel
    have e : c = Char.ofNat (c.toNat - 33 + 33) := by rw [show c.toNat - 33 + 33 = c.toNat by omega, Char.ofNat_toNat]
    rw [e]; exact q _ (by omega)
  rcases h with ⟨h1, h2⟩ | ⟨h1, h2⟩ | ⟨h1, h2⟩ | rfl
  · exact hr _ _ (by decide) (by decide) h1 h2
  · exact hr _ _ (by decide) (by decide) h1 h2
  · exact hr _ _ (by decide) (by decide) h1 h2
  · decide

theorem code_strip {k m : Nat} {w : Str} (h : Code k m w) : strip w = w := strip_of_none fun c hc => alnum_nospace (h.2.2 c hc)

theorem catalogue_strip {w : Str} (h : Catalogue w) : strip w = w := strip_of_none fun c hc => by
  rcases h.2.2 c hc with h | rfl
  · exact alnum_nospace h
  · decide

/-! ### digits -/

theorem fixed_digitsNat {ds : Str} (hd : ∀ c ∈ ds, c ∈ c! "0123456789") (hne : ds ≠ []) : fixed ds.length (digitsNat ds) = ds := by
  generalize hr : ds.reverse = r
  have : ds = r.reverse := by rw [← hr, List.reverse_reverse]
  subst this
  clear hr
  induction r with
  | nil => exact absurd rfl hne
  | cons c r ih =>
    obtain ⟨k, hk, rfl⟩ := Xsd.digit_char (hd c (by simp))
    have hd' : ∀ x ∈ r.reverse, x ∈ c! "0123456789" := fun x hx => hd x (by rw [List.reverse_cons]; exact List.mem_append_left _ hx)
    have hn : digitsNat ((digitChar k :: r).reverse) = 10 * digitsNat r.reverse + k := by
      rw [List.reverse_cons]
      unfold digitsNat
      rw [List.foldl_append]
      simp only [List.foldl_cons, List.foldl_nil, Xsd.digitChar_toNat hk]
      omega
    cases hr : r with
    | nil =>
      subst hr
      have : digitsNat [digitChar k] = k := by simpa [digitsNat] using hn
      simp only [List.reverse_cons, List.reverse_nil, List.nil_append, List.length_cons, List.length_nil]
      rw [this]; exact fixed1 hk
    | cons x y =>
      rw [← hr, hn, List.reverse_cons, List.length_append, List.length_cons, List.length_nil, fixed_succ (by simp [hr])]
      have e1 : (10 * digitsNat r.reverse + k) / 10 = digitsNat r.reverse := by omega
      have e2 : (10 * digitsNat r.reverse + k) % 10 = k := by omega
      rw [e1, e2, ih hd' (by simp [hr])]

theorem dec_digitsNat {ds : Str} (hd : ∀ c ∈ ds, c ∈ c! "0123456789") (hne : ds ≠ []) (hz : ds.head? = some '0' → ds = ['0']) : Spec.dec (digitsNat ds) = ds := by
  have h := fixed_digitsNat hd hne
  by_cases h0 : ds.head? = some '0'
  · rw [hz h0]; decide
  · rw [fixed_eq] at h
    cases hk : ds.length - (natStr (digitsNat ds)).length with
    | zero => rw [hk] at h; rw [dec_eq]; exact h
    | succ k =>
      rw [hk, List.replicate_succ, List.cons_append] at h
      exact absurd (by rw [← h]; rfl) h0

/-! ### fields of observations -/

variable {t : Str} {e : Elem}

/-- an observation of a valid submission -/
structure Ok (t : Str) (e : Elem) : Prop where
  kind : t ∈ psvKinds
  tag : e.tag = t
  valid : Valid xsd submitSchema (.typed (typeName t) e)

theorem ok_of {doc e : Elem} (hr : doc.tag = c! "ades") (hv : ValidDocument xsd submitSchema doc) (he : e ∈ observations doc) : ∃ t, Ok t e := by
  obtain ⟨t, h1, h2, h3⟩ := observation_of hr hv he
  exact ⟨t, h1, h2, h3⟩

theorem field_known (h : Ok t e) : open' (typeName t) = true ∧ ∀ p ∈ kidTypes (typeName t), lookup submitSchema.elements p.1 = some p.2 ∧ lookup submitSchema.complex p.2 = none := by
  have h := List.all_eq_true.1 fields_known t h.kind
  simp only [Bool.and_eq_true, List.all_eq_true] at h
  obtain ⟨⟨h1, -⟩, h2⟩ := h
  refine ⟨h1, fun p hp => ?_⟩
  have h3 := h2 p hp
  simp only [Bool.or_eq_true, decide_eq_true_eq, Option.isNone_iff_eq_none] at h3
  exact h3.1

/-- each field is valid alone -/
theorem field_doc (h : Ok t e) {k : Elem} (hk : k ∈ e.kids) : ValidDocument xsd submitSchema (.mk k.tag (some (k.text.getD [])) [] []) := by
  obtain ⟨h1, h2⟩ := field_known h
  obtain ⟨T, hT, hvk⟩ := kid_type h1 h.valid hk
  obtain ⟨h3, h4⟩ := h2 _ hT
  exact (leaf_iff h3 h4).2 (Xsd.simple_elem h4 hvk).2

theorem field_kid {n v : Str} (hf : fieldOf e n = some v) : ∃ k ∈ e.kids, k.tag = n ∧ strip (k.text.getD []) = v ∧ v ≠ [] := by
  unfold fieldOf at hf
  have hm := List.mem_of_getLast? hf
  obtain ⟨k, hk, rfl⟩ := List.mem_map.1 hm
  obtain ⟨hk, h⟩ := List.mem_filter.1 hk
  simp only [decide_eq_true_eq] at h
  exact ⟨k, hk, h.1, rfl, h.2⟩

theorem kid_field {k : Elem} (hk : k ∈ e.kids) (hs : strip (k.text.getD []) ≠ []) : ∃ v, fieldOf e k.tag = some v := by
  unfold fieldOf
  rw [← Option.isSome_iff_exists, List.getLast?_isSome]
  intro hn
  have : k ∈ e.kids.filter fun j => decide (j.tag = k.tag ∧ strip (j.text.getD []) ≠ []) := List.mem_filter.2 ⟨hk, by simpa using hs⟩
  rw [List.map_eq_nil_iff] at hn
  rw [hn] at this
  cases this

theorem field_valid (h : Ok t e) {n : Str} {P : Str → Prop} (hp : (n, P) ∈ fieldValue) {v : Str} (hf : fieldOf e n = some v) : ∃ w, P w ∧ strip w = v ∧ v ≠ [] := by
  obtain ⟨k, hk, rfl, h1, h2⟩ := field_kid hf
  exact ⟨_, (C49_fields _ hp _).1 (field_doc h hk), h1, h2⟩

theorem field_absent (h : Ok t e) {n : Str} (hn : (kidTypes (typeName t)).all (fun p => p.1 ≠ n) = true) : fieldOf e n = none := by
  cases hf : fieldOf e n with
  | none => rfl
  | some v =>
    obtain ⟨k, hk, rfl, -, -⟩ := field_kid hf
    obtain ⟨T, hT, -⟩ := kid_type (field_known h).1 h.valid hk
    have := List.all_eq_true.1 hn _ hT
    simp at this

theorem content_word (h : Ok t e) : ∃ w, Matches submitSchema (.seq (contentOf (typeName t))) w ∧ Valid xsd submitSchema (.kids w e.kids) ∧ none ∉ w := by
  have ho := (field_known h).1
  simp only [open', Bool.and_eq_true, Option.isSome_iff_exists] at ho
  obtain ⟨⟨c, hc⟩, h2⟩ := ho
  have e' : contentOf (typeName t) = c.content := by simp [contentOf, hc]
  rw [e'] at h2 ⊢
  obtain ⟨-, -, w, h3, h4, -⟩ := Xsd.complex_kids hc h2 h.valid
  refine ⟨w, h3, h4, fun hn => ?_⟩
  obtain ⟨p, -, e⟩ := Xsd.letters_sound h3 h2 _ hn
  cases e

theorem kid_needed (h : Ok t e) {n : Str} (hn : Check.needs submitSchema (· = n) 40 (.seq (contentOf (typeName t))) = true) : ∃ k ∈ e.kids, k.tag = n := by
  obtain ⟨w, h1, h2, -⟩ := content_word h
  obtain ⟨m, hm, hw⟩ := Check.needs_sound _ _ _ _ hn w h1
  have := Check.kids_mem h2 hw
  simp only [decide_eq_true_eq] at hm
  subst hm
  simpa using this

theorem kid_paired (h : Ok t e) {n m : Str} (hp : Xsd.pairs submitSchema (· = n) (· = m) 40 (.seq (contentOf (typeName t))) = true) {k : Elem} (hk : k ∈ e.kids) (hn : k.tag = n) : ∃ j ∈ e.kids, j.tag = m := by
  obtain ⟨w, h1, h2, h3⟩ := content_word h
  obtain ⟨x, hm, hw⟩ := Xsd.pairs_sound _ _ _ h1 hp n (by simp) (Xsd.kids_heads h2 h3 (List.mem_map.2 ⟨k, hk, hn⟩))
  have := Check.kids_mem h2 hw
  simp only [decide_eq_true_eq] at hm
  subst hm
  simpa using this

/-! ### times -/

theorem leap_strip {w : Str} (h : Xsd.Alt.Has (c! "xsd:string", [(c! "xsd:string", Xsd.leapPatterns.map fun p => (c! "xsd:pattern", p))]) w) : strip w = w := by
  have h : ∃ p ∈ Xsd.leapPatterns, ∃ r, Spec.Xsd.pattern p = some r ∧ r.Takes w := by
    rw [Xsd.has_string] at h
    simp only [List.mem_singleton, forall_eq] at h
    rw [Xsd.within_iff { pattern := Xsd.leapPatterns } rfl rfl] at h
    rcases h.1 with h | h
    · exact absurd h (by decide)
    · simpa only [Xsd.normal_string] using h
  have end' : ∀ {Y : List Spec.Xsd.Rx} {d : Str} {p : Char → Bool} {P : Str}, Spec.Xsd.pattern P = some (Xsd.leapRx Y d p) → (∀ s, (Xsd.sq Y).Takes s → ∃ c u, s = c :: u ∧ isSpace c = false) →
      (∃ r, Spec.Xsd.pattern P = some r ∧ r.Takes w) → strip w = w := by
    rintro Y d p P hP hY ⟨r, hr, hw⟩
    rw [hP] at hr
    cases hr
    obtain ⟨s, f, hs, -, rfl⟩ := Xsd.takes_leap.1 hw
    obtain ⟨c, u, rfl, hc⟩ := hY s hs
    refine strip_of_ends ?_ ?_
    · rintro _ ⟨⟩; exact hc
    · intro x hx
      simp only [List.getLast?_append, List.getLast?_singleton, Option.some_or, Option.mem_some_iff] at hx
      subst hx; decide
  have one : ∀ {c : Char} {Y : List Spec.Xsd.Rx}, isSpace c = false → ∀ s, (Xsd.sq (Xsd.lit c :: Y)).Takes s → ∃ c u, s = c :: u ∧ isSpace c = false := by
    intro c Y hc s hs
    rw [Xsd.sq, Xsd.takes_seq_lit] at hs
    obtain ⟨u, rfl, -⟩ := hs
    exact ⟨c, u, rfl, hc⟩
  have two : ∀ s, (Xsd.sq [Xsd.thousand2]).Takes s → ∃ c u, s = c :: u ∧ isSpace c = false := by
    intro s hs
    rw [Xsd.sq, Xsd.sq, Xsd.takes_seq_eps, Xsd.thousand2, Xsd.takes_alt, Xsd.takes_alt] at hs
    rcases hs with hs | hs | hs <;> exact one (by decide) s hs
  have three : ∀ s, (Xsd.sq [.one (Xsd.anyOf [Xsd.rg '3' '9']), Xsd.digs 3 (some 3)]).Takes s → ∃ c u, s = c :: u ∧ isSpace c = false := by
    intro s hs
    rw [Xsd.sq, Xsd.takes_seq_one] at hs
    obtain ⟨c, u, hc, rfl, -⟩ := hs
    obtain ⟨k, -, hk, rfl⟩ := Xsd.rg_is_digit (i := 3) (j := 9) rfl rfl (by omega) hc
    exact ⟨_, u, rfl, (show ∀ k, k ≤ 9 → isSpace (digitChar k) = false by decide) k hk⟩
  obtain ⟨p, hp, h⟩ := h
  simp only [Xsd.leapPatterns, List.mem_cons, List.not_mem_nil, or_false] at hp
  rcases hp with rfl | rfl | rfl | rfl | rfl | rfl | rfl | rfl
  · exact end' Xsd.pat_leap1 (one (by decide)) h
  · exact end' Xsd.pat_leap2 (one (by decide)) h
  · exact end' Xsd.pat_leap3 (one (by decide)) h
  · exact end' Xsd.pat_leap4 (one (by decide)) h
  · exact end' Xsd.pat_leap5 two h
  · exact end' Xsd.pat_leap6 two h
  · exact end' Xsd.pat_leap7 three h
  · exact end' Xsd.pat_leap8 three h

theorem ordinary_strip {v : Str} (h : OrdinaryTime v) : strip v = v := by
  obtain ⟨y, mo, d, h, mi, s, f, -, -, -, -, -, -, -, -, rfl⟩ := h
  refine strip_of_ends ?_ ?_
  · intro c hc
    obtain ⟨x, hx, hd⟩ := Xsd.fixed_head (k := 4) (n := y) (by omega) ('-' :: fixed 2 mo ++ '-' :: fixed 2 d ++ 'T' :: fixed 2 h ++ ':' :: fixed 2 mi ++ ':' :: fixed 2 s ++ f ++ ['Z'])
    simp only [List.append_assoc, List.cons_append] at hx hc
    rw [hx] at hc
    cases hc
    exact digit_not_space hd
  · intro x hx
    simp only [List.getLast?_append, List.getLast?_singleton, Option.some_or, Option.mem_some_iff] at hx
    subst hx; decide

theorem kid_time (h : Ok t e) {v : Str} {k : Elem} (hk : k ∈ e.kids) (hn : k.tag = c! "obsTime") (h1 : strip (k.text.getD []) = v) (ha : AsciiText v) : OrdinaryTime v ∨ LeapTime v := by
  have hd := field_doc h hk
  rw [hn] at hd
  rw [leaf_iff (T := c! "TimeType") (by kernel_rfl) (by kernel_rfl),
    Xsd.hasType_iff (l := [(c! "xsd:dateTime", [(c! "xsd:dateTime", [(c! "xsd:pattern", c! "\\d{4}-\\d{2}-\\d{2}T\\d{2}:\\d{2}:\\d{2}(\\.\\d{1,6})?Z")])]),
      (c! "xsd:string", [(c! "xsd:string", Xsd.leapPatterns.map fun p => (c! "xsd:pattern", p))])]) (f := 9) (by kernel_rfl)] at hd
  simp only [List.mem_cons, List.not_mem_nil, or_false, exists_eq_or_imp, exists_eq_left] at hd
  rcases hd with hd | hd
  · rw [Xsd.has_time] at hd
    have := strip_around rfl (ordinary_strip hd)
    rw [h1] at this
    rw [this]; exact .inl hd
  · have hs := leap_strip hd
    rw [h1] at hs
    rw [← hs] at hd
    rw [Xsd.has_leap ha] at hd
    exact .inr hd

theorem time_value (h : Ok t e) {v : Str} (hf : fieldOf e (c! "obsTime") = some v) (ha : AsciiText v) : OrdinaryTime v ∨ LeapTime v := by
  obtain ⟨k, hk, hn, h1, h2⟩ := field_kid hf
  exact kid_time h hk hn h1 ha

theorem dec_fixed {y : Nat} (h1 : 1000 ≤ y) (h2 : y ≤ 9999) : Spec.dec y = fixed 4 y := by
  rw [fixed_eq, dec_eq]
  have : (natStr y).length = 4 := by rw [natStr4 (by omega) h1]; rfl
  rw [this]; rfl

theorem digitsNat_fixed (k n : Nat) : digitsNat (fixed k n) = n := by
  have h := Sex.digitsVal_digits (fixed_mem k n)
  rw [Sex.digitsVal_fixed k n] at h
  exact (Option.some.inj h).symm

end Verif.Submit80
