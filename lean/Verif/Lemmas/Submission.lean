import Verif.Lemmas.SimpleTypes
import Verif.Lemmas.JsonSchema
import Verif.Lemmas.Numeral
import Verif.Lemmas.XmlToPsvRun
import Verif.Lemmas.XmlToPsvTotal
/-!
  Lemmas about valid documents: what can be computed from the schema about the values of fields.
-/
namespace Verif.Xsd
open Verif Verif.Xml Verif.Spec Verif.Spec.Xsd

/-! ### the sub-elements a content model allows -/

/-- names and types of the possible sub-elements -/
def letters (S : Schema) : Nat → What → List (Str × Str)
  | 0, _ => []
  | f + 1, .one p =>
    match p with
    | .elemRef r _ _ => ((lookup S.elements r).map fun t => (r, t)).toList
    | .elemDecl n t _ _ => [(n, t)]
    | .groupRef r _ _ => letters S f (.seq ((lookup S.groups r).getD []))
    | .seq _ ps => letters S f (.seq ps)
    | .choice _ ps => ps.flatMap fun p => letters S f (.part p)
    | .all _ ps => letters S f (.all ps)
    | .any => []
  | f + 1, .part p => letters S f (.one p)
  | f + 1, .seq ps => ps.flatMap fun p => letters S f (.part p)
  | f + 1, .all ps => ps.flatMap fun p => letters S f (.part p)

/-- `letters` is the full list: enough steps, and nothing is allowed under any name -/
def known (S : Schema) : Nat → What → Bool
  | 0, _ => false
  | f + 1, .one p =>
    match p with
    | .elemRef _ _ _ => true
    | .elemDecl _ _ _ _ => true
    | .groupRef r _ _ => known S f (.seq ((lookup S.groups r).getD []))
    | .seq _ ps => known S f (.seq ps)
    | .choice _ ps => ps.all fun p => known S f (.part p)
    | .all _ ps => known S f (.all ps)
    | .any => false
  | f + 1, .part p => known S f (.one p)
  | f + 1, .seq ps => ps.all fun p => known S f (.part p)
  | f + 1, .all ps => ps.all fun p => known S f (.part p)

theorem letters_sound {S : Schema} {x : What} {w : List Letter'} (h : Matches S x w) : ∀ {f : Nat}, known S f x = true → ∀ l ∈ w, ∃ p ∈ letters S f x, l = some p := by
  induction h with
  | ref e =>
    intro f hk l hl
    cases f with
    | zero => simp [known] at hk
    | succ f => simp at hl; subst hl; exact ⟨_, by simp [letters, e], rfl⟩
  | decl =>
    intro f hk l hl
    cases f with
    | zero => simp [known] at hk
    | succ f => simp at hl; subst hl; exact ⟨_, by simp [letters], rfl⟩
  | group e _ ih =>
    intro f hk l hl
    cases f with
    | zero => simp [known] at hk
    | succ f =>
      simp only [known, e, Option.getD_some] at hk
      simpa [letters, e] using ih hk l hl
  | sequence _ ih =>
    intro f hk l hl
    cases f with
    | zero => simp [known] at hk
    | succ f => exact ih hk l hl
  | choice hp _ ih =>
    intro f hk l hl
    cases f with
    | zero => simp [known] at hk
    | succ f =>
      simp only [known, List.all_eq_true] at hk
      obtain ⟨p, h1, h2⟩ := ih (hk _ hp) l hl
      exact ⟨p, List.mem_flatMap.2 ⟨_, hp, h1⟩, h2⟩
  | unordered _ ih =>
    intro f hk l hl
    cases f with
    | zero => simp [known] at hk
    | succ f => exact ih hk l hl
  | any =>
    intro f hk
    cases f <;> simp [known] at hk
  | skip _ => intro f hk l hl; simp at hl
  | once _ ih =>
    intro f hk l hl
    cases f with
    | zero => simp [known] at hk
    | succ f => exact ih hk l hl
  | more _ _ _ ih1 ih2 =>
    intro f hk l hl
    rcases List.mem_append.1 hl with hl | hl
    · cases f with
      | zero => simp [known] at hk
      | succ f => exact ih1 hk l hl
    · exact ih2 hk l hl
  | nil => intro f hk l hl; simp at hl
  | cons _ _ ih1 ih2 =>
    intro f hk l hl
    cases f with
    | zero => simp [known] at hk
    | succ f =>
      simp only [known, List.all_cons, Bool.and_eq_true] at hk
      rcases List.mem_append.1 hl with hl | hl
      · obtain ⟨p, h1, h2⟩ := ih1 hk.1 l hl
        exact ⟨p, by simp only [letters, List.flatMap_cons, List.mem_append]; exact .inl h1, h2⟩
      · obtain ⟨p, h1, h2⟩ := ih2 (f := f + 1) (by simpa only [known] using hk.2) l hl
        exact ⟨p, by simp only [letters, List.flatMap_cons, List.mem_append] at h1 ⊢; exact .inr h1, h2⟩
  | none => intro f hk l hl; simp at hl
  | pick _ _ ih1 ih2 =>
    intro f hk l hl
    cases f with
    | zero => simp [known] at hk
    | succ f =>
      simp only [known, List.all_append, List.all_cons, Bool.and_eq_true] at hk
      rcases List.mem_append.1 hl with hl | hl
      · obtain ⟨p, h1, h2⟩ := ih1 hk.2.1 l hl
        exact ⟨p, by simp only [letters, List.flatMap_append, List.flatMap_cons, List.mem_append]; exact .inr (.inl h1), h2⟩
      · obtain ⟨p, h1, h2⟩ := ih2 (f := f + 1) (by simp only [known, List.all_append, Bool.and_eq_true]; exact ⟨hk.1, hk.2.2⟩) l hl
        refine ⟨p, ?_, h2⟩
        simp only [letters, List.flatMap_append, List.flatMap_cons, List.mem_append] at h1 ⊢
        rcases h1 with h1 | h1
        · exact .inl h1
        · exact .inr (.inr h1)

/-- the sub-elements of a valid element are valid for their types -/
theorem kids_typed {F : Facets} {S : Schema} : ∀ {w : List Letter'} {es : List Elem} {L : List (Str × Str)}, Valid F S (.kids w es) → (∀ l ∈ w, ∃ p ∈ L, l = some p) →
    ∀ k ∈ es, ∃ t, (k.tag, t) ∈ L ∧ Valid F S (.typed t k)
  | _, _, _, .nil, _ => by simp
  | _, _, L, @Valid.cons _ _ e es n t w ht hv hk, h => by
    intro k hm
    rcases List.mem_cons.1 hm with rfl | hm
    · obtain ⟨p, hp, e⟩ := h (some (n, t)) (by simp)
      cases e
      exact ⟨t, by rw [ht]; exact hp, hv⟩
    · exact kids_typed hk (fun l hl => h l (by simp [hl])) k hm
  | _, _, L, .consAny _ _, h => by
    obtain ⟨p, hp, e⟩ := h none (by simp)
    cases e

/-- an element of a complex type without anything of unknown names -/
theorem complex_kids {F : Facets} {S : Schema} {T : Str} {c : ComplexType} {f : Nat} (hc : lookup S.complex T = some c) (hk : known S f (.seq c.content) = true)
    {e : Elem} (h : Valid F S (.typed T e)) : strip (e.text.getD []) = [] ∧ AttributesOk F S c.attributes e.attrib ∧
      ∃ w, Matches S (.seq c.content) w ∧ Valid F S (.kids w e.kids) ∧ ∀ k ∈ e.kids, ∃ t, (k.tag, t) ∈ letters S f (.seq c.content) ∧ Valid F S (.typed t k) := by
  cases h with
  | simple e _ => rw [hc] at e; cases e
  | complex e h1 h2 h3 h4 =>
    rw [hc] at e; cases e
    exact ⟨h1, h2, _, h3, h4, kids_typed h4 (letters_sound h3 hk)⟩

theorem simple_elem {F : Facets} {S : Schema} {t : Str} (hc : lookup S.complex t = none) {k : Elem} (h : Valid F S (.typed t k)) :
    k = .mk k.tag k.text [] [] ∧ HasType F S t (k.text.getD []) := by
  cases h with
  | simple _ h => exact ⟨rfl, h⟩
  | complex e => rw [hc] at e; cases e

/-! ### values of the built-in types other than strings -/

theorem white_space {c : Char} (h : white c = true) : isSpace c = true := by
  simp only [white, Bool.decide_or, Bool.or_eq_true, decide_eq_true_eq] at h
  rcases h with rfl | rfl | rfl | rfl <;> decide

theorem trim_of_strip {x : Str} (h : strip x = x) : trim x = x := by
  have h1 : x.dropWhile white = x := by
    cases x with
    | nil => rfl
    | cons c t =>
      refine dropWhile_self ?_
      rintro _ ⟨⟩
      cases hw : white c with
      | false => rfl
      | true =>
        exfalso
        have hs := white_space hw
        unfold strip lstrip rstrip at h
        have : ∀ l : Str, l.dropWhile isSpace = c :: t → False := by
          intro l hl
          have := List.head?_dropWhile_not isSpace l
          simp [hl, hs] at this
        exact this _ h
  have h2 : x.reverse.dropWhile white = x.reverse := by
    cases hr : x.reverse with
    | nil => rfl
    | cons c t =>
      refine dropWhile_self ?_
      rintro _ ⟨⟩
      cases hw : white c with
      | false => rfl
      | true =>
        exfalso
        have hs := white_space hw
        unfold strip lstrip rstrip at h
        rw [hr] at h
        simp only [List.dropWhile_cons, hs, if_true] at h
        have h3 := congrArg List.length h
        have h4 := congrArg List.length hr
        simp only [List.length_reverse, List.length_cons] at h4
        have h5 : ∀ (l : Str), (l.dropWhile isSpace).length ≤ l.length := fun l => (List.dropWhile_sublist _).length_le
        have h6 := h5 (t.dropWhile isSpace).reverse
        have h7 := h5 t
        simp only [List.length_reverse] at h6
        omega
  unfold trim
  rw [h1, h2, List.reverse_reverse]

/-- the characters of numbers and times -/
def numChars : Str := c! "0123456789+-.eEINFaT:Z"

theorem digit_count {l : Str} (h : ∀ c ∈ l, c ∈ c! "0123456789") : l.count '.' = 0 := by
  rw [List.count_eq_zero]
  intro hc
  exact absurd (h _ hc) (by decide)

theorem digit_num {c : Char} (h : c ∈ c! "0123456789") : c ∈ numChars := by
  revert h; unfold numChars; simp only [List.mem_cons, List.not_mem_nil, or_false]
  rintro (h | h | h | h | h | h | h | h | h | h) <;> subst h <;> decide

theorem numeral_text {n : Numeral} (h : n.Valid) : n.text ≠ [] ∧ (∀ c ∈ n.text, c ∈ numChars) ∧ n.text.count '.' ≤ 1 ∧ (n.frac = none → n.text.count '.' = 0) := by
  obtain ⟨h1, h2, h3, h4⟩ := h
  have hs : n.sign.toList.count '.' = 0 := by
    rw [List.count_eq_zero]
    intro hc
    rcases h1 _ (by simpa using hc) with e | e <;> exact absurd e (by decide)
  have hw := digit_count h2
  unfold Numeral.text
  cases hf : n.frac with
  | none =>
    rw [hf] at h4
    have hne : n.whole ≠ [] := h4.resolve_right (by simp)
    refine ⟨by simp [hne], ?_, by simp [hs, hw], by simp [hs, hw]⟩
    intro c hc
    simp only [List.append_nil, List.mem_append] at hc
    rcases hc with hc | hc
    · rcases h1 _ (by simpa using hc) with rfl | rfl <;> decide
    · exact digit_num (h2 c hc)
  | some f =>
    have hf' := digit_count (h3 f (by rw [hf]; rfl))
    refine ⟨by simp, ?_, by simp [hs, hw, hf'], by simp⟩
    intro c hc
    simp only [List.mem_append, List.mem_cons] at hc
    rcases hc with (hc | hc) | rfl | hc
    · rcases h1 _ (by simpa using hc) with rfl | rfl <;> decide
    · exact digit_num (h2 c hc)
    · decide
    · exact digit_num (h3 f (by rw [hf]; rfl) c hc)

theorem fixed_num {k n : Nat} : ∀ c ∈ fixed k n, c ∈ numChars := fun c hc => digit_num (fixed_mem k n c hc)

theorem fixed_dot (k n : Nat) : (fixed k n).count '.' = 0 := digit_count (fixed_mem k n)

theorem zone_text {z : Str} (h : Zone z) : (∀ c ∈ z, c ∈ numChars) ∧ z.count '.' = 0 := by
  rcases h with rfl | rfl | ⟨s, h, m, hs, -, -, rfl⟩
  · simp
  · decide
  · have e : s ∈ numChars ∧ s ≠ '.' := by rcases hs with rfl | rfl <;> decide
    refine ⟨?_, ?_⟩
    · intro c hc
      simp only [List.cons_append, List.mem_cons, List.mem_append] at hc
      rcases hc with rfl | hc | rfl | hc
      · exact e.1
      · exact fixed_num c hc
      · decide
      · exact fixed_num c hc
    · simp [fixed_dot, e.2]

/-- a piece of a time without points -/
def NoDot (s : Str) : Prop := (∀ c ∈ s, c ∈ numChars) ∧ s.count '.' = 0

theorem NoDot.append {s t : Str} (h : NoDot s) (h' : NoDot t) : NoDot (s ++ t) := by
  refine ⟨?_, by rw [List.count_append, h.2, h'.2]⟩
  intro c hc
  rcases List.mem_append.1 hc with hc | hc
  · exact h.1 c hc
  · exact h'.1 c hc

theorem NoDot.cons {a : Char} {t : Str} (ha : a ∈ numChars) (h0 : a ≠ '.') (h' : NoDot t) : NoDot (a :: t) := by
  refine ⟨?_, by simp [h0, h'.2]⟩
  intro c hc
  rcases List.mem_cons.1 hc with rfl | hc
  · exact ha
  · exact h'.1 c hc

theorem noDot_fixed (k n : Nat) : NoDot (fixed k n) := ⟨fixed_num, fixed_dot k n⟩

theorem fixed_head {k n : Nat} (hk : 0 < k) (t : Str) : ∃ c, (fixed k n ++ t).head? = some c ∧ c ∈ c! "0123456789" := by
  cases h : fixed k n with
  | nil =>
    have h1 : (fixed k n).length = 0 := by rw [h]; rfl
    have : k ≤ (fixed k n).length := by simp [fixed, List.leftpad]; omega
    omega
  | cons c l => exact ⟨c, rfl, fixed_mem k n c (by rw [h]; simp)⟩

theorem dateTime_text {v : Str} (h : DateTime v) : (∀ c ∈ v, c ∈ numChars) ∧ v.count '.' ≤ 1 ∧ ∃ c, v.head? = some c ∧ (c = '-' ∨ c ∈ c! "0123456789") := by
  obtain ⟨neg, y, mo, d, h, mi, s, f, z, -, -, -, -, -, hf, -, hz, rfl⟩ := h
  have hz := zone_text hz
  have hneg : NoDot (if neg then ['-'] else []) := by cases neg <;> exact ⟨by decide, by decide⟩
  have hfd : (∀ c ∈ f, c ∈ numChars) ∧ f.count '.' ≤ 1 := by
    rcases hf with rfl | ⟨ds, -, hd, rfl⟩
    · simp
    · refine ⟨?_, by simp [digit_count hd]⟩
      intro c hc
      rcases List.mem_cons.1 hc with rfl | hc
      · decide
      · exact digit_num (hd c hc)
  have hpre : NoDot ((if neg then ['-'] else []) ++ fixed 4 y ++ '-' :: fixed 2 mo ++ '-' :: fixed 2 d ++ 'T' :: fixed 2 h ++ ':' :: fixed 2 mi ++ ':' :: fixed 2 s) := by
    refine .append (.append (.append (.append (.append (.append hneg (noDot_fixed _ _)) ?_) ?_) ?_) ?_) ?_ <;>
      exact .cons (by decide) (by decide) (noDot_fixed _ _)
  refine ⟨?_, ?_, ?_⟩
  · intro c hc
    rcases List.mem_append.1 hc with hc | hc
    · rcases List.mem_append.1 hc with hc | hc
      · exact hpre.1 c hc
      · exact hfd.1 c hc
    · exact hz.1 c hc
  · rw [List.count_append, List.count_append, hpre.2, hz.2]
    have := hfd.2
    omega
  · cases neg
    · simp only [Bool.false_eq_true, if_false, List.nil_append, List.append_assoc]
      obtain ⟨c, h1, h2⟩ := fixed_head (k := 4) (n := y) (by decide) ('-' :: fixed 2 mo ++ ('-' :: fixed 2 d ++ ('T' :: fixed 2 h ++ (':' :: fixed 2 mi ++ (':' :: fixed 2 s ++ (f ++ z))))))
      exact ⟨c, h1, .inr h2⟩
    · exact ⟨'-', rfl, .inl rfl⟩

theorem builtin_text {b x : Str} (h : Builtin b x) (hb : b ≠ c! "xsd:string") : trim x ≠ [] ∧ (∀ c ∈ trim x, c ∈ numChars) ∧ (trim x).count '.' ≤ 1 := by
  have num : ∀ {n : Numeral}, n.Valid → trim x = n.text → trim x ≠ [] ∧ (∀ c ∈ trim x, c ∈ numChars) ∧ (trim x).count '.' ≤ 1 := by
    intro n hn e
    obtain ⟨h1, h2, h3, -⟩ := numeral_text hn
    rw [e]; exact ⟨h1, h2, h3⟩
  rcases h with h | ⟨-, q, n, hn, e, -⟩ | ⟨-, q, n, hn, -, e, -⟩ | ⟨-, q, ⟨n, hn, -, e, -⟩, -⟩ | ⟨-, h⟩ | ⟨-, h⟩
  · exact absurd h hb
  · exact num hn e
  · exact num hn e
  · exact num hn e
  · rcases h with ⟨n, hn, e | ⟨m, hm, hf, e⟩⟩ | h
    · exact num hn e
    · obtain ⟨h1, h2, h3, -⟩ := numeral_text hn
      obtain ⟨-, m2, -, m4⟩ := numeral_text hm
      have m4 := m4 hf
      have : ∀ a, a ∈ numChars → a ≠ '.' → n.text ++ a :: m.text ≠ [] ∧ (∀ c ∈ n.text ++ a :: m.text, c ∈ numChars) ∧ (n.text ++ a :: m.text).count '.' ≤ 1 := by
        intro a ha h0
        refine ⟨by simp, ?_, by simp [h0, m4, h3]⟩
        intro c hc
        simp only [List.mem_append, List.mem_cons] at hc
        rcases hc with hc | rfl | hc
        · exact h2 c hc
        · exact ha
        · exact m2 c hc
      rcases e with e | e
      · rw [e]; exact this 'e' (by decide) (by decide)
      · rw [e]; exact this 'E' (by decide) (by decide)
    · rcases h with e | e | e <;> rw [e] <;> decide
  · obtain ⟨h1, h2, c, h3, -⟩ := dateTime_text h
    exact ⟨by intro e; rw [e] at h3; simp at h3, h1, h2⟩

/-! ### checks of types -/

/-- every alternative is a built-in type in `okB`, or has a restriction whose patterns (or enumerated strings) are all in `okR` (in `okS`) -/
def typeIs (S S0 : Schema) (okB : Str → Bool) (okR : Rx → Bool) (okS : Str → Bool) (t : Str) : Bool :=
  match alts S S0 9 t with
  | some l => l.all fun a => okB a.1 || a.2.any (everyB okR okS)
  | none => false

theorem typeIs_sound {S S0 : Schema} {okB : Str → Bool} {okR : Rx → Bool} {okS : Str → Bool} {P : Str → Prop} (hB : ∀ b x, okB b = true → Builtin b x → P (trim x))
    (hR : ∀ r v, okR r = true → r.Takes v → P v) (hS : ∀ v, okS v = true → P v) {t x : Str} (h : typeIs S S0 okB okR okS t = true) (hx : HasType (standard S0) S t x)
    (ht : strip x = x) : P x := by
  unfold typeIs at h
  split at h
  · rename_i l hl
    obtain ⟨a, ha, h1, h2⟩ := alts_of hx hl
    have := List.all_eq_true.1 h a ha
    simp only [Bool.or_eq_true, List.any_eq_true] at this
    rcases this with hb | ⟨s, hs, he⟩
    · rw [← trim_of_strip ht]; exact hB _ _ hb h1
    · have h3 := every_sound (P := P) hR hS he (h2 s hs)
      have h4 : normal s.1 x = x := by unfold normal; split <;> simp [trim_of_strip ht]
      rwa [h4] at h3
  · simp at h

def notString (b : Str) : Bool := b ≠ c! "xsd:string"

/-- no value is empty or has a bar -/
def cellType (S S0 : Schema) (t : Str) : Bool :=
  typeIs S S0 notString filled (fun v => !v.isEmpty) t && typeIs S S0 notString (avoids '|') (fun v => !v.contains '|') t

theorem notString_sound {b : Str} (h : notString b = true) : b ≠ c! "xsd:string" := by simpa [notString] using h

theorem cellType_sound {S S0 : Schema} {t x : Str} (h : cellType S S0 t = true) (hx : HasType (standard S0) S t x) (ht : strip x = x) : x ≠ [] ∧ '|' ∉ x := by
  simp only [cellType, Bool.and_eq_true] at h
  refine ⟨typeIs_sound (P := fun v => v ≠ []) (fun b x hb h => (builtin_text h (notString_sound hb)).1) (fun r v hr ht => filled_sound ht hr) (fun v hv => by simpa using hv) h.1 hx ht,
    typeIs_sound (P := fun v => '|' ∉ v) (fun b x hb h hc => absurd ((builtin_text h (notString_sound hb)).2.1 _ hc) (by decide)) (fun r v hr ht => avoids_sound ht hr)
      (fun v hv => by simpa using hv) h.2 hx ht⟩

/-- no value begins with a mark of a context line -/
def markless (S S0 : Schema) (t : Str) : Bool :=
  typeIs S S0 notString (fun r => notFirst '#' r && notFirst '!' r) (fun v => v.head? ≠ some '#' && v.head? ≠ some '!') t

theorem head_mem {v : Str} {c : Char} (h : v.head? = some c) : c ∈ v := by
  cases v with
  | nil => simp at h
  | cons a l => simp at h; subst h; simp

theorem markless_sound {S S0 : Schema} {t x : Str} (h : markless S S0 t = true) (hx : HasType (standard S0) S t x) (ht : strip x = x) : NoMark x := by
  refine typeIs_sound (P := NoMark) (fun b x hb h => ?_) (fun r v hr ht => ?_) (fun v hv => ?_) h hx ht
  · have := (builtin_text h (notString_sound hb)).2.1
    exact ⟨fun e => absurd (this _ (head_mem e)) (by decide), fun e => absurd (this _ (head_mem e)) (by decide)⟩
  · simp only [Bool.and_eq_true] at hr
    exact ⟨notFirst_sound ht hr.1, notFirst_sound ht hr.2⟩
  · simp only [Bool.and_eq_true, decide_eq_true_eq] at hv
    exact ⟨hv.1, hv.2⟩

/-- no value has two points -/
def oneDot (S S0 : Schema) (t : Str) : Bool :=
  typeIs S S0 notString (fun r => match atMost '.' r with | some k => decide (k ≤ 1) | none => false) (fun v => decide (v.count '.' ≤ 1)) t

theorem oneDot_sound {S S0 : Schema} {t x : Str} (h : oneDot S S0 t = true) (hx : HasType (standard S0) S t x) (ht : strip x = x) : x.count '.' ≤ 1 := by
  refine typeIs_sound (P := fun v => v.count '.' ≤ 1) (fun b x hb h => (builtin_text h (notString_sound hb)).2.2) (fun r v hr ht => ?_) (fun v hv => by simpa using hv) h hx ht
  split at hr
  · rename_i k e
    have := atMost_sound ht e
    simp only [decide_eq_true_eq] at hr
    omega
  · simp at hr

/-- the letters of which names are made -/
def nameLetters : Str := c! "ABCDEFGHIJKLMNOPQRSTUVWXYZabcdefghijklmnopqrstuvwxyz_"

theorem letter_mem {c : Char} (h : Letter c) : c ∈ nameLetters := by
  have : ∀ n, n < 128 → Letter (Char.ofNat n) → Char.ofNat n ∈ nameLetters := by unfold Letter; decide +kernel
  have hc : c.toNat < 128 := by
    rcases h with ⟨-, h⟩ | ⟨-, h⟩ | rfl
    · have : c.toNat ≤ 'Z'.toNat := h
      have e : 'Z'.toNat = 90 := rfl
      omega
    · have : c.toNat ≤ 'z'.toNat := h
      have e : 'z'.toNat = 122 := rfl
      omega
    · decide
  have := this c.toNat hc
  rw [Char.ofNat_toNat] at this
  exact this h

/-- no value is empty or begins with a letter -/
def timeType (S S0 : Schema) (t : Str) : Bool :=
  typeIs S S0 (fun b => b = c! "xsd:dateTime") (fun r => filled r && nameLetters.all fun c => notFirst c r) (fun _ => false) t

theorem timeType_sound {S S0 : Schema} {t x : Str} (h : timeType S S0 t = true) (hx : HasType (standard S0) S t x) (ht : strip x = x) : ∃ c, x.head? = some c ∧ ¬ Letter c := by
  refine typeIs_sound (P := fun v => ∃ c, v.head? = some c ∧ ¬ Letter c) (fun b x hb h => ?_) (fun r v hr ht => ?_) (fun v hv => by simp at hv) h hx ht
  · have hb : b = c! "xsd:dateTime" := by simpa using hb
    subst hb
    have hd : DateTime (trim x) := by
      rcases h with h | ⟨h, -⟩ | ⟨h, -⟩ | ⟨h, -⟩ | ⟨h, -⟩ | ⟨-, h⟩
      · exact absurd h (by decide)
      · exact absurd h (by decide)
      · exact absurd h (by decide)
      · exact absurd h (by decide)
      · exact absurd h (by decide)
      · exact h
    obtain ⟨-, -, c, hc, hl⟩ := dateTime_text hd
    refine ⟨c, hc, fun hL => ?_⟩
    have hm := letter_mem hL
    have : ∀ c ∈ nameLetters, ¬ (c = '-' ∨ c ∈ c! "0123456789") := by decide +kernel
    exact this c hm hl
  · simp only [Bool.and_eq_true, List.all_eq_true] at hr
    cases v with
    | nil => exact absurd rfl (filled_sound ht hr.1)
    | cons c v => exact ⟨c, rfl, fun hL => notFirst_sound ht (hr.2 c (letter_mem hL)) rfl⟩

end Verif.Xsd
