import Verif.Lemmas.SimpleTypes
import Verif.Lemmas.SchemaCheck
/-!
  A check that the kernel can run whether a text is of a simple type as XML Schema defines it, and whether a document is valid.
-/
namespace Verif.Xsd
open Verif Verif.Xml Verif.Spec Verif.Spec.Xsd

/-- what can be left of a text after a match -/
def rest : Nat → Rx → Str → List Str
  | 0, _, _ => []
  | _ + 1, .eps, s => [s]
  | _ + 1, .one _, [] => []
  | _ + 1, .one p, c :: s => if p c then [s] else []
  | f + 1, .seq a b, s => (rest f a s).flatMap (rest f b)
  | f + 1, .alt a b, s => rest f a s ++ rest f b s
  | f + 1, .rep lo hi r, s => (if lo = 0 then [s] else []) ++ if hi = some 0 then [] else (rest f r s).flatMap (rest f (.rep (lo - 1) (hi.map (· - 1)) r))

theorem rest_sound : ∀ {f : Nat} {r : Rx} {s t : Str}, t ∈ rest f r s → ∃ u, s = u ++ t ∧ r.Takes u
  | 0, _, _, _, h => by simp [rest] at h
  | _ + 1, .eps, s, t, h => by simp [rest] at h; subst h; exact ⟨[], rfl, .eps⟩
  | _ + 1, .one _, [], _, h => by simp [rest] at h
  | _ + 1, .one p, c :: s, t, h => by
    simp only [rest] at h
    split at h
    · rename_i hp; simp at h; subst h; exact ⟨[c], rfl, .one hp⟩
    · simp at h
  | f + 1, .seq a b, s, t, h => by
    simp only [rest, List.mem_flatMap] at h
    obtain ⟨m, h1, h2⟩ := h
    obtain ⟨u, e1, t1⟩ := rest_sound h1
    obtain ⟨v, e2, t2⟩ := rest_sound h2
    exact ⟨u ++ v, by rw [e1, e2]; simp, .seq t1 t2⟩
  | f + 1, .alt a b, s, t, h => by
    simp only [rest, List.mem_append] at h
    rcases h with h | h
    · obtain ⟨u, e, ht⟩ := rest_sound h; exact ⟨u, e, .left ht⟩
    · obtain ⟨u, e, ht⟩ := rest_sound h; exact ⟨u, e, .right ht⟩
  | f + 1, .rep lo hi r, s, t, h => by
    simp only [rest, List.mem_append] at h
    rcases h with h | h
    · split at h
      · rename_i hl; simp at h; subst h; subst hl; exact ⟨[], rfl, .done⟩
      · simp at h
    · split at h
      · simp at h
      · rename_i hh
        simp only [List.mem_flatMap] at h
        obtain ⟨m, h1, h2⟩ := h
        obtain ⟨u, e1, t1⟩ := rest_sound h1
        obtain ⟨v, e2, t2⟩ := rest_sound h2
        exact ⟨u ++ v, by rw [e1, e2]; simp, .more hh t1 t2⟩

/-- the text matches the pattern -/
def takesB (p x : Str) : Bool := (pattern p).any fun r => (rest (4 * p.length + 4 * x.length + 20) r x).any List.isEmpty

theorem takesB_sound {p x : Str} (h : takesB p x = true) : ∃ r, pattern p = some r ∧ r.Takes x := by
  simp only [takesB, Option.any_eq_true, List.any_eq_true, List.isEmpty_iff] at h
  obtain ⟨r, hr, t, ht, rfl⟩ := h
  obtain ⟨u, e, hu⟩ := rest_sound ht
  exact ⟨r, hr, by simp at e; subst e; exact hu⟩

/-! ### numbers and times -/

/-- a numeral, taken apart -/
def numeral (v : Str) : Numeral :=
  let s := match v with
    | '+' :: _ => some '+'
    | '-' :: _ => some '-'
    | _ => none
  let v' := if s.isSome then v.tail else v
  ⟨s, v'.takeWhile (· ≠ '.'), if v'.contains '.' then some ((v'.dropWhile (· ≠ '.')).tail) else none⟩

def numeralB (n : Numeral) : Bool :=
  (match n.sign with | some c => c = '+' || c = '-' | none => true) && n.whole.all (fun c => "0123456789".toList.contains c)
    && (n.frac.getD []).all (fun c => "0123456789".toList.contains c) && (!n.whole.isEmpty || !(n.frac.getD []).isEmpty)

theorem numeralB_sound {n : Numeral} (h : numeralB n = true) : n.Valid := by
  simp only [numeralB, Bool.and_eq_true, List.all_eq_true, Bool.or_eq_true, Bool.not_eq_true', List.isEmpty_eq_false_iff, List.contains_iff_mem] at h
  obtain ⟨⟨⟨h1, h2⟩, h3⟩, h4⟩ := h
  refine ⟨?_, h2, ?_, h4⟩
  · intro c hc
    simp only [Option.mem_def] at hc
    rw [hc] at h1
    simpa using h1
  · intro f hf c hc
    simp only [Option.mem_def] at hf
    rw [hf] at h3
    exact h3 c hc

/-- the value of a decimal number -/
def decimalOf (v : Str) : Option Rat := if (numeral v).text = v ∧ numeralB (numeral v) = true then some (numeral v).value else none

theorem decimalOf_sound {v : Str} {q : Rat} (h : decimalOf v = some q) : Decimal v q := by
  simp only [decimalOf] at h
  split at h
  · rename_i hc; cases h; exact ⟨_, numeralB_sound hc.2, hc.1.symm, rfl⟩
  · simp at h

def integerOf (v : Str) : Option Rat := if (numeral v).frac = none then decimalOf v else none

theorem integerOf_sound {v : Str} {q : Rat} (h : integerOf v = some q) : Integer v q := by
  simp only [integerOf] at h
  split at h
  · rename_i hf
    simp only [decimalOf] at h
    split at h
    · rename_i hc; cases h; exact ⟨_, numeralB_sound hc.2, hf, hc.1.symm, rfl⟩
    · simp at h
  · simp at h

/-- the time with these parts -/
def timeB (y mo d h mi s : Nat) (f v : Str) : Bool :=
  y ≠ 0 && decide (1 ≤ mo) && decide (mo ≤ 12) && decide (1 ≤ d) && decide (d ≤ monthDays y mo)
    && (f.isEmpty || !f.tail.isEmpty && f.tail.all (fun c => (c! "0123456789").contains c) && f = '.' :: f.tail)
    && (decide (h < 24) && decide (mi < 60) && decide (s < 60) || h = 24 && mi = 0 && s = 0 && f.all (fun c => c = '.' || c = '0'))
    && v = fixed 4 y ++ '-' :: fixed 2 mo ++ '-' :: fixed 2 d ++ 'T' :: fixed 2 h ++ ':' :: fixed 2 mi ++ ':' :: fixed 2 s ++ f ++ ['Z']

/-- a time as most observers write it, taken apart: year, month, day, hours, minutes, seconds in fixed columns, then digits, then Z -/
def dateTimeB (v : Str) : Bool :=
  let n (i j : Nat) : Nat := digitsNat ((v.drop i).take j)
  timeB (n 0 4) (n 5 2) (n 8 2) (n 11 2) (n 14 2) (n 17 2) (v.drop 19).dropLast v

theorem timeB_sound {y mo d h mi s : Nat} {f v : Str} (h : timeB y mo d h mi s f v = true) : DateTime v := by
  simp only [timeB, Bool.and_eq_true, Bool.or_eq_true, decide_eq_true_eq, List.isEmpty_iff, Bool.not_eq_true', List.isEmpty_eq_false_iff, List.all_eq_true, List.contains_iff_mem] at h
  obtain ⟨⟨⟨⟨⟨⟨⟨h1, h2⟩, h3⟩, h4⟩, h5⟩, h6⟩, h7⟩, h8⟩ := h
  refine ⟨false, _, _, _, _, _, _, f, ['Z'], h1, h2, h3, h4, h5, ?_, ?_, .inr (.inl rfl), by simpa using h8⟩
  · rcases h6 with h6 | ⟨⟨h6, h7⟩, h8⟩
    · exact .inl h6
    · exact .inr ⟨_, h6, h7, h8⟩
  · rcases h7 with ⟨⟨a, b⟩, c⟩ | ⟨⟨⟨a, b⟩, c⟩, d⟩
    · exact .inl ⟨a, b, c⟩
    · exact .inr ⟨a, b, c, by simpa using d⟩

theorem dateTimeB_sound {v : Str} (h : dateTimeB v = true) : DateTime v := timeB_sound h

/-! ### types -/

def builtinB (b x : Str) : Bool :=
  b = c! "xsd:string" || b = c! "xsd:decimal" && (decimalOf (trim x)).isSome || b = c! "xsd:integer" && (integerOf (trim x)).isSome
    || b = c! "xsd:positiveInteger" && (integerOf (trim x)).any (fun q => decide (0 < q)) || b = c! "xsd:double" && (decimalOf (trim x)).isSome
    || b = c! "xsd:dateTime" && dateTimeB (trim x)

theorem builtinB_sound {b x : Str} (h : builtinB b x = true) : Builtin b x := by
  simp only [builtinB, Bool.or_eq_true, Bool.and_eq_true, decide_eq_true_eq, Option.isSome_iff_exists, Option.any_eq_true] at h
  rcases h with ((((h | ⟨h, q, hq⟩) | ⟨h, q, hq⟩) | ⟨h, q, hq, h0⟩) | ⟨h, q, hq⟩) | ⟨h, hd⟩
  · exact .inl h
  · exact .inr (.inl ⟨h, q, decimalOf_sound hq⟩)
  · exact .inr (.inr (.inl ⟨h, q, integerOf_sound hq⟩))
  · exact .inr (.inr (.inr (.inl ⟨h, q, integerOf_sound hq, h0⟩)))
  · obtain ⟨n, h1, h2, -⟩ := decimalOf_sound hq
    exact .inr (.inr (.inr (.inr (.inl ⟨h, .inl ⟨n, h1, .inl h2⟩⟩))))
  · exact .inr (.inr (.inr (.inr (.inr ⟨h, dateTimeB_sound hd⟩))))

def sameB (b x y : Str) : Bool := if b = c! "xsd:string" then x = y else (decimalOf (trim x)).any fun q => decimalOf (trim y) = some q

theorem sameB_sound {b x y : Str} (h : sameB b x y = true) : Same b x y := by
  unfold sameB at h
  unfold Same
  split at h <;> rename_i hb
  · rw [if_pos hb]; simpa using h
  · rw [if_neg hb]
    simp only [Option.any_eq_true, decide_eq_true_eq] at h
    obtain ⟨q, h1, h2⟩ := h
    exact ⟨q, decimalOf_sound h1, decimalOf_sound h2⟩

def limitB (le : Rat → Rat → Bool) (v x : Str) : Bool := (decimalOf v).any fun p => (decimalOf x).any fun q => le p q

theorem limitB_sound {le : Rat → Rat → Bool} {v x : Str} (h : limitB le v x = true) : ∃ p q, Decimal v p ∧ Decimal x q ∧ le p q = true := by
  simp only [limitB, Option.any_eq_true] at h
  obtain ⟨p, hp, q, hq, h⟩ := h
  exact ⟨p, q, decimalOf_sound hp, decimalOf_sound hq, h⟩

def withinB (b : Str) (fs : List (Str × Str)) (x : Str) : Bool :=
  ((values fs (c! "xsd:pattern")).isEmpty || (values fs (c! "xsd:pattern")).any fun p => takesB p (normal b x))
    && ((values fs (c! "xsd:enumeration")).isEmpty || (values fs (c! "xsd:enumeration")).any fun v => sameB b x v)
    && ((values fs (c! "xsd:minInclusive")).all fun v => limitB (fun p q => decide (p ≤ q)) v (normal b x))
    && ((values fs (c! "xsd:minExclusive")).all fun v => limitB (fun p q => decide (p < q)) v (normal b x))
    && ((values fs (c! "xsd:maxInclusive")).all fun v => limitB (fun p q => decide (q ≤ p)) v (normal b x))
    && ((values fs (c! "xsd:maxExclusive")).all fun v => limitB (fun p q => decide (q < p)) v (normal b x))
    && ((values fs (c! "xsd:minLength")).all fun v => decide (digitsNat v ≤ (normal b x).length))
    && ((values fs (c! "xsd:maxLength")).all fun v => decide ((normal b x).length ≤ digitsNat v))
    && (fs.all fun f => [c! "xsd:pattern", c! "xsd:enumeration", c! "xsd:minInclusive", c! "xsd:minExclusive", c! "xsd:maxInclusive", c! "xsd:maxExclusive",
      c! "xsd:minLength", c! "xsd:maxLength"].contains f.1)

theorem withinB_sound {b : Str} {fs : List (Str × Str)} {x : Str} (h : withinB b fs x = true) : Within b fs x := by
  simp only [withinB, Bool.and_eq_true] at h
  obtain ⟨⟨⟨⟨⟨⟨⟨⟨h1, h2⟩, h3⟩, h4⟩, h5⟩, h6⟩, h7⟩, h8⟩, h9⟩ := h
  refine ⟨?_, ?_, ?_, ?_, ?_, ?_, ?_, ?_, ?_⟩
  · simp only [Bool.or_eq_true, List.isEmpty_iff, List.any_eq_true] at h1
    exact h1.imp id fun ⟨p, hp, ht⟩ => ⟨p, hp, takesB_sound ht⟩
  · simp only [Bool.or_eq_true, List.isEmpty_iff, List.any_eq_true] at h2
    exact h2.imp id fun ⟨p, hp, ht⟩ => ⟨p, hp, sameB_sound ht⟩
  · intro v hv; obtain ⟨p, q, a, b, c⟩ := limitB_sound (List.all_eq_true.1 h3 v hv); exact ⟨p, q, a, b, by simpa using c⟩
  · intro v hv; obtain ⟨p, q, a, b, c⟩ := limitB_sound (List.all_eq_true.1 h4 v hv); exact ⟨p, q, a, b, by simpa using c⟩
  · intro v hv; obtain ⟨p, q, a, b, c⟩ := limitB_sound (List.all_eq_true.1 h5 v hv); exact ⟨p, q, a, b, by simpa using c⟩
  · intro v hv; obtain ⟨p, q, a, b, c⟩ := limitB_sound (List.all_eq_true.1 h6 v hv); exact ⟨p, q, a, b, by simpa using c⟩
  · intro v hv; simpa using List.all_eq_true.1 h7 v hv
  · intro v hv; simpa using List.all_eq_true.1 h8 v hv
  · intro f hf; simpa only [List.contains_iff_mem] using List.all_eq_true.1 h9 f hf

/-- the text is of the type -/
def isType (S S0 : Schema) (f : Nat) (t x : Str) : Bool := (alts S S0 f t).any fun l => l.any fun a => builtinB a.1 x && a.2.all fun s => withinB s.1 s.2 x

theorem isType_sound {S S0 : Schema} {f : Nat} {t x : Str} (h : isType S S0 f t x = true) : HasType (standard S0) S t x := by
  simp only [isType, Option.any_eq_true, List.any_eq_true, Bool.and_eq_true, List.all_eq_true] at h
  obtain ⟨l, hl, a, ha, h1, h2⟩ := h
  exact of_alts hl a ha ⟨builtinB_sound h1, fun s hs => withinB_sound (h2 s hs)⟩

/-- the element is valid for the type -/
def isValid (S S0 : Schema) : Nat → Str → Elem → Bool
  | 0, _, _ => false
  | f + 1, t, .mk _ text attrib kids =>
    match lookup S.complex t with
    | none => attrib.isEmpty && kids.isEmpty && isType S S0 f t (text.getD [])
    | some c => (strip (text.getD [])).isEmpty && attrib.all (fun a => c.attributes.any fun d => d.name = a.1 && isType S S0 f d.type a.2) &&
        c.attributes.all (fun d => !d.required || attrib.any fun a => a.1 = d.name) &&
        (Check.parse S f (.seq c.content) (kids.map fun k => some (k.tag, Check.kidType S c k.tag))).any List.isEmpty &&
        kids.all fun k => isValid S S0 f (Check.kidType S c k.tag) k

theorem isValid_sound {S S0 : Schema} : ∀ {f : Nat} {t : Str} {e : Elem}, isValid S S0 f t e = true → Valid (standard S0) S (.typed t e) := by
  intro f
  induction f with
  | zero => intro t e h; simp [isValid] at h
  | succ f ih =>
    intro t e h
    obtain ⟨tag, text, attrib, kids⟩ := e
    simp only [isValid] at h
    split at h
    · rename_i hl
      simp only [Bool.and_eq_true, List.isEmpty_iff] at h
      obtain ⟨⟨rfl, rfl⟩, h⟩ := h
      exact .simple hl (isType_sound h)
    · rename_i c hl
      simp only [Bool.and_eq_true, List.isEmpty_iff, List.all_eq_true, List.any_eq_true, decide_eq_true_eq, Bool.or_eq_true, Bool.not_eq_true'] at h
      obtain ⟨⟨⟨⟨h1, h2⟩, h3⟩, ⟨r, h4, h5⟩⟩, h6⟩ := h
      subst h5
      obtain ⟨u, e1, m⟩ := Check.parse_sound S _ _ _ _ h4
      rw [List.append_nil] at e1
      refine .complex hl h1 ⟨fun a ha => ?_, fun d hd hr => ?_⟩ m (e1 ▸ Check.validKids (fun k => Check.kidType S c k.tag) kids fun k hk => ih (h6 k hk))
      · obtain ⟨d, hd, e, ht⟩ := h2 a ha
        exact ⟨d, hd, e, isType_sound ht⟩
      · rcases h3 d hd with h | h
        · rw [hr] at h; simp at h
        · exact h

end Verif.Xsd
