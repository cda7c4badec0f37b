import Verif.Spec.SimpleTypes
/-!
  Lemmas about simple types: which texts they admit, by computation on the schema.
-/
namespace Verif.Xsd
open Verif Verif.Xml Verif.Spec Verif.Spec.Xsd

/-! ### what a simple type is made of -/

/-- the built-in type on which a type is based -/
def prim (S : Schema) : Nat → Str → Option Str
  | 0, _ => none
  | f + 1, t =>
    match lookup S.simple t with
    | none => some t
    | some s =>
      match s.restriction with
      | some r => prim S f r.1
      | none => none

theorem prim_sound {S : Schema} : ∀ {f : Nat} {t b : Str}, prim S f t = some b → BasedOn S t b
  | 0, _, _, h => by simp [prim] at h
  | f + 1, t, b, h => by
    unfold prim at h
    split at h
    · rename_i e; cases h; exact .builtin e
    · rename_i s e
      split at h
      · rename_i r er; exact .restriction e er (prim_sound h)
      · simp at h

theorem prim_unique {S : Schema} {t b : Str} (h : BasedOn S t b) : ∀ {f : Nat} {b' : Str}, prim S f t = some b' → b = b' := by
  induction h with
  | builtin e =>
    intro f b' h
    cases f with
    | zero => simp [prim] at h
    | succ f => simp [prim, e] at h; exact h
  | restriction e er _ ih =>
    intro f b' h
    cases f with
    | zero => simp [prim] at h
    | succ f => simp only [prim, e, er] at h; exact ih h

/-- an alternative: a built-in type, and restrictions of built-in types -/
abbrev Alt := Str × List (Str × List (Str × Str))

/-- the alternatives of which a type consists.  `S0` says on what types are based. -/
def alts (S S0 : Schema) : Nat → Str → Option (List Alt)
  | 0, _ => none
  | f + 1, t =>
    match lookup S.simple t with
    | none => some [(t, [])]
    | some s =>
      match s.union, s.restriction with
      | some ms, none => (ms.mapM (alts S S0 f)).map List.flatten
      | none, some r =>
        match prim S0 f r.1, alts S S0 f r.1 with
        | some p, some l => some (l.map fun a => (a.1, (p, r.2) :: a.2))
        | _, _ => none
      | _, _ => none

/-- `x` is admitted by an alternative -/
def Alt.Has (a : Alt) (x : Str) : Prop := Builtin a.1 x ∧ ∀ s ∈ a.2, Within s.1 s.2 x

theorem mapM_some {α β : Type} {g : α → Option β} : ∀ {l : List α} {r : List β}, l.mapM g = some r → (∀ a ∈ l, ∃ b ∈ r, g a = some b) ∧ ∀ b ∈ r, ∃ a ∈ l, g a = some b
  | [], r, h => by simp at h; subst h; simp
  | a :: l, r, h => by
    simp only [List.mapM_cons, Option.pure_def, Option.bind_eq_bind, Option.bind_eq_some_iff, Option.some.injEq] at h
    obtain ⟨b, hb, r', hr, rfl⟩ := h
    obtain ⟨h1, h2⟩ := mapM_some hr
    constructor
    · intro x hx
      rcases List.mem_cons.1 hx with rfl | hx
      · exact ⟨b, by simp, hb⟩
      · obtain ⟨y, hy, e⟩ := h1 x hx; exact ⟨y, by simp [hy], e⟩
    · intro y hy
      rcases List.mem_cons.1 hy with rfl | hy
      · exact ⟨a, by simp, hb⟩
      · obtain ⟨x, hx, e⟩ := h2 y hy; exact ⟨x, by simp [hx], e⟩

theorem alts_of {S S0 : Schema} {t x : Str} (h : HasType (standard S0) S t x) : ∀ {f : Nat} {l : List Alt}, alts S S0 f t = some l → ∃ a ∈ l, a.Has x := by
  induction h with
  | builtin e hb =>
    intro f l h
    cases f with
    | zero => simp [alts] at h
    | succ f =>
      simp only [alts, e, Option.some.injEq] at h
      subst h
      exact ⟨(_, []), by simp, hb, by simp⟩
  | union e eu hm _ ih =>
    intro f l h
    cases f with
    | zero => simp [alts] at h
    | succ f =>
      simp only [alts, e, eu] at h
      split at h
      · rename_i ms e1 e2
        cases e1
        simp only [Option.map_eq_some_iff] at h
        obtain ⟨ls, hl, rfl⟩ := h
        obtain ⟨l', hl', e'⟩ := (mapM_some hl).1 _ hm
        obtain ⟨a, ha, hx⟩ := ih e'
        exact ⟨a, List.mem_flatten.2 ⟨l', hl', ha⟩, hx⟩
      · rename_i r e1 e2; cases e1
      · simp at h
  | restriction e er _ hf ih =>
    intro f l h
    cases f with
    | zero => simp [alts] at h
    | succ f =>
      simp only [alts, e, er] at h
      split at h
      · rename_i e2; simp at e2
      · rename_i r e1 e2
        cases e2
        split at h
        · rename_i p l' hp hl
          cases h
          obtain ⟨a, ha, h1, h2⟩ := ih hl
          obtain ⟨b, hb, hw⟩ := hf
          have := prim_unique hb hp
          subst this
          refine ⟨_, List.mem_map.2 ⟨a, ha, rfl⟩, h1, ?_⟩
          intro s hs
          rcases List.mem_cons.1 hs with rfl | hs
          · exact hw
          · exact h2 s hs
        · simp at h
      · simp at h

theorem of_alts {S S0 : Schema} {x : Str} : ∀ {f : Nat} {t : Str} {l : List Alt}, alts S S0 f t = some l → ∀ a ∈ l, a.Has x → HasType (standard S0) S t x
  | 0, _, _, h, _, _, _ => by simp [alts] at h
  | f + 1, t, l, h, a, ha, hx => by
    unfold alts at h
    split at h
    · rename_i e
      cases h
      simp at ha; subst ha
      exact .builtin e hx.1
    · rename_i s e
      split at h
      · rename_i ms e1 e2
        simp only [Option.map_eq_some_iff] at h
        obtain ⟨ls, hl, rfl⟩ := h
        obtain ⟨l', hl', ha'⟩ := List.mem_flatten.1 ha
        obtain ⟨m, hm, em⟩ := (mapM_some hl).2 _ hl'
        exact .union e e1 hm (of_alts em a ha' hx)
      · rename_i r e1 e2
        split at h
        · rename_i p l' hp hl
          cases h
          obtain ⟨a', ha', rfl⟩ := List.mem_map.1 ha
          exact .restriction e (show s.restriction = some (r.1, r.2) from e2) (of_alts hl a' ha' ⟨hx.1, fun s hs => hx.2 s (List.mem_cons_of_mem _ hs)⟩)
            ⟨p, prim_sound hp, hx.2 (p, r.2) (by simp)⟩
        · simp at h
      · simp at h

/-- a text is of a type if it is admitted by one of the alternatives -/
theorem hasType_iff {S S0 : Schema} {f : Nat} {t x : Str} {l : List Alt} (h : alts S S0 f t = some l) : HasType (standard S0) S t x ↔ ∃ a ∈ l, a.Has x :=
  ⟨fun hx => alts_of hx h, fun ⟨a, ha, hx⟩ => of_alts h a ha hx⟩

/-! ### what regular expressions do not match -/

/-- no match contains `c` -/
def avoids (c : Char) : Rx → Bool
  | .eps => true
  | .one p => !p c
  | .seq a b => avoids c a && avoids c b
  | .alt a b => avoids c a && avoids c b
  | .rep _ _ r => avoids c r

theorem avoids_sound {c : Char} {r : Rx} {v : Str} (h : r.Takes v) : avoids c r = true → c ∉ v := by
  induction h with
  | eps => simp
  | one hp => intro ha hc; simp only [List.mem_singleton] at hc; subst hc; simp [avoids, hp] at ha
  | seq _ _ ih1 ih2 => intro ha; simp only [avoids, Bool.and_eq_true] at ha; simp [ih1 ha.1, ih2 ha.2]
  | left _ ih => intro ha; simp only [avoids, Bool.and_eq_true] at ha; exact ih ha.1
  | right _ ih => intro ha; simp only [avoids, Bool.and_eq_true] at ha; exact ih ha.2
  | done => simp
  | more _ _ _ ih1 ih2 => intro ha; simp only [avoids] at ha ih2; simp [ih1 ha, ih2 ha]

/-- no match is empty -/
def filled : Rx → Bool
  | .eps => false
  | .one _ => true
  | .seq a b => filled a || filled b
  | .alt a b => filled a && filled b
  | .rep lo _ r => decide (0 < lo) && filled r

theorem filled_sound {r : Rx} {v : Str} (h : r.Takes v) : filled r = true → v ≠ [] := by
  induction h with
  | eps => simp [filled]
  | one hp => simp
  | seq _ _ ih1 ih2 =>
    intro ha
    simp only [filled, Bool.or_eq_true] at ha
    rcases ha with ha | ha
    · simp [ih1 ha]
    · simp [ih2 ha]
  | left _ ih => intro ha; simp only [filled, Bool.and_eq_true] at ha; exact ih ha.1
  | right _ ih => intro ha; simp only [filled, Bool.and_eq_true] at ha; exact ih ha.2
  | done => simp [filled]
  | more _ _ _ ih1 _ => intro ha; simp only [filled, Bool.and_eq_true] at ha; simp [ih1 ha.2]

/-- no match begins with `c` -/
def notFirst (c : Char) : Rx → Bool
  | .eps => true
  | .one p => !p c
  | .seq a b => notFirst c a && (filled a || notFirst c b)
  | .alt a b => notFirst c a && notFirst c b
  | .rep _ _ r => notFirst c r

theorem notFirst_sound {c : Char} {r : Rx} {v : Str} (h : r.Takes v) : notFirst c r = true → v.head? ≠ some c := by
  induction h with
  | eps => simp
  | one hp => intro ha hc; simp only [List.head?_cons, Option.some.injEq] at hc; subst hc; simp [notFirst, hp] at ha
  | @seq a b s t h1 _ ih1 ih2 =>
    intro ha
    simp only [notFirst, Bool.and_eq_true, Bool.or_eq_true] at ha
    cases s with
    | nil =>
      rcases ha.2 with hf | hf
      · exact absurd rfl (filled_sound h1 hf)
      · exact ih2 hf
    | cons d s => simpa using ih1 ha.1
  | left _ ih => intro ha; simp only [notFirst, Bool.and_eq_true] at ha; exact ih ha.1
  | right _ ih => intro ha; simp only [notFirst, Bool.and_eq_true] at ha; exact ih ha.2
  | done => simp
  | @more lo hi r s t _ _ _ ih1 ih2 =>
    intro ha
    simp only [notFirst] at ha ih2
    cases s with
    | nil => exact ih2 ha
    | cons d s => simpa using ih1 ha

/-- no match contains `c` more often -/
def atMost (c : Char) : Rx → Option Nat
  | .eps => some 0
  | .one p => some (if p c then 1 else 0)
  | .seq a b => do return (← atMost c a) + (← atMost c b)
  | .alt a b => do return max (← atMost c a) (← atMost c b)
  | .rep _ hi r =>
    match atMost c r, hi with
    | some 0, _ => some 0
    | some k, some n => some (n * k)
    | _, _ => none

theorem atMost_sound {c : Char} {r : Rx} {v : Str} (h : r.Takes v) : ∀ {k : Nat}, atMost c r = some k → v.count c ≤ k := by
  induction h with
  | eps => simp
  | @one p d hp =>
    intro k hk
    simp only [atMost, Option.some.injEq] at hk
    by_cases e : d = c
    · subst e; simp [hp] at hk; subst hk; simp
    · simp [e]
  | seq _ _ ih1 ih2 =>
    intro k hk
    simp only [atMost, Option.pure_def, Option.bind_eq_bind, Option.bind_eq_some_iff, Option.some.injEq] at hk
    obtain ⟨i, hi, j, hj, rfl⟩ := hk
    have := ih1 hi; have := ih2 hj
    rw [List.count_append]; omega
  | left _ ih =>
    intro k hk
    simp only [atMost, Option.pure_def, Option.bind_eq_bind, Option.bind_eq_some_iff, Option.some.injEq] at hk
    obtain ⟨i, hi, j, hj, rfl⟩ := hk
    have := ih hi; omega
  | right _ ih =>
    intro k hk
    simp only [atMost, Option.pure_def, Option.bind_eq_bind, Option.bind_eq_some_iff, Option.some.injEq] at hk
    obtain ⟨i, hi, j, hj, rfl⟩ := hk
    have := ih hj; omega
  | done => simp
  | @more lo hi r s t hne _ _ ih1 ih2 =>
    intro k hk
    cases e : atMost c r with
    | none => simp [atMost, e] at hk
    | some k' =>
      have h1 := ih1 e
      rw [List.count_append]
      cases k' with
      | zero =>
        simp only [atMost, e, Option.some.injEq] at hk
        have h2 : t.count c ≤ 0 := ih2 (by simp [atMost, e])
        omega
      | succ k' =>
        cases hi with
        | none => simp [atMost, e] at hk
        | some n =>
          simp only [atMost, e, Option.some.injEq] at hk
          have hn : n ≠ 0 := fun c => hne (by rw [c])
          have h2 : t.count c ≤ (n - 1) * (k' + 1) := ih2 (by simp only [atMost, e, Option.map_some])
          obtain ⟨m, rfl⟩ := Nat.exists_eq_succ_of_ne_zero hn
          simp only [Nat.succ_eq_add_one, Nat.add_sub_cancel] at h2 hk
          rw [Nat.add_mul] at hk; omega

/-! ### facts about types by computation -/

/-- the texts that begin and end without white space -/
theorem dropWhile_self {p : Char → Bool} : ∀ {l : Str}, (∀ c, l.head? = some c → p c = false) → l.dropWhile p = l
  | [], _ => rfl
  | c :: l, h => by simp [h c rfl]

/-- a property of texts that follows from what patterns and enumerated values have in common -/
def everyB (okR : Rx → Bool) (okS : Str → Bool) (s : Str × List (Str × Str)) : Bool :=
  let ps := values s.2 (c! "xsd:pattern")
  let es := values s.2 (c! "xsd:enumeration")
  (!ps.isEmpty && ps.all fun p => (pattern p).any okR) || (s.1 = c! "xsd:string" && !es.isEmpty && es.all okS)

theorem every_sound {P : Str → Prop} {okR : Rx → Bool} {okS : Str → Bool} (hR : ∀ r v, okR r = true → r.Takes v → P v) (hS : ∀ v, okS v = true → P v)
    {s : Str × List (Str × Str)} {x : Str} (h : everyB okR okS s = true) (hw : Within s.1 s.2 x) : P (normal s.1 x) := by
  simp only [everyB, Bool.or_eq_true, Bool.and_eq_true, Bool.not_eq_true', List.isEmpty_eq_false_iff, List.all_eq_true] at h
  rcases h with ⟨h1, h2⟩ | ⟨⟨h0, h1⟩, h2⟩
  · rcases hw.pattern with c | ⟨p, hp, r, hr, ht⟩
    · exact absurd c h1
    · have := h2 p hp
      rw [hr] at this
      exact hR r _ this ht
  · have h0 : s.1 = c! "xsd:string" := by simpa using h0
    rcases hw.enumeration with c | ⟨v, hv, hs⟩
    · exact absurd c h1
    · simp only [Same, h0, if_true] at hs
      simp only [normal, h0, if_true]
      subst hs
      exact hS _ (h2 _ hv)

end Verif.Xsd
