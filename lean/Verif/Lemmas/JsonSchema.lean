import Verif.Lemmas.Json
import Verif.Lemmas.SchemaCheck
import Verif.MasterData
/-
  Lemmas for C46: a content model all of whose words have equal names together.
-/
namespace Verif.Json
open Verif Verif.Xml Verif.Spec

/-- the names in the words of `x` that have no name in `xs`; `none` if a type outside `P` or any element is possible or (unless `z`) equal names
    may stand apart -/
def kinds (S : Schema) (P : Str → Bool) (xs : List Str) (z : Bool) : Nat → What → Option (List Str)
  | 0, _ => none
  | f + 1, .one p =>
    match p with
    | .elemRef r _ _ =>
      if r ∈ xs then some []
      else match lookup S.elements r with
        | none => some []
        | some t => if P t then some [r] else none
    | .elemDecl r t _ _ => if r ∈ xs then some [] else if P t then some [r] else none
    | .groupRef r _ _ =>
      match lookup S.groups r with
      | none => some []
      | some ps => kinds S P xs z f (.seq ps)
    | .seq _ ps => kinds S P xs z f (.seq ps)
    | .choice _ ps => (ps.mapM fun p => kinds S P xs z f (.part p)).map List.flatten
    | .all _ ps => kinds S P xs z f (.all ps)
    | .any => none
  | f + 1, .part p => (kinds S P xs z f (.one p)).bind fun k => if z = true ∨ p.many = false ∨ k.all (fun n => k.head? = some n) then some k else none
  | _ + 1, .seq [] => some []
  | f + 1, .seq (p :: ps) => (kinds S P xs z f (.part p)).bind fun a => (kinds S P xs z f (.seq ps)).bind fun b => if z = true ∨ a.all (fun n => n ∉ b) then some (a ++ b) else none
  | f + 1, .all ps => (ps.mapM fun p => kinds S P xs z f (.part p)).bind fun ks => if z = true ∨ ks.Pairwise (fun a b => ∀ n ∈ a, n ∉ b) then some ks.flatten else none

/-- the word consists of named elements, with names in `k` and types in `P`, equal names together unless `z` -/
def Grouped (P : Str → Bool) (z : Bool) (k : List Str) (w : List Letter') : Prop :=
  ∃ l : List (Str × Str), w = l.map some ∧ (∀ p ∈ l, p.1 ∈ k ∧ P p.2 = true) ∧ (z = false → Together (l.map Prod.fst))

/-- no element of the word has a name in `xs` -/
def Avoids (xs : List Str) (w : List Letter') : Prop := ∀ n t, some (n, t) ∈ w → n ∉ xs

theorem Avoids.left {xs : List Str} {u w : List Letter'} (h : Avoids xs (u ++ w)) : Avoids xs u := fun n t hm => h n t (by simp [hm])
theorem Avoids.right {xs : List Str} {u w : List Letter'} (h : Avoids xs (u ++ w)) : Avoids xs w := fun n t hm => h n t (by simp [hm])

theorem grouped_nil (P : Str → Bool) (z : Bool) (k : List Str) : Grouped P z k [] := ⟨[], rfl, by simp, fun _ => by simpa using together_nil⟩

theorem Grouped.mono {P : Str → Bool} {z : Bool} {k k' : List Str} {w : List Letter'} (h : Grouped P z k w) (hk : ∀ n ∈ k, n ∈ k') : Grouped P z k' w := by
  obtain ⟨l, e, h1, h2⟩ := h
  exact ⟨l, e, fun p hp => ⟨hk _ (h1 p hp).1, (h1 p hp).2⟩, h2⟩

theorem grouped_append {P : Str → Bool} {z : Bool} {a b : List Str} {w w' : List Letter'} (h : Grouped P z a w) (h' : Grouped P z b w') (hd : z = true ∨ ∀ n ∈ a, n ∉ b) :
    Grouped P z (a ++ b) (w ++ w') := by
  obtain ⟨l, e, h1, h2⟩ := h
  obtain ⟨l', e', h1', h2'⟩ := h'
  refine ⟨l ++ l', by rw [e, e', List.map_append], ?_, ?_⟩
  · intro p hp
    rcases List.mem_append.mp hp with hp | hp
    · exact ⟨by simp [(h1 p hp).1], (h1 p hp).2⟩
    · exact ⟨by simp [(h1' p hp).1], (h1' p hp).2⟩
  · intro hz
    rw [List.map_append]
    refine together_append (h2 hz) (h2' hz) fun n hn hn' => ?_
    obtain ⟨p, hp, rfl⟩ := List.mem_map.mp hn
    obtain ⟨q, hq, e⟩ := List.mem_map.mp hn'
    rcases hd with hd | hd
    · rw [hz] at hd; cases hd
    · exact hd p.1 (h1 p hp).1 (e ▸ (h1' q hq).1)

theorem grouped_one {P : Str → Bool} {z : Bool} {n t : Str} (h : P t = true) : Grouped P z [n] [some (n, t)] :=
  ⟨[(n, t)], rfl, by simp [h], fun _ => together_same (t := n) (by simp)⟩

/-- all names the same -/
theorem grouped_same {P : Str → Bool} {z : Bool} {k : List Str} (hk : z = true ∨ ∀ n ∈ k, k.head? = some n) {w w' : List Letter'} (h : Grouped P z k w) (h' : Grouped P z k w') :
    Grouped P z k (w ++ w') := by
  obtain ⟨l, e, h1, _⟩ := h
  obtain ⟨l', e', h1', _⟩ := h'
  have hp : ∀ p ∈ l ++ l', p.1 ∈ k ∧ P p.2 = true := by
    intro p hp
    rcases List.mem_append.mp hp with hp | hp
    · exact h1 p hp
    · exact h1' p hp
  refine ⟨l ++ l', by rw [e, e', List.map_append], hp, fun hz => together_same (t := k.head?.getD []) fun n hn => ?_⟩
  obtain ⟨p, hm, rfl⟩ := List.mem_map.mp hn
  rcases hk with hk | hk
  · rw [hz] at hk; cases hk
  rw [hk _ (hp p hm).1]
  rfl

theorem part_grouped {S : Schema} {P : Str → Bool} {xs : List Str} {z : Bool} {p : Particle} {k : List Str} (hk : z = true ∨ p.many = false ∨ ∀ n ∈ k, k.head? = some n)
    (h1 : ∀ w, Matches S (.one p) w → Avoids xs w → Grouped P z k w) {x : What} {w : List Letter'} (h : Matches S x w) : x = .part p → Avoids xs w → Grouped P z k w := by
  induction h with
  | skip _ => intro _ _; exact grouped_nil P z k
  | once h => intro e; cases e; exact h1 _ h
  | more hm h _ _ ih =>
    intro e ha
    cases e
    rcases hk with hk | hk | hk
    · exact grouped_same (.inl hk) (h1 _ h ha.left) (ih rfl ha.right)
    · rw [hk] at hm; cases hm
    · exact grouped_same (.inr hk) (h1 _ h ha.left) (ih rfl ha.right)
  | _ => intro e; cases e

theorem mapM_split {α β : Type} {g : α → Option β} : ∀ {a b : List α} {p : α} {ks : List β}, (a ++ p :: b).mapM g = some ks →
    ∃ ka k kb, ks = ka ++ k :: kb ∧ g p = some k ∧ (a ++ b).mapM g = some (ka ++ kb)
  | [], b, p, ks, h => by
    simp only [List.nil_append, List.mapM_cons, Option.bind_eq_bind, Option.bind_eq_some_iff, Option.pure_def, Option.some.injEq] at h
    obtain ⟨k, hk, kb, hb, rfl⟩ := h
    exact ⟨[], k, kb, rfl, hk, by simpa using hb⟩
  | x :: a, b, p, ks, h => by
    simp only [List.cons_append, List.mapM_cons, Option.bind_eq_bind, Option.bind_eq_some_iff, Option.pure_def, Option.some.injEq] at h
    obtain ⟨y, hy, r, hr, rfl⟩ := h
    obtain ⟨ka, k, kb, rfl, h1, h2⟩ := mapM_split hr
    exact ⟨y :: ka, k, kb, rfl, h1, by simp [hy, h2]⟩

theorem all_grouped {S : Schema} {P : Str → Bool} {xs : List Str} {z : Bool} {g : Particle → Option (List Str)}
    (hg : ∀ p k, g p = some k → ∀ w, Matches S (.part p) w → Avoids xs w → Grouped P z k w) {x : What} {w : List Letter'} (h : Matches S x w) :
    ∀ ps ks, x = .all ps → ps.mapM g = some ks → (z = true ∨ ks.Pairwise (fun a b => ∀ n ∈ a, n ∉ b)) → Avoids xs w → Grouped P z ks.flatten w := by
  induction h with
  | none => intro ps ks _ _ _ _; exact grouped_nil P z _
  | @pick a b p u v h1 h2 _ ih =>
    intro ps ks e hk hd ha
    cases e
    obtain ⟨ka, k, kb, rfl, e1, e2⟩ := mapM_split hk
    have hsym : z = true ∨ (k :: (ka ++ kb)).Pairwise (fun a b => ∀ n ∈ a, n ∉ b) :=
      hd.imp_right (List.Perm.pairwise_iff (l₁ := ka ++ k :: kb) (fun {a b} h n hn hn' => h n hn' hn) (List.perm_middle)).mp
    have h3 := hg p k e1 _ h1 ha.left
    have h4 := ih _ _ rfl e2 (hsym.imp_right fun h => (List.pairwise_cons.mp h).2) ha.right
    refine (grouped_append h3 h4 (hsym.imp_right fun h => ?_)).mono ?_
    · intro n hn hn'
      obtain ⟨l, hl, hn'⟩ := List.mem_flatten.mp hn'
      exact (List.pairwise_cons.mp h).1 l hl n hn hn'
    · intro n hn
      simp only [List.mem_append, List.flatten_append, List.flatten_cons] at hn ⊢
      rcases hn with h | h | h <;> simp [h]
  | _ => intro ps ks e; cases e

theorem kinds_sound (S : Schema) (P : Str → Bool) (xs : List Str) (z : Bool) : ∀ (f : Nat) (x : What) (k : List Str), kinds S P xs z f x = some k →
    ∀ w, Matches S x w → Avoids xs w → Grouped P z k w := by
  intro f
  induction f with
  | zero => intro x k h; simp [kinds] at h
  | succ f ih =>
    intro x k h w hw ha
    rcases x with p | p | ps | ps
    · rcases p with ⟨n, o, m⟩ | ⟨n, t, o, m⟩ | ⟨n, o, m⟩ | ⟨m, ps⟩ | ⟨m, ps⟩ | ⟨m, ps⟩ | _ <;> simp only [kinds] at h
      · cases hw with
        | @ref _ _ _ t hl =>
          have hx : n ∉ xs := ha n t (by simp)
          rw [if_neg hx, hl] at h
          simp only at h
          split at h
          · next ht => simp at h; subst h; exact grouped_one ht
          · simp at h
      · cases hw
        have hx : n ∉ xs := ha n t (by simp)
        rw [if_neg hx] at h
        split at h
        · next ht => simp at h; subst h; exact grouped_one ht
        · simp at h
      · cases hw with
        | group hl hm =>
          rw [hl] at h
          exact ih _ _ h _ hm ha
      · cases hw with
        | sequence hm => exact ih _ _ h _ hm ha
      · simp only [Option.map_eq_some_iff] at h
        obtain ⟨ks, h1, rfl⟩ := h
        cases hw with
        | choice hp hm =>
          obtain ⟨b, hb, e⟩ := (Check.mapM_mem h1).1 _ hp
          exact (ih _ _ e _ hm ha).mono fun n hn => List.mem_flatten.mpr ⟨b, hb, hn⟩
      · cases hw with
        | unordered hm => exact ih _ _ h _ hm ha
      · simp at h
    · simp only [kinds, Option.bind_eq_some_iff] at h
      obtain ⟨k', h1, h2⟩ := h
      split at h2
      · next hc =>
        simp at h2; subst h2
        refine part_grouped (p := p) ?_ (fun w hw ha => ih _ _ h1 w hw ha) hw rfl ha
        exact hc.imp_right fun hc => hc.imp_right fun hc n hn => by simpa using (List.all_eq_true.mp hc n hn)
      · simp at h2
    · cases ps with
      | nil => cases hw; exact grouped_nil P z k
      | cons p ps =>
        simp only [kinds, Option.bind_eq_some_iff] at h
        obtain ⟨a, h1, b, h2, h3⟩ := h
        split at h3
        · next hd =>
          simp at h3; subst h3
          cases hw with
          | cons u v =>
            refine grouped_append (ih _ _ h1 _ u ha.left) (ih _ _ h2 _ v ha.right) (hd.imp_right fun hd n hn => ?_)
            simpa using List.all_eq_true.mp hd n hn
        · simp at h3
    · simp only [kinds, Option.bind_eq_some_iff] at h
      obtain ⟨ks, h1, h2⟩ := h
      split at h2
      · next hd =>
        simp at h2; subst h2
        exact all_grouped (fun p k e w hw ha => ih _ _ e w hw ha) hw ps ks rfl h1 hd ha
      · simp at h2

/-- every complex type in `P` keeps equal names together and its sub-elements have types in `P` -/
def closedB (S : Schema) (P : Str → Bool) (xs : List Str) (f : Nat) : Bool :=
  S.complex.all fun c => !P c.1 || (kinds S P xs false f (.seq c.2.content)).isSome

def Low (xs : List Str) (e : Elem) : Prop := ∀ n ∈ xs, Without n e

theorem Low.kid {xs : List Str} {tag : Str} {text : Option Str} {attrib : Attrib} {kids : List Elem} (h : Low xs (.mk tag text attrib kids)) {k : Elem} (hk : k ∈ kids) :
    k.tag ∉ xs ∧ Low xs k := by
  refine ⟨fun c => ?_, fun n hn => ?_⟩
  · cases h _ c with
    | mk hw _ => exact hw k hk rfl
  · cases h n hn with
    | mk _ hw => exact hw k hk

theorem lookup_mem {β : Type} {l : List (Str × β)} {k : Str} {v : β} (h : lookup l k = some v) : (k, v) ∈ l := by
  simp only [lookup, Option.map_eq_some_iff] at h
  obtain ⟨p, hp, rfl⟩ := h
  have h1 := List.mem_of_find?_eq_some hp
  have h2 := List.find?_some hp
  have : p.1 = k := by simpa using h2
  rw [← this]
  exact h1

/-- what holds of the sub-elements of a valid element -/
theorem letters_kids {F : Facets} {S : Schema} {xs : List Str} : ∀ {w : List Letter'} {es : List Elem}, Valid F S (.kids w es) → (∀ k ∈ es, k.tag ∉ xs) → Avoids xs w
  | _, _, .nil, _ => by intro n t h; simp at h
  | _, _, .cons ht _ hk, h => by
    intro n t hm
    rcases List.mem_cons.mp hm with e | hm
    · cases e; rw [← ht]; exact h _ (by simp)
    · exact letters_kids hk (fun k hk => h k (by simp [hk])) n t hm
  | _, _, .consAny _ hk, h => by
    intro n t hm
    rcases List.mem_cons.mp hm with e | hm
    · cases e
    · exact letters_kids hk (fun k hk => h k (by simp [hk])) n t hm

theorem valid_together {F : Facets} {S : Schema} {P : Str → Bool} {xs : List Str} {f : Nat} (hc : closedB S P xs f = true) {c : Spec.Check} (h : Valid F S c) :
    match c with
    | .typed T e => P T = true → Low xs e → TogetherAll e
    | .kids w es => (∀ e ∈ es, Low xs e) → ∀ l : List (Str × Str), w = l.map some → (∀ p ∈ l, P p.2 = true) → es.map Elem.tag = l.map Prod.fst ∧ ∀ e ∈ es, TogetherAll e
    | _ => True := by
  induction h with
  | simple _ _ => intro _ _; exact .mk (by simpa using together_nil) (by simp)
  | @complex T tag text attrib kids ct w hl _ _ hm hk ih =>
    intro hP hlow
    have h1 := List.all_eq_true.mp hc _ (lookup_mem hl)
    simp only [hP, Bool.not_true, Bool.false_or] at h1
    obtain ⟨k, hk'⟩ := Option.isSome_iff_exists.mp h1
    obtain ⟨l, e, h2, h3⟩ := kinds_sound S P xs false f _ _ hk' _ hm (letters_kids hk fun y hy => (hlow.kid hy).1)
    obtain ⟨h4, h5⟩ := ih (fun y hy => (hlow.kid hy).2) l e fun p hp => (h2 p hp).2
    exact .mk (by rw [h4]; exact h3 rfl) h5
  | nil =>
    intro _ l e _
    cases l with
    | nil => simp
    | cons p l => simp at e
  | @cons e es n t w hn _ _ ih1 ih2 =>
    intro hlow l hl hP
    cases l with
    | nil => simp at hl
    | cons p l =>
      simp only [List.map_cons, List.cons.injEq, Option.some.injEq] at hl
      obtain ⟨rfl, hl⟩ := hl
      obtain ⟨a, b⟩ := ih2 (fun y hy => hlow y (by simp [hy])) l hl fun q hq => hP q (by simp [hq])
      refine ⟨by simp [hn, a], fun y hy => ?_⟩
      rcases List.mem_cons.mp hy with rfl | hy
      · exact ih1 (hP (n, t) (by simp)) (hlow _ (by simp))
      · exact b y hy
  | consAny _ _ _ _ =>
    intro _ l hl _
    cases l <;> simp at hl
  | _ => trivial

end Verif.Json
