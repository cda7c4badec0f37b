import Verif.Regex
/-
  Lemmas about the matcher: index form, transfer between class-equivalent
  strings, determinism of greedy digit runs, language of captures.
-/
namespace Verif

/-- index form of a result: (consumed length, captures as (group, start, length)) -/
abbrev IRes := Nat × List (Nat × Nat × Nat)

def shiftCap (n : Nat) (x : Nat × Nat × Nat) : Nat × Nat × Nat := (x.1, n + x.2.1, x.2.2)

def runI : Re → Str → List IRes
  | .eps, _ => [(0, [])]
  | .cls _, [] => []
  | .cls p, c :: _ => if p c then [(1, [])] else []
  | .rep lo hi p, s => (downTo lo (spanLen p hi s)).map fun j => (j, [])
  | .seq a b, s =>
    (runI a s).flatMap fun m => (runI b (s.drop m.1)).map fun k => (m.1 + k.1, m.2 ++ k.2.map (shiftCap m.1))
  | .alt a b, s => runI a s ++ runI b s
  | .grp n r, s => (runI r s).map fun m => (m.1, (n, 0, m.1) :: m.2)
  | .eos, s => if s = [] ∨ s = ['\n'] then [(0, [])] else []

def realize (s : Str) (m : IRes) : Str × Str × Caps :=
  (s.take m.1, s.drop m.1, m.2.map fun x => (x.1, (s.drop x.2.1).take x.2.2))

theorem run_eq_runI (r : Re) (s : Str) : run r s = (runI r s).map (realize s) := by
  induction r generalizing s with
  | eps => simp [run, runI, realize]
  | cls p =>
    cases s with
    | nil => simp [run, runI]
    | cons c s => simp only [run, runI]; split <;> simp [realize]
  | rep lo hi p => simp [run, runI, realize]
  | seq a b iha ihb =>
    simp only [run, runI, iha, ihb, List.map_flatMap, List.flatMap_map, List.map_map]
    congr 1; funext m
    congr 1; funext k
    simp only [Function.comp, realize, List.take_add, List.drop_drop, List.map_append, List.map_map]
    simp [shiftCap]
  | alt a b iha ihb => simp [run, runI, iha, ihb]
  | grp n r ih =>
    simp only [run, runI, ih, List.map_map]
    congr 1
  | eos => simp only [run, runI]; split <;> simp [realize]

theorem ch_iff (a c : Char) : ch a c = true ↔ c = a := by
  simp only [ch, beq_iff_eq]
  constructor
  · intro h; exact Char.toNat_inj.1 h
  · rintro rfl; rfl

/-- captured spans lie inside the consumed text -/
theorem runI_span {r : Re} : ∀ {s : Str} (m : IRes), m ∈ runI r s → ∀ x ∈ m.2, x.2.1 + x.2.2 ≤ m.1 := by
  induction r with
  | eps => intro s m hm x hx; simp [runI] at hm; simp [hm] at hx
  | cls p =>
    intro s m hm x hx
    cases s with
    | nil => simp [runI] at hm
    | cons c s =>
      simp only [runI] at hm
      split at hm
      · simp at hm; simp [hm] at hx
      · simp at hm
  | rep lo hi p =>
    intro s m hm x hx
    simp only [runI, List.mem_map] at hm
    obtain ⟨j, hj, rfl⟩ := hm
    simp at hx
  | seq a b iha ihb =>
    intro s m hm x hx
    simp only [runI, List.mem_flatMap, List.mem_map] at hm
    obtain ⟨m1, h1, k, h2, rfl⟩ := hm
    simp only [List.mem_append, List.mem_map] at hx
    rcases hx with hx | ⟨y, hy, rfl⟩
    · have := iha m1 h1 x hx; simp; omega
    · have := ihb k h2 y hy; simp [shiftCap]; omega
  | alt a b iha ihb =>
    intro s m hm x hx
    simp only [runI, List.mem_append] at hm
    rcases hm with hm | hm
    · exact iha m hm x hx
    · exact ihb m hm x hx
  | grp n r ih =>
    intro s m hm x hx
    simp only [runI, List.mem_map] at hm
    obtain ⟨m1, h1, rfl⟩ := hm
    simp only [List.mem_cons] at hx
    rcases hx with rfl | hx
    · simp
    · exact ih m1 h1 x hx
  | eos =>
    intro s m hm x hx
    simp only [runI] at hm
    split at hm
    · simp at hm; simp [hm] at hx
    · simp at hm

/-- string `s` has its i-th character in the i-th family -/
def InFams : Str → List Str → Prop
  | [], [] => True
  | c :: s, F :: Fs => c ∈ F ∧ InFams s Fs
  | _, _ => False

/-- truth value of a class on a family, if it is constant there -/
def testF (p : Char → Bool) (F : Str) : Option Bool :=
  if F.all p then some true else if F.all (fun c => !p c) then some false else none

def spanF (p : Char → Bool) : Option Nat → List Str → Option Nat
  | some 0, _ => some 0
  | _, [] => some 0
  | none, F :: Fs => (testF p F).bind fun b => if b then (spanF p none Fs).map (· + 1) else some 0
  | some (h + 1), F :: Fs =>
    (testF p F).bind fun b => if b then (spanF p (some h) Fs).map (· + 1) else some 0

/-- `flatMap` in the option monad -/
def bindAll {α β : Type} (f : α → Option (List β)) : List α → Option (List β)
  | [] => some []
  | a :: l => (f a).bind fun x => (bindAll f l).map (x ++ ·)

/-- run the matcher on all strings of a family product at once; `none` if some
    test needed is not constant -/
def runF : Re → List Str → Option (List IRes)
  | .eps, _ => some [(0, [])]
  | .cls _, [] => some []
  | .cls p, F :: _ => (testF p F).map fun b => if b then [(1, [])] else []
  | .rep lo hi p, Fs => (spanF p hi Fs).map fun n => (downTo lo n).map fun j => (j, [])
  | .seq a b, Fs => (runF a Fs).bind fun l =>
      bindAll (fun m => (runF b (Fs.drop m.1)).map fun l' =>
        l'.map fun k => (m.1 + k.1, m.2 ++ k.2.map (shiftCap m.1))) l
  | .alt a b, Fs => (runF a Fs).bind fun l => (runF b Fs).map (l ++ ·)
  | .grp n r, Fs => (runF r Fs).map fun l => l.map fun m => (m.1, (n, 0, m.1) :: m.2)
  | .eos, [] => some [(0, [])]
  | .eos, [F] => (testF (ch '\n') F).map fun b => if b then [(0, [])] else []
  | .eos, _ :: _ :: _ => some []

theorem testF_sound {p : Char → Bool} {F : Str} {b : Bool} (h : testF p F = some b) {c : Char} (hc : c ∈ F) :
    p c = b := by
  simp only [testF] at h
  split at h
  · rename_i h1; simp at h; subst h; exact List.all_eq_true.1 h1 c hc
  · split at h
    · rename_i h1; simp at h; subst h
      have := List.all_eq_true.1 h1 c hc
      simpa using this
    · simp at h

theorem spanF_sound {p : Char → Bool} : ∀ (hi : Option Nat) {s : Str} {Fs : List Str} {n : Nat}, InFams s Fs →
    spanF p hi Fs = some n → spanLen p hi s = n
  | some 0, s, Fs, n, _, h => by simp [spanF] at h; subst h; simp [spanLen]
  | none, [], [], n, _, h => by simp [spanF] at h; simp [spanLen, h]
  | some (_ + 1), [], [], n, _, h => by simp [spanF] at h; simp [spanLen, h]
  | none, c :: s, F :: Fs, n, ⟨h1, h2⟩, h => by
    simp only [spanF, Option.bind_eq_some_iff] at h
    obtain ⟨b, hb, h⟩ := h
    simp only [spanLen, testF_sound hb h1]
    cases b
    · simp at h; simp [h]
    · simp only [if_true, Option.map_eq_some_iff] at h
      obtain ⟨k, hk, rfl⟩ := h
      simp [spanF_sound none h2 hk]
  | some (hh + 1), c :: s, F :: Fs, n, ⟨h1, h2⟩, h => by
    simp only [spanF, Option.bind_eq_some_iff] at h
    obtain ⟨b, hb, h⟩ := h
    simp only [spanLen, testF_sound hb h1]
    cases b
    · simp at h; simp [h]
    · simp only [if_true, Option.map_eq_some_iff] at h
      obtain ⟨k, hk, rfl⟩ := h
      simp [spanF_sound (some hh) h2 hk]
  | none, [], _ :: _, _, h, _ => h.elim
  | none, _ :: _, [], _, h, _ => h.elim
  | some (_ + 1), [], _ :: _, _, h, _ => h.elim
  | some (_ + 1), _ :: _, [], _, h, _ => h.elim

theorem InFams.drop : ∀ (n : Nat) {s : Str} {Fs : List Str}, InFams s Fs → InFams (s.drop n) (Fs.drop n)
  | 0, _, _, h => by simpa using h
  | n + 1, [], [], _ => by simp [InFams]
  | n + 1, _ :: _, _ :: _, ⟨_, h2⟩ => by simpa using h2.drop n
  | n + 1, [], _ :: _, hh => hh.elim
  | n + 1, _ :: _, [], hh => hh.elim

theorem InFams.length : ∀ {s : Str} {Fs : List Str}, InFams s Fs → s.length = Fs.length
  | [], [], _ => rfl
  | _ :: _, _ :: _, ⟨_, h⟩ => by simp [h.length]
  | [], _ :: _, h => h.elim
  | _ :: _, [], h => h.elim

theorem bindAll_sound {α β : Type} {f : α → Option (List β)} {g : α → List β} :
    ∀ {l : List α} {L : List β}, bindAll f l = some L → (∀ a x, f a = some x → g a = x) → l.flatMap g = L
  | [], L, h, _ => by simp [bindAll] at h; simp [h]
  | a :: l, L, h, hg => by
    simp only [bindAll, Option.bind_eq_some_iff, Option.map_eq_some_iff] at h
    obtain ⟨x, hx, y, hy, rfl⟩ := h
    simp [hg a x hx, bindAll_sound hy hg]

theorem runF_sound (r : Re) : ∀ {s : Str} {Fs : List Str} {L : List IRes}, InFams s Fs →
    runF r Fs = some L → runI r s = L := by
  induction r with
  | eps => intro s Fs L _ h; simp [runF] at h; simp [runI, h]
  | cls p =>
    intro s Fs L hs h
    match s, Fs, hs with
    | [], [], _ => simp [runF] at h; simp [runI, h]
    | c :: s, F :: Fs, ⟨h1, _⟩ =>
      simp only [runF, Option.map_eq_some_iff] at h
      obtain ⟨b, hb, rfl⟩ := h
      simp only [runI, testF_sound hb h1]
  | rep lo hi p =>
    intro s Fs L hs h
    simp only [runF, Option.map_eq_some_iff] at h
    obtain ⟨n, hn, rfl⟩ := h
    simp only [runI, spanF_sound hi hs hn]
  | seq a b iha ihb =>
    intro s Fs L hs h
    simp only [runF, Option.bind_eq_some_iff] at h
    obtain ⟨l, hl, h⟩ := h
    simp only [runI, iha hs hl]
    refine bindAll_sound h fun m x hx => ?_
    simp only [Option.map_eq_some_iff] at hx
    obtain ⟨l', hl', rfl⟩ := hx
    rw [ihb (hs.drop m.1) hl']
  | alt a b iha ihb =>
    intro s Fs L hs h
    simp only [runF, Option.bind_eq_some_iff, Option.map_eq_some_iff] at h
    obtain ⟨l, hl, l', hl', rfl⟩ := h
    simp only [runI, iha hs hl, ihb hs hl']
  | grp n r ih =>
    intro s Fs L hs h
    simp only [runF, Option.map_eq_some_iff] at h
    obtain ⟨l, hl, rfl⟩ := h
    simp only [runI, ih hs hl]
  | eos =>
    intro s Fs L hs h
    match s, Fs, hs with
    | [], [], _ => simp [runF] at h; simp [runI, h]
    | [c], [F], ⟨h1, _⟩ =>
      simp only [runF, Option.map_eq_some_iff] at h
      obtain ⟨b, hb, rfl⟩ := h
      have := testF_sound hb h1
      cases b
      · have : c ≠ '\n' := fun e => by rw [(ch_iff _ _).2 e] at this; cases this
        simp [runI, this]
      · have : c = '\n' := (ch_iff _ _).1 this
        simp [runI, this]
    | c :: d :: t, F :: G :: H, _ => simp [runF] at h; simp [runI, ← h]
    | [c], F :: G :: H, ⟨_, h2⟩ => exact h2.elim
    | c :: d :: t, [F], ⟨_, h2⟩ => exact h2.elim

def capsAt (s : Str) (k : List (Nat × Nat × Nat)) : Caps := k.map fun x => (x.1, (s.drop x.2.1).take x.2.2)

/-- captures of the first match in index form, on a family product -/
def firstF (r : Re) (Fs : List Str) : Option (Option (List (Nat × Nat × Nat))) :=
  (runF r Fs).map fun l => l.head?.map (·.2)

/-- Evaluate a match on a whole family of strings by evaluating it once. -/
theorem reMatch_fams {r : Re} {s : Str} {Fs : List Str} {o : Option (List (Nat × Nat × Nat))}
    (h : InFams s Fs) (hd : firstF r Fs = some o) : reMatch r s = o.map (capsAt s) := by
  simp only [firstF, Option.map_eq_some_iff] at hd
  obtain ⟨l, hl, rfl⟩ := hd
  simp only [reMatch, run_eq_runI, runF_sound r h hl, List.head?_map]
  cases l.head? <;> simp [realize, capsAt]

/-! ### captures are in the language of their group -/

/-- `t` is matched by `r` as a whole in some context -/
def Re.lang : Re → Str → Prop
  | .eps, t => t = []
  | .cls p, t => ∃ c, p c = true ∧ t = [c]
  | .rep lo hi p, t => lo ≤ t.length ∧ (∀ h, hi = some h → t.length ≤ h) ∧ ∀ c ∈ t, p c = true
  | .seq a b, t => ∃ u v, a.lang u ∧ b.lang v ∧ t = u ++ v
  | .alt a b, t => a.lang t ∨ b.lang t
  | .grp _ r, t => r.lang t
  | .eos, t => t = []

/-- group bodies of a pattern -/
def groups : Re → List (Nat × Re)
  | .seq a b => groups a ++ groups b
  | .alt a b => groups a ++ groups b
  | .grp n r => (n, r) :: groups r
  | _ => []

theorem spanLen_le (p : Char → Bool) : ∀ (hi : Option Nat) (s : Str), spanLen p hi s ≤ s.length
  | some 0, _ => by simp [spanLen]
  | none, [] => by simp [spanLen]
  | some (_ + 1), [] => by simp [spanLen]
  | none, c :: s => by simp only [spanLen]; have := spanLen_le p none s; split <;> simp <;> omega
  | some (h + 1), c :: s => by simp only [spanLen]; have := spanLen_le p (some h) s; split <;> simp <;> omega

theorem spanLen_hi (p : Char → Bool) : ∀ (h : Nat) (s : Str), spanLen p (some h) s ≤ h
  | 0, _ => by simp [spanLen]
  | _ + 1, [] => by simp [spanLen]
  | h + 1, c :: s => by simp only [spanLen]; have := spanLen_hi p h s; split <;> omega

theorem spanLen_all (p : Char → Bool) : ∀ (hi : Option Nat) (s : Str), ∀ c ∈ s.take (spanLen p hi s), p c = true
  | some 0, _ => by simp [spanLen]
  | none, [] => by simp [spanLen]
  | some (_ + 1), [] => by simp [spanLen]
  | none, c :: s => by
    simp only [spanLen]; have := spanLen_all p none s
    split
    · simpa [*] using this
    · simp
  | some (h + 1), c :: s => by
    simp only [spanLen]; have := spanLen_all p (some h) s
    split
    · simpa [*] using this
    · simp

theorem mem_downTo {lo n j : Nat} : j ∈ downTo lo n ↔ lo ≤ j ∧ j ≤ n := by
  induction n with
  | zero => simp only [downTo]; split <;> simp <;> omega
  | succ n ih =>
    simp only [downTo]
    split
    · rw [List.mem_cons, ih]; omega
    · simp; omega

theorem run_split {r : Re} {s c t : Str} {k : Caps} (h : (c, t, k) ∈ run r s) : s = c ++ t := by
  rw [run_eq_runI] at h
  simp only [List.mem_map, realize, Prod.mk.injEq] at h
  obtain ⟨m, _, rfl, rfl, _⟩ := h
  simp

theorem run_lang {r : Re} : ∀ {s c t : Str} {k : Caps}, (c, t, k) ∈ run r s → r.lang c := by
  induction r with
  | eps => intro s c t k h; simp [run] at h; simp [Re.lang, h]
  | cls p =>
    intro s c t k h
    cases s with
    | nil => simp [run] at h
    | cons x s =>
      simp only [run] at h
      split at h
      · simp at h; exact ⟨x, by assumption, h.1⟩
      · simp at h
  | rep lo hi p =>
    intro s c t k h
    simp only [run, List.mem_map, Prod.mk.injEq] at h
    obtain ⟨j, hj, rfl, rfl, rfl⟩ := h
    rw [mem_downTo] at hj
    have hl := spanLen_le p hi s
    refine ⟨by simp; omega, ?_, ?_⟩
    · rintro h rfl
      have := spanLen_hi p h s
      simp; omega
    · intro x hx
      apply spanLen_all p hi s
      have : s.take j = (s.take (spanLen p hi s)).take j := by
        rw [List.take_take, Nat.min_eq_left hj.2]
      rw [this] at hx
      exact List.mem_of_mem_take hx
  | seq a b iha ihb =>
    intro s c t k h
    simp only [run, List.mem_flatMap, List.mem_map] at h
    obtain ⟨⟨c1, t1, k1⟩, h1, ⟨c2, t2, k2⟩, h2, he⟩ := h
    simp only [Prod.mk.injEq] at he
    obtain ⟨rfl, rfl, rfl⟩ := he
    exact ⟨c1, c2, iha h1, ihb h2, rfl⟩
  | alt a b iha ihb =>
    intro s c t k h
    simp only [run, List.mem_append] at h
    exact h.elim (fun h => Or.inl (iha h)) (fun h => Or.inr (ihb h))
  | grp n r ih =>
    intro s c t k h
    simp only [run, List.mem_map] at h
    obtain ⟨⟨c1, t1, k1⟩, h1, he⟩ := h
    simp only [Prod.mk.injEq] at he
    obtain ⟨rfl, rfl, rfl⟩ := he
    exact ih h1
  | eos =>
    intro s c t k h
    simp only [run] at h
    split at h
    · simp at h; simp [Re.lang, h]
    · simp at h

theorem run_caps {r : Re} : ∀ {s c t : Str} {k : Caps}, (c, t, k) ∈ run r s →
    ∀ n u, (n, u) ∈ k → ∃ b, (n, b) ∈ groups r ∧ b.lang u := by
  induction r with
  | eps => intro s c t k h; simp [run] at h; simp [h]
  | cls p =>
    intro s c t k h
    cases s with
    | nil => simp [run] at h
    | cons x s =>
      simp only [run] at h
      split at h
      · simp at h; simp [h]
      · simp at h
  | rep lo hi p =>
    intro s c t k h
    simp only [run, List.mem_map, Prod.mk.injEq] at h
    obtain ⟨j, hj, rfl, rfl, rfl⟩ := h
    simp
  | seq a b iha ihb =>
    intro s c t k h n u hu
    simp only [run, List.mem_flatMap, List.mem_map] at h
    obtain ⟨⟨c1, t1, k1⟩, h1, ⟨c2, t2, k2⟩, h2, he⟩ := h
    simp only [Prod.mk.injEq] at he
    obtain ⟨rfl, rfl, rfl⟩ := he
    rcases List.mem_append.1 hu with hu | hu
    · obtain ⟨b', hb, hl⟩ := iha h1 n u hu
      exact ⟨b', by simp [groups, hb], hl⟩
    · obtain ⟨b', hb, hl⟩ := ihb h2 n u hu
      exact ⟨b', by simp [groups, hb], hl⟩
  | alt a b iha ihb =>
    intro s c t k h n u hu
    simp only [run, List.mem_append] at h
    rcases h with h | h
    · obtain ⟨b', hb, hl⟩ := iha h n u hu
      exact ⟨b', by simp [groups, hb], hl⟩
    · obtain ⟨b', hb, hl⟩ := ihb h n u hu
      exact ⟨b', by simp [groups, hb], hl⟩
  | grp m r ih =>
    intro s c t k h n u hu
    simp only [run, List.mem_map] at h
    obtain ⟨⟨c1, t1, k1⟩, h1, he⟩ := h
    simp only [Prod.mk.injEq] at he
    obtain ⟨rfl, rfl, rfl⟩ := he
    rcases List.mem_cons.1 hu with hu | hu
    · simp only [Prod.mk.injEq] at hu
      obtain ⟨rfl, rfl⟩ := hu
      exact ⟨r, by simp [groups], run_lang h1⟩
    · obtain ⟨b', hb, hl⟩ := ih h1 n u hu
      exact ⟨b', by simp [groups, hb], hl⟩
  | eos =>
    intro s c t k h
    simp only [run] at h
    split at h
    · simp at h; simp [h]
    · simp at h

/-- every captured group of `re.match` is in the language of a group of that number -/
theorem reMatch_group {r : Re} {s : Str} {m : Caps} (h : reMatch r s = some m) {n : Nat} {u : Str}
    (hg : group m n = some u) : ∃ b, (n, b) ∈ groups r ∧ b.lang u := by
  simp only [reMatch, Option.map_eq_some_iff] at h
  obtain ⟨⟨c, t, k⟩, h1, rfl⟩ := h
  have hm := List.mem_of_mem_head? h1
  simp only [group, Option.map_eq_some_iff] at hg
  obtain ⟨⟨n', u'⟩, hf, rfl⟩ := hg
  have h2 := List.mem_of_find?_eq_some hf
  have h3 := List.find?_some hf
  simp only [beq_iff_eq] at h3
  subst h3
  exact run_caps hm _ _ h2

/-! ### greedy runs followed by something that cannot start inside the run -/

/-- map a match result to one with `ds` consumed before it -/
def prepend (ds : Str) (m : Str × Str × Caps) : Str × Str × Caps := (ds ++ m.1, m.2.1, m.2.2)

theorem spanLen_none_append (p : Char → Bool) : ∀ (ds t : Str), (∀ c ∈ ds, p c = true) →
    (∀ c ∈ t.head?, p c = false) → spanLen p none (ds ++ t) = ds.length
  | [], [], _, _ => by simp [spanLen]
  | [], c :: t, _, h => by simp at h; simp [spanLen, h]
  | d :: ds, t, hd, ht => by
    simp only [List.cons_append, spanLen, hd d (by simp), if_true, List.length_cons]
    rw [spanLen_none_append p ds t (fun c hc => hd c (by simp [hc])) ht]

theorem downTo_flatMap_top {α : Type} (lo n : Nat) (f : Nat → List α) (hlo : lo ≤ n)
    (hf : ∀ j, j < n → f j = []) : (downTo lo n).flatMap f = f n := by
  cases n with
  | zero => have : lo = 0 := by omega
            simp [downTo, this]
  | succ n =>
    simp only [downTo, hlo, if_true, List.flatMap_cons]
    have : (downTo lo n).flatMap f = [] := by
      rw [List.flatMap_eq_nil_iff]
      intro j hj
      rw [mem_downTo] at hj
      exact hf j (by omega)
    simp [this]

theorem downTo_empty {lo n : Nat} (h : n < lo) : downTo lo n = [] := by
  cases n <;> simp [downTo] <;> omega

/-- a greedy unbounded run of `p` followed by `b`, where `b` cannot start with a `p` character -/
theorem run_rep_seq {lo : Nat} {p : Char → Bool} {b : Re} {ds t : Str}
    (hds : ∀ c ∈ ds, p c = true) (ht : ∀ c ∈ t.head?, p c = false)
    (hb : ∀ c s, p c = true → run b (c :: s) = []) (hlo : lo ≤ ds.length) :
    run (.seq (.rep lo none p) b) (ds ++ t) = (run b t).map (prepend ds) := by
  simp only [run, spanLen_none_append p ds t hds ht, List.flatMap_map]
  rw [downTo_flatMap_top _ _ _ hlo]
  · simp [prepend]
  · intro j hj
    have hne : ∃ c u, (ds ++ t).drop j = c :: u ∧ p c = true := by
      rw [List.drop_append_of_le_length (by omega)]
      cases hd : ds.drop j with
      | nil => simp at hd; omega
      | cons c u =>
        refine ⟨c, u ++ t, rfl, hds c ?_⟩
        exact List.mem_of_mem_drop (i := j) (by rw [hd]; simp)
    obtain ⟨c, u, he, hp⟩ := hne
    simp [he, hb c u hp]

/-- the same with the run captured in group `g` -/
theorem run_grp_rep_seq {lo g : Nat} {p : Char → Bool} {b : Re} {ds t : Str}
    (hds : ∀ c ∈ ds, p c = true) (ht : ∀ c ∈ t.head?, p c = false)
    (hb : ∀ c s, p c = true → run b (c :: s) = []) (hlo : lo ≤ ds.length) :
    run (.seq (.grp g (.rep lo none p)) b) (ds ++ t) =
      (run b t).map fun m => (ds ++ m.1, m.2.1, (g, ds) :: m.2.2) := by
  have h := run_rep_seq hds ht hb hlo
  simp only [run, spanLen_none_append p ds t hds ht, List.flatMap_map, List.map_map] at h ⊢
  rw [downTo_flatMap_top _ _ _ hlo]
  · simp
  · intro j hj
    have hne : ∃ c u, (ds ++ t).drop j = c :: u ∧ p c = true := by
      rw [List.drop_append_of_le_length (by omega)]
      cases hd : ds.drop j with
      | nil => simp at hd; omega
      | cons c u =>
        refine ⟨c, u ++ t, rfl, hds c ?_⟩
        exact List.mem_of_mem_drop (i := j) (by rw [hd]; simp)
    obtain ⟨c, u, he, hp⟩ := hne
    simp [Function.comp, he, hb c u hp]

/-- every match on a string starting with `c` is empty -/
def Re.emp : Re → Char → Bool
  | .eps, _ => true
  | .cls p, c => !p c
  | .rep _ _ p, c => !p c
  | .seq a b, c => a.emp c && b.emp c
  | .alt a b, c => a.emp c && b.emp c
  | .grp _ r, c => r.emp c
  | .eos, _ => true

/-- no string starting with `c` is matched -/
def Re.rej : Re → Char → Bool
  | .eps, _ => false
  | .cls p, c => !p c
  | .rep lo _ p, c => decide (0 < lo) && !p c
  | .seq a b, c => a.rej c || (a.emp c && b.rej c)
  | .alt a b, c => a.rej c && b.rej c
  | .grp _ r, c => r.rej c
  | .eos, c => c != '\n'

theorem spanLen_not {p : Char → Bool} {hi : Option Nat} {c : Char} {s : Str} (h : p c = false) :
    spanLen p hi (c :: s) = 0 := by
  match hi with
  | none => simp [spanLen, h]
  | some 0 => simp [spanLen]
  | some (_ + 1) => simp [spanLen, h]

theorem emp_sound {r : Re} : ∀ {c : Char} {s : Str}, r.emp c = true → ∀ m ∈ run r (c :: s), m.1 = [] ∧ m.2.1 = c :: s := by
  induction r with
  | eps => intro c s _ m hm; simp [run] at hm; simp [hm]
  | cls p => intro c s h m hm; simp [Re.emp] at h; simp [run, h] at hm
  | rep lo hi p =>
    intro c s h m hm
    simp [Re.emp] at h
    simp only [run, spanLen_not h, List.mem_map, mem_downTo] at hm
    obtain ⟨j, hj, rfl⟩ := hm
    have : j = 0 := by omega
    simp [this]
  | seq a b iha ihb =>
    intro c s h m hm
    simp only [Re.emp, Bool.and_eq_true] at h
    simp only [run, List.mem_flatMap, List.mem_map] at hm
    obtain ⟨m1, h1, k, h2, rfl⟩ := hm
    have e := iha h.1 m1 h1
    rw [e.2] at h2
    have e2 := ihb h.2 k h2
    simp [e.1, e2]
  | alt a b iha ihb =>
    intro c s h m hm
    simp only [Re.emp, Bool.and_eq_true] at h
    simp only [run, List.mem_append] at hm
    exact hm.elim (iha h.1 m) (ihb h.2 m)
  | grp n r ih =>
    intro c s h m hm
    simp only [run, List.mem_map] at hm
    obtain ⟨m1, h1, rfl⟩ := hm
    exact ih (by simpa [Re.emp] using h) m1 h1
  | eos =>
    intro c s _ m hm
    simp only [run] at hm
    split at hm
    · simp at hm; simp [hm]
    · simp at hm

theorem rej_sound {r : Re} : ∀ {c : Char} {s : Str}, r.rej c = true → run r (c :: s) = [] := by
  induction r with
  | eps => intro c s h; simp [Re.rej] at h
  | cls p => intro c s h; simp [Re.rej] at h; simp [run, h]
  | rep lo hi p =>
    intro c s h
    simp [Re.rej] at h
    simp only [run, spanLen_not h.2, downTo_empty h.1, List.map_nil]
  | seq a b iha ihb =>
    intro c s h
    simp only [Re.rej, Bool.or_eq_true, Bool.and_eq_true] at h
    simp only [run]
    rcases h with h | h
    · simp [iha h]
    · rw [List.flatMap_eq_nil_iff]
      intro m hm
      have e := emp_sound h.1 m hm
      rw [e.2, ihb h.2]; rfl
  | alt a b iha ihb =>
    intro c s h
    simp only [Re.rej, Bool.and_eq_true] at h
    simp [run, iha h.1, ihb h.2]
  | grp n r ih => intro c s h; simp [run, ih (s := s) (by simpa [Re.rej] using h)]
  | eos => intro c s h; simp [Re.rej] at h; simp [run, h]

theorem reMatch_rej {r : Re} {c : Char} {s : Str} (h : r.rej c = true) : reMatch r (c :: s) = none := by
  simp [reMatch, rej_sound h]

/-- all-digit run captured in group `g`, then `b`, which cannot start with a digit of the run -/
theorem run_grp_rep_seq' {lo g : Nat} {p : Char → Bool} {b : Re} {ds t : Str}
    (hds : ∀ c ∈ ds, p c = true) (ht : ∀ c ∈ t.head?, p c = false)
    (hb : ∀ c ∈ ds, b.rej c = true) (hlo : lo ≤ ds.length) :
    run (.seq (.grp g (.rep lo none p)) b) (ds ++ t) =
      (run b t).map fun m => (ds ++ m.1, m.2.1, (g, ds) :: m.2.2) := by
  simp only [run, spanLen_none_append p ds t hds ht, List.flatMap_map, List.map_map]
  rw [downTo_flatMap_top _ _ _ hlo]
  · simp
  · intro j hj
    have hne : ∃ c u, (ds ++ t).drop j = c :: u ∧ b.rej c = true := by
      rw [List.drop_append_of_le_length (by omega)]
      cases hd : ds.drop j with
      | nil => simp at hd; omega
      | cons c u =>
        refine ⟨c, u ++ t, rfl, hb c ?_⟩
        exact List.mem_of_mem_drop (i := j) (by rw [hd]; simp)
    obtain ⟨c, u, he, hp⟩ := hne
    simp [Function.comp, he, rej_sound hp]

/-! ### splitting off a fixed-length front -/

/-- the number of characters every match consumes, if fixed and independent of what follows -/
def Re.fix : Re → Option Nat
  | .eps => some 0
  | .cls _ => some 1
  | .rep lo hi _ => if hi = some lo then some lo else none
  | .seq a b => a.fix.bind fun n => b.fix.map (n + ·)
  | .alt a b => a.fix.bind fun n => b.fix.bind fun m => if n = m then some n else none
  | .grp _ r => r.fix
  | .eos => none

theorem spanLen_some_append (p : Char → Bool) : ∀ (n : Nat) (u v : Str), n ≤ u.length →
    spanLen p (some n) (u ++ v) = spanLen p (some n) u
  | 0, _, _, _ => by simp [spanLen]
  | n + 1, [], _, h => by simp at h
  | n + 1, c :: u, v, h => by
    simp only [List.cons_append, spanLen]
    rw [spanLen_some_append p n u v (by simpa using h)]

theorem fix_len {r : Re} : ∀ {n : Nat}, r.fix = some n → ∀ {s : Str}, ∀ m ∈ runI r s, m.1 = n ∧ n ≤ s.length := by
  induction r with
  | eps => intro n h s m hm; simp [Re.fix] at h; subst h; simp [runI] at hm; simp [hm]
  | cls p =>
    intro n h s m hm; simp [Re.fix] at h
    cases s with
    | nil => simp [runI] at hm
    | cons c s =>
      simp only [runI] at hm
      split at hm
      · simp at hm; simp [hm, ← h]
      · simp at hm
  | rep lo hi p =>
    intro n h s m hm
    simp only [Re.fix] at h
    split at h
    · simp at h; subst h; rename_i h; subst h
      simp only [runI, List.mem_map, mem_downTo] at hm
      obtain ⟨j, hj, rfl⟩ := hm
      have := spanLen_hi p lo s
      have := spanLen_le p (some lo) s
      simp; omega
    · simp at h
  | seq a b iha ihb =>
    intro n h s m hm
    simp only [Re.fix, Option.bind_eq_some_iff, Option.map_eq_some_iff] at h
    obtain ⟨na, ha, nb, hb, rfl⟩ := h
    simp only [runI, List.mem_flatMap, List.mem_map] at hm
    obtain ⟨m1, h1, k, h2, rfl⟩ := hm
    have e1 := iha ha m1 h1
    have e2 := ihb hb k h2
    simp at e2
    simp; omega
  | alt a b iha ihb =>
    intro n h s m hm
    simp only [Re.fix, Option.bind_eq_some_iff] at h
    obtain ⟨na, ha, nb, hb, h⟩ := h
    split at h
    · simp at h; subst h; rename_i h; subst h
      simp only [runI, List.mem_append] at hm
      exact hm.elim (iha ha m) (ihb hb m)
    · simp at h
  | grp k r ih =>
    intro n h s m hm
    simp only [runI, List.mem_map] at hm
    obtain ⟨m1, h1, rfl⟩ := hm
    exact ih h m1 h1
  | eos => intro n h; simp [Re.fix] at h

theorem fix_append {r : Re} : ∀ {n : Nat}, r.fix = some n → ∀ {u v : Str}, n ≤ u.length → runI r (u ++ v) = runI r u := by
  induction r with
  | eps => intros; rfl
  | cls p =>
    intro n h u v hu; simp [Re.fix] at h
    cases u with
    | nil => simp at hu; omega
    | cons c s => rfl
  | rep lo hi p =>
    intro n h u v hu
    simp only [Re.fix] at h
    split at h
    · simp at h; subst h; rename_i h; subst h
      simp only [runI, spanLen_some_append p lo u v hu]
    · simp at h
  | seq a b iha ihb =>
    intro n h u v hu
    simp only [Re.fix, Option.bind_eq_some_iff, Option.map_eq_some_iff] at h
    obtain ⟨na, ha, nb, hb, rfl⟩ := h
    simp only [runI]
    rw [iha ha (by omega)]
    rw [List.flatMap_def, List.flatMap_def]
    congr 1
    apply List.map_congr_left
    intro m hm
    have e := fix_len ha m hm
    rw [List.drop_append_of_le_length (by omega), ihb hb (by simp; omega)]
  | alt a b iha ihb =>
    intro n h u v hu
    simp only [Re.fix, Option.bind_eq_some_iff] at h
    obtain ⟨na, ha, nb, hb, h⟩ := h
    split at h
    · simp at h; subst h; rename_i h; subst h
      simp only [runI]; rw [iha ha hu, ihb hb hu]
    · simp at h
  | grp k r ih => intro n h u v hu; simp only [runI]; rw [ih h hu]
  | eos => intro n h; simp [Re.fix] at h

theorem run_assoc (a b c : Re) (s : Str) : run (.seq (.seq a b) c) s = run (.seq a (.seq b c)) s := by
  simp only [run, List.flatMap_assoc, List.flatMap_map, List.map_flatMap, List.map_map]
  congr 1; funext m
  congr 1; funext k
  congr 1; funext x
  simp

theorem run_cat_append (l1 l2 : List Re) (h1 : l1 ≠ []) (h2 : l2 ≠ []) (s : Str) :
    run (cat (l1 ++ l2)) s = run (.seq (cat l1) (cat l2)) s := by
  induction l1 generalizing s with
  | nil => exact absurd rfl h1
  | cons a l ih =>
    cases l with
    | nil =>
      cases l2 with
      | nil => exact absurd rfl h2
      | cons b l2 => rfl
    | cons b l =>
      have e1 : cat (a :: b :: l ++ l2) = .seq a (cat (b :: l ++ l2)) := rfl
      have e2 : cat (a :: b :: l) = .seq a (cat (b :: l)) := rfl
      rw [e1, e2, run_assoc, run, run]
      congr 1; funext m
      rw [ih (by simp)]

/-- front of the pattern on the front of the string, evaluated once for a family product -/
theorem run_front {l1 l2 : List Re} {u v : Str} {Fs : List Str} {k : List (Nat × Nat × Nat)}
    (h2 : l2 ≠ []) (hf : InFams u Fs)
    (hd : (l1 ≠ [] ∧ (cat l1).fix = some Fs.length) ∧ runF (cat l1) Fs = some [(Fs.length, k)]) :
    run (cat (l1 ++ l2)) (u ++ v) =
      (run (cat l2) v).map fun m => (u ++ m.1, m.2.1, capsAt u k ++ m.2.2) := by
  obtain ⟨⟨h1, hfix⟩, hd⟩ := hd
  rw [run_cat_append l1 l2 h1 h2, run, run_eq_runI (cat l1), fix_append hfix (by rw [hf.length]; exact Nat.le_refl _),
    runF_sound _ hf hd]
  have hl := hf.length
  simp only [List.map_cons, List.map_nil, List.flatMap_cons, List.flatMap_nil, List.append_nil, realize]
  have e : List.take Fs.length (u ++ v) = u := by rw [← hl]; simp
  have e' : List.drop Fs.length (u ++ v) = v := by rw [← hl]; simp
  rw [e, e']
  have hlen : ∀ x ∈ k, x.2.1 + x.2.2 ≤ u.length := by
    intro x hx
    have := runI_span (r := cat l1) (s := u) (Fs.length, k) (by rw [runF_sound _ hf hd]; simp) x hx
    simp at this; omega
  congr 1; funext m
  congr 3
  apply List.map_congr_left
  intro x hx
  have := hlen x hx
  rw [List.drop_append_of_le_length (by omega), List.take_append_of_le_length (by simp; omega)]

theorem run_front_nil {l1 l2 : List Re} {u v : Str} {Fs : List Str}
    (h2 : l2 ≠ []) (hf : InFams u Fs)
    (hd : (l1 ≠ [] ∧ (cat l1).fix = some Fs.length) ∧ runF (cat l1) Fs = some []) :
    run (cat (l1 ++ l2)) (u ++ v) = [] := by
  obtain ⟨⟨h1, hfix⟩, hd⟩ := hd
  rw [run_cat_append l1 l2 h1 h2, run, run_eq_runI (cat l1), fix_append hfix (by rw [hf.length]; exact Nat.le_refl _),
    runF_sound _ hf hd]
  rfl

theorem reMatch_front {l1 l2 : List Re} {u v : Str} {Fs : List Str} {k : List (Nat × Nat × Nat)}
    (h2 : l2 ≠ []) (hf : InFams u Fs)
    (hd : (l1 ≠ [] ∧ (cat l1).fix = some Fs.length) ∧ runF (cat l1) Fs = some [(Fs.length, k)]) :
    reMatch (cat (l1 ++ l2)) (u ++ v) = (reMatch (cat l2) v).map (capsAt u k ++ ·) := by
  rw [reMatch, run_front h2 hf hd]
  simp only [reMatch, List.head?_map, Option.map_map]; rfl

theorem reMatch_front_nil {l1 l2 : List Re} {u v : Str} {Fs : List Str}
    (h2 : l2 ≠ []) (hf : InFams u Fs)
    (hd : (l1 ≠ [] ∧ (cat l1).fix = some Fs.length) ∧ runF (cat l1) Fs = some []) :
    reMatch (cat (l1 ++ l2)) (u ++ v) = none := by
  rw [reMatch, run_front_nil h2 hf hd]; rfl

theorem run_eos_cons_isDec (c : Char) (s : Str) (h : isDec c = true) : run .eos (c :: s) = [] := by
  have : c ≠ '\n' := by rintro rfl; revert h; decide
  simp [run, this]

theorem run_cls_ne {p : Char → Bool} {b : Re} {c : Char} {s : Str} (h : p c = false) :
    run (.seq (.cls p) b) (c :: s) = [] := by
  simp [run, h]

end Verif
