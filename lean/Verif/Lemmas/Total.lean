import Verif.Lemmas.Shape
/-! `packTupleID` on arbitrary input: length of the result, classes of the exceptions. -/
namespace Verif
open Verif.PackUtil

/-- `x` returns a value satisfying `Q` or raises an exception satisfying `E`. -/
def Wp {α : Type} (x : Py α) (Q : α → Prop) (E : PyErr → Prop) : Prop :=
  match x with
  | .ok a => Q a
  | .error e => E e

theorem Wp.ok {α : Type} {a : α} {Q : α → Prop} {E : PyErr → Prop} (h : Q a) : Wp (.ok a) Q E := h
theorem Wp.pure {α : Type} {a : α} {Q : α → Prop} {E : PyErr → Prop} (h : Q a) : Wp (pure a) Q E := h
theorem Wp.error {α : Type} {e : PyErr} {Q : α → Prop} {E : PyErr → Prop} (h : E e) : Wp (.error e) Q E := h
theorem Wp.rt {α : Type} {Q : α → Prop} {E : PyErr → Prop} (h : E .runtimeError) : Wp (raiseRT) Q E := h
theorem Wp.bind {α β : Type} {x : Py α} {f : α → Py β} {Q : α → Prop} {R : β → Prop} {E : PyErr → Prop}
    (h : Wp x Q E) (hf : ∀ a, x = .ok a → Q a → Wp (f a) R E) : Wp (x >>= f) R E := by
  cases x with
  | ok a => exact hf a rfl h
  | error e => exact h
theorem Wp.mono {α : Type} {x : Py α} {Q Q' : α → Prop} {E E' : PyErr → Prop} (h : Wp x Q E) (hq : ∀ a, Q a → Q' a)
    (he : ∀ e, E e → E' e) : Wp x Q' E' := by
  cases x with
  | ok a => exact hq a h
  | error e => exact he e h
theorem Wp.ite {α : Type} {p : Prop} [Decidable p] {x y : Py α} {Q : α → Prop} {E : PyErr → Prop}
    (h1 : p → Wp x Q E) (h2 : ¬ p → Wp y Q E) : Wp (if p then x else y) Q E := by
  split
  · exact h1 ‹_›
  · exact h2 ‹_›
theorem Wp.get {α : Type} {x : Py α} {Q : α → Prop} {E : PyErr → Prop} (h : Wp x Q E) {a : α} (e : x = .ok a) : Q a := by
  subst e; exact h
theorem Wp.err {α : Type} {x : Py α} {Q : α → Prop} {E : PyErr → Prop} (h : Wp x Q E) {a : PyErr} (e : x = .error a) : E a := by
  subst e; exact h

def IsRT (e : PyErr) : Prop := e = .runtimeError

theorem packLetter_lt {i : Nat} (h : i < 62) : ∃ c, packLetter i = .ok c := by
  have : i < packLetters.length := h
  exact ⟨packLetters[i], by simp [packLetter, charAt, List.getElem?_eq_getElem this]⟩

theorem packLetter_ge {i : Nat} (h : 62 ≤ i) : packLetter i = .error .indexError := by
  have : packLetters.length ≤ i := h
  simp [packLetter, charAt, List.getElem?_eq_none this]

/-- a packed permID half is 5 columns; a fragment has one or two letters -/
def GoodPerm (h : Half) : Prop := h.text.length = 5 ∧ (h.ty = .F → h.frag.length = 1 ∨ h.frag.length = 2)
/-- a packed provID half is 8 columns (the first one is column 5) -/
def GoodProv (h : Half) : Prop := h.text.length = 8

def OptAll (P : Half → Prop) (o : Option Half) : Prop := ∀ h, o = some h → P h

theorem OptAll.some {P : Half → Prop} {h : Half} (hp : P h) : OptAll P (some h) := by
  intro h' e; injection e with e; exact e ▸ hp

theorem grp_of {m : Caps} {n : Nat} {s : Str} (h : group m n = some s) : grp! m n = .ok s := by simp [grp!, h]

theorem radix_len (n : Int) : (radix62_4 n).length = 5 := rfl

theorem packPermMinor_wp (s : Str) {acc : Option Half} (ha : OptAll GoodPerm acc) : Wp (packPermMinor s acc) (OptAll GoodPerm) IsRT := by
  unfold packPermMinor
  split
  · exact ha
  · rename_i m hm
    have hs := reMatch_shape hm
    simp only [minorplanetPermIDRegex, cat, plus, Re.shape, Re.lang] at hs
    obtain ⟨k1, k2, ⟨u, k', ⟨hu1, -, hu⟩, rfl, rfl⟩, rfl, rfl⟩ := hs
    obtain ⟨n, hn, -⟩ := pyNat_total (s := u) (by rintro rfl; simp at hu1) hu
    simp only [grp!, group, List.append_nil, List.find?_cons, beq_self_eq_true, Option.map_some, bind, Except.bind, hn]
    refine Wp.ite (fun h => Wp.ite (fun h2 => ?_) (fun h2 => ?_)) (fun _ => rfl)
    · obtain ⟨l, hl⟩ := packLetter_lt (i := n / 10000) (by omega)
      simp only [hl]
      refine OptAll.some ⟨?_, by simp⟩
      have := padded_length (k := 4) (n := n - n / 10000 * 10000) (by omega) (by omega)
      simp at this
      simp [this]
    · exact OptAll.some ⟨radix_len _, by simp⟩

theorem packPermComet_wp (s : Str) {acc : Option Half} (ha : OptAll GoodPerm acc) : Wp (packPermComet s acc) (OptAll GoodPerm) IsRT := by
  unfold packPermComet
  split
  · exact ha
  · rename_i m hm
    have hs := reMatch_shape hm
    simp only [cometPermIDRegex, cat, plus, Re.shape, Re.lang] at hs
    obtain ⟨k1, k2, ⟨u, k', ⟨hu1, -, hu⟩, rfl, rfl⟩, ⟨k3, k4, ⟨u2, k5, ⟨c, -, rfl⟩, rfl, rfl⟩, rfl, rfl⟩, rfl⟩ := hs
    obtain ⟨n, hn, -⟩ := pyNat_total (s := u) (by rintro rfl; simp at hu1) hu
    simp [grp!, group, bind, Except.bind, hn]
    refine Wp.ite (fun _ => rfl) (fun h => Wp.ite (fun h2 => rfl) (fun h2 => ?_))
    refine OptAll.some ⟨?_, by simp⟩
    have := padded_length (k := 4) (n := n) (by omega) (by omega)
    simp at this
    simp [this]

theorem packPermFragment_wp (s : Str) {acc : Option Half} (ha : OptAll GoodPerm acc) : Wp (packPermFragment s acc) (OptAll GoodPerm) IsRT := by
  unfold packPermFragment
  split
  · exact ha
  · rename_i m hm
    have hs := reMatch_shape hm
    simp only [cometfragmentPermIDRegex, cat, plus, Re.shape, Re.lang] at hs
    obtain ⟨k1, k2, ⟨u, k', ⟨hu1, -, hu⟩, rfl, rfl⟩, ⟨k3, k4, ⟨u2, k5, ⟨c, -, rfl⟩, rfl, rfl⟩, ⟨_, _, rfl, ⟨_, _, ⟨f, _, ⟨hf1, hf2, -⟩, rfl, rfl⟩, rfl, rfl⟩, rfl⟩, rfl⟩, rfl⟩ := hs
    obtain ⟨n, hn, -⟩ := pyNat_total (s := u) (by rintro rfl; simp at hu1) hu
    have hf2 := hf2 2 rfl
    simp [grp!, group, bind, Except.bind, hn]
    refine Wp.ite (fun _ => rfl) (fun h => Wp.ite (fun h2 => rfl) (fun h2 => ?_))
    refine OptAll.some ⟨?_, fun _ => ?_⟩
    · have := padded_length (k := 4) (n := n) (by omega) (by omega)
      simp at this
      simp [this]
    · simp; omega

theorem lit_lang {l s : Str} (h : (lit l).lang s) : s = l := by
  induction l generalizing s with
  | nil => simpa [lit, cat, Re.lang] using h
  | cons a l ih =>
    cases l with
    | nil =>
      simp only [lit, List.map, cat, Re.lang] at h
      obtain ⟨c, hc, rfl⟩ := h
      rw [(ch_iff a c).mp hc]
    | cons b l =>
      simp only [lit, List.map, cat, Re.lang] at h
      obtain ⟨u, v, ⟨c, hc, rfl⟩, hv, rfl⟩ := h
      rw [(ch_iff a c).mp hc, ih (s := v) (by simpa only [lit, List.map] using hv)]
      rfl

theorem lit_shape {l : Str} {k : Caps} (h : (lit l).shape k) : k = [] := by
  induction l generalizing k with
  | nil => simpa [lit, cat, Re.shape] using h
  | cons a l ih =>
    cases l with
    | nil => simpa only [lit, List.map, cat, Re.shape] using h
    | cons b l =>
      simp only [lit, List.map, cat, Re.shape] at h
      obtain ⟨k1, k2, rfl, hv, rfl⟩ := h
      have := ih (by simpa only [lit, List.map] using hv)
      simpa using this

theorem alts4_lit_shape {a b c d : Str} {k : Caps} (h : (alts [lit a, lit b, lit c, lit d]).shape k) : k = [] := by
  simp only [alts, Re.shape] at h
  rcases h with h | h | h | h <;> exact lit_shape h

theorem alts4_lit_lang {a b c d s : Str} (h : (alts [lit a, lit b, lit c, lit d]).lang s) : s = a ∨ s = b ∨ s = c ∨ s = d := by
  simp only [alts, Re.lang] at h
  rcases h with h | h | h | h <;> have := lit_lang h <;> simp [this]

theorem packPermSat_wp (s : Str) {acc : Option Half} (ha : OptAll GoodPerm acc) : Wp (packPermSat s acc) (OptAll GoodPerm) IsRT := by
  unfold packPermSat
  split
  · exact ha
  · rename_i m hm
    have hs := reMatch_shape hm
    simp only [satellitePermIDRegex, cat, plus, Re.shape] at hs
    obtain ⟨k1, k2, ⟨u, k', hu, hk, rfl⟩, ⟨k3, k4, rfl, ⟨_, _, ⟨d, _, ⟨hd1, -, hd⟩, rfl, rfl⟩, rfl, rfl⟩, rfl⟩, rfl⟩ := hs
    have := alts4_lit_shape hk
    subst this
    obtain ⟨n, hn, -⟩ := pyNat_total (s := d) (by rintro rfl; simp at hd1) hd
    simp [grp!, group, bind, Except.bind, hn]
    refine Wp.ite (fun _ => rfl) (fun h => Wp.ite (fun h2 => rfl) (fun h2 => ?_))
    have hc : ∃ c, charAt u 0 = .ok c := by
      rcases alts4_lit_lang hu with rfl | rfl | rfl | rfl <;> exact ⟨_, rfl⟩
    obtain ⟨c, hc⟩ := hc
    simp only [hc]
    refine OptAll.some ⟨?_, by simp⟩
    have := padded_length (k := 3) (n := n) (by omega) (by omega)
    simp at this
    simp [this]

theorem packPerm_wp (o : Option Str) : Wp (packPerm o) (OptAll GoodPerm) IsRT := by
  cases o with
  | none => intro h e; simp at e
  | some s =>
    simp only [packPerm]
    refine Wp.bind (packPermMinor_wp s (by intro h e; simp at e)) fun a _ ha => ?_
    refine Wp.bind (packPermComet_wp s ha) fun a _ ha => ?_
    refine Wp.bind (packPermFragment_wp s ha) fun a _ ha => ?_
    refine Wp.bind (packPermSat_wp s ha) fun a _ ha => ?_
    split
    · rfl
    · split
      · exact Wp.ite (fun _ => rfl) (fun _ => ha)
      · rfl

/-! ### texts that match a pattern -/

/-- `r` can match `c` when `t` follows, capturing `k` -/
def Re.parse : Re → Str → Str → Caps → Prop
  | .eps, c, _, k => c = [] ∧ k = []
  | .cls p, c, _, k => (∃ a, p a = true ∧ c = [a]) ∧ k = []
  | .rep lo hi p, c, _, k => (lo ≤ c.length ∧ (∀ h, hi = some h → c.length ≤ h) ∧ ∀ a ∈ c, p a = true) ∧ k = []
  | .seq a b, c, t, k => ∃ c1 c2 k1 k2, a.parse c1 (c2 ++ t) k1 ∧ b.parse c2 t k2 ∧ c = c1 ++ c2 ∧ k = k1 ++ k2
  | .alt a b, c, t, k => a.parse c t k ∨ b.parse c t k
  | .grp n r, c, t, k => ∃ k', r.parse c t k' ∧ k = (n, c) :: k'
  | .eos, c, t, k => c = [] ∧ k = [] ∧ (t = [] ∨ t = ['\n'])

theorem run_parse {r : Re} : ∀ {s c t : Str} {k : Caps}, (c, t, k) ∈ run r s → r.parse c t k := by
  induction r with
  | eps => intro s c t k h; simp [run] at h; exact ⟨h.1, h.2.2⟩
  | cls p =>
    intro s c t k h
    have hl := run_lang h
    exact ⟨hl, run_shape h⟩
  | rep lo hi p => intro s c t k h; exact ⟨run_lang h, run_shape h⟩
  | seq a b iha ihb =>
    intro s c t k h
    simp only [run, List.mem_flatMap, List.mem_map] at h
    obtain ⟨⟨c1, t1, k1⟩, h1, ⟨c2, t2, k2⟩, h2, e⟩ := h
    simp only [Prod.mk.injEq] at e
    obtain ⟨e1, e2, e3⟩ := e
    have hs := run_split h2
    simp only at hs e1 e2 e3
    subst e2 hs
    exact ⟨c1, c2, k1, k2, iha h1, ihb h2, e1.symm, e3.symm⟩
  | alt a b iha ihb =>
    intro s c t k h
    simp only [run, List.mem_append] at h
    exact h.imp iha ihb
  | grp n r ih =>
    intro s c t k h
    simp only [run, List.mem_map] at h
    obtain ⟨⟨c1, t1, k1⟩, h1, e⟩ := h
    simp only [Prod.mk.injEq] at e
    obtain ⟨e1, e2, e3⟩ := e
    subst e1 e2
    exact ⟨k1, ih h1, e3.symm⟩
  | eos =>
    intro s c t k h
    simp only [run] at h
    split at h <;> simp at h
    obtain ⟨h1, h2, h3⟩ := h
    subst h2
    exact ⟨h1, h3, ‹_›⟩

/-- a successful match splits the text into the matched part and a rest, with captures as the pattern says -/
theorem reMatch_parse {r : Re} {s : Str} {m : Caps} (h : reMatch r s = some m) : ∃ c t, s = c ++ t ∧ r.parse c t m := by
  simp only [reMatch, Option.map_eq_some_iff] at h
  obtain ⟨⟨c, t, k⟩, h, rfl⟩ := h
  exact ⟨c, t, run_split (List.mem_of_mem_head? h), run_parse (List.mem_of_mem_head? h)⟩

/-! ### provisional designations -/

/-- value of a run of decimal digits -/
def digitsVal (s : Str) : Nat := (intDigits 0 false s).getD 0

theorem pyNat_digits {s : Str} (hs : s ≠ []) (h : ∀ c ∈ s, isDec c = true) : pyNat s = .ok (digitsVal s) ∧ digitsVal s < 10 ^ s.length := by
  obtain ⟨n, hn, hl⟩ := pyNat_total hs h
  have : intDigits 0 false s = some n := by
    simp only [pyNat] at hn
    split at hn
    · injection hn with hn; subst hn; assumption
    · simp at hn
  simp only [digitsVal, this, Option.getD_some]
  exact ⟨hn, hl⟩

/-- four decimal digits -/
def FourDigits (y : Str) : Prop := y.length = 4 ∧ ∀ c ∈ y, isDec c = true

/-- A comet-fragment designation without number: `t/YYYY h-f` (a final newline is tolerated by the patterns). -/
def NoNumberFragment (s : Str) : Prop :=
  ∃ t y h f e, s = [t, '/'] ++ y ++ [' ', h, '-', f] ++ e ∧ FourDigits y ∧ (e = [] ∨ e = ['\n'])

/-- A comet or satellite designation of a year from 6200 on (century 62 or more). -/
def LateComet (s : Str) : Prop :=
  ∃ t y r, s = [t, '/'] ++ y ++ [' '] ++ r ∧ FourDigits y ∧ 62 ≤ digitsVal (y.take 2)

/-- A minor-planet designation with cycle count above 619 of a year ending in 62 or more. -/
def LateExtended (s : Str) : Prop :=
  ∃ y h o ds e, s = y ++ [' ', h, o] ++ ds ++ e ∧ FourDigits y ∧ 62 ≤ digitsVal (y.drop 2) ∧
    (∀ c ∈ ds, isDec c = true) ∧ 619 < digitsVal ds ∧ (e = [] ∨ e = ['\n'])

/-- exceptions packing a provID can raise -/
def ProvErr (s : Str) (e : PyErr) : Prop :=
  e = .runtimeError ∨ (e = .valueError ∧ NoNumberFragment s) ∨ (e = .indexError ∧ (LateComet s ∨ LateExtended s))

theorem strFind_order {c : Char} (h : orderCls c = true) : ∃ i, strFind orderLetters [c] = some i ∧ i < 25 := by
  have : c ∈ orderLetters := by
    simp only [orderCls, rng, Bool.or_eq_true, Bool.and_eq_true, decide_eq_true_eq] at h
    have hb : c.toNat < 91 := by
      rcases h with h | h <;> have := h.2 <;> simp at this <;> omega
    have hall : ∀ n : Fin 91, (rng 'A' 'H' (Char.ofNat n) || rng 'J' 'Z' (Char.ofNat n)) = true → Char.ofNat n ∈ orderLetters := by decide +kernel
    have := hall ⟨c.toNat, hb⟩ (by simpa [rng, Char.ofNat_toNat] using h)
    simpa [Char.ofNat_toNat] using this
  have hall : ∀ c ∈ orderLetters, ∃ i : Fin 25, strFind orderLetters [c] = some i.val := by decide +kernel
  obtain ⟨i, hi⟩ := hall c this
  exact ⟨i, hi, i.2⟩

theorem packProvMinor_wp (s : Str) {acc : Option Half} (ha : OptAll GoodProv acc) : Wp (packProvMinor s acc) (OptAll GoodProv) (ProvErr s) := by
  unfold packProvMinor
  split
  · exact ha
  · rename_i m hm
    obtain ⟨c, t, rfl, hp⟩ := reMatch_parse hm
    simp only [minorplanetProvIDRegex, cat, times, plus, opt, Re.parse] at hp
    obtain ⟨y1, _, _, _, ⟨_, ⟨⟨a1, a2, a3⟩, rfl⟩, rfl⟩, ⟨y2, _, _, _, ⟨_, ⟨⟨b1, b2, b3⟩, rfl⟩, rfl⟩, ⟨_, _, _, _, ⟨⟨_, hsp, rfl⟩, rfl⟩, ⟨_, _, _, _, ⟨_, ⟨⟨h, hh, rfl⟩, rfl⟩, rfl⟩, ⟨_, _, _, _, ⟨_, ⟨⟨o, ho, rfl⟩, rfl⟩, rfl⟩, ⟨ds, _, k, _, hds, ⟨rfl, rfl, ht⟩, rfl, rfl⟩, rfl, rfl⟩, rfl, rfl⟩, rfl, rfl⟩, rfl, rfl⟩, rfl, rfl⟩ := hp
    have a2 := a2 2 rfl
    have b2 := b2 2 rfl
    have hsp := (ch_iff _ _).mp hsp
    subst hsp
    obtain ⟨hy1, hy1'⟩ := pyNat_digits (s := y1) (by rintro rfl; simp at a1) a3
    obtain ⟨hy2, hy2'⟩ := pyNat_digits (s := y2) (by rintro rfl; simp at b1) b3
    obtain ⟨i, hi, hi'⟩ := strFind_order ho
    rw [show y1.length = 2 by omega] at hy1'
    -- the number
    have hN : ∃ n, (if truthy (group ((1, y1) :: [] ++ ((2, y2) :: [] ++ ([] ++ ((3, [h]) :: [] ++ ((4, [o]) :: [] ++ (k ++ [])))))) 5) = true then
        (do pyNat (← grp! ((1, y1) :: [] ++ ((2, y2) :: [] ++ ([] ++ ((3, [h]) :: [] ++ ((4, [o]) :: [] ++ (k ++ [])))))) 5) : Py Nat) else (return 0 : Py Nat)) = .ok n ∧
        (619 < n → grp! ((1, y1) :: [] ++ ((2, y2) :: [] ++ ([] ++ ((3, [h]) :: [] ++ ((4, [o]) :: [] ++ (k ++ [])))))) 5 = .ok ds ∧
          pyNat ds = .ok n ∧ digitsVal ds = n ∧ ∀ c ∈ ds, isDec c = true) := by
      rcases hds with ⟨_, ⟨⟨d1, -, d3⟩, rfl⟩, rfl⟩ | ⟨rfl, rfl⟩
      · have hne : ds ≠ [] := by rintro rfl; simp at d1
        obtain ⟨hd, hd'⟩ := pyNat_digits (s := ds) hne d3
        refine ⟨digitsVal ds, ?_, fun _ => ⟨?_, hd, rfl, d3⟩⟩
        · simp [group, truthy, grp!, hne, bind, Except.bind, hd]
        · simp [grp!, group]
      · exact ⟨0, by simp [group, truthy, pure, Except.pure], by simp⟩
    obtain ⟨n, hn, hn'⟩ := hN
    have g1 : grp! ((1, y1) :: [] ++ ((2, y2) :: [] ++ ([] ++ ((3, [h]) :: [] ++ ((4, [o]) :: [] ++ (k ++ [])))))) 1 = .ok y1 := by simp [grp!, group]
    have g2 : grp! ((1, y1) :: [] ++ ((2, y2) :: [] ++ ([] ++ ((3, [h]) :: [] ++ ((4, [o]) :: [] ++ (k ++ [])))))) 2 = .ok y2 := by simp [grp!, group]
    have g3 : grp! ((1, y1) :: [] ++ ((2, y2) :: [] ++ ([] ++ ((3, [h]) :: [] ++ ((4, [o]) :: [] ++ (k ++ [])))))) 3 = .ok [h] := by simp [grp!, group]
    have g4 : grp! ((1, y1) :: [] ++ ((2, y2) :: [] ++ ([] ++ ((3, [h]) :: [] ++ ((4, [o]) :: [] ++ (k ++ [])))))) 4 = .ok [o] := by simp [grp!, group]
    simp only [g1, hy1, bind, Except.bind]
    refine Wp.ite (fun _ => Or.inl rfl) (fun hy => ?_)
    simp only [bind, Except.bind] at hn
    simp only [hn]
    refine Wp.ite (fun h6 => ?_) (fun h6 => ?_)
    · obtain ⟨l, hl⟩ := packLetter_lt (i := n / 10) (by omega)
      obtain ⟨l2, hl2⟩ := packLetter_lt (i := digitsVal y1) (by omega)
      simp only [hl, hl2, g2, g3, g4]
      refine OptAll.some ?_
      have := padded_length (k := 1) (n := n - 10 * (n / 10)) (by omega) (by omega)
      simp at this
      simp [GoodProv, this]; omega
    · obtain ⟨g5, hd, hdv, hdd⟩ := hn' (by omega)
      simp only [g4, hi, g5, hd]
      refine Wp.ite (fun _ => Or.inl rfl) (fun _ => ?_)
      simp only [g2, g3, hy2]
      by_cases h62 : digitsVal y2 < 62
      · obtain ⟨l2, hl2⟩ := packLetter_lt h62
        simp only [hl2]
        refine OptAll.some ?_
        simp [GoodProv, radix_len]
      · rw [packLetter_ge (by omega)]
        refine Or.inr (Or.inr ⟨rfl, Or.inr ⟨y1 ++ y2, h, o, ds, t, ?_, ⟨?_, ?_⟩, ?_, hdd, by omega, ht⟩⟩)
        · simp
        · simp; omega
        · simp only [List.mem_append]; rintro c (hc | hc)
          · exact a3 c hc
          · exact b3 c hc
        · rw [List.drop_left' (by omega)]; omega

theorem packProvSurvey_wp (s : Str) {acc : Option Half} (ha : OptAll GoodProv acc) : Wp (packProvSurvey s acc) (OptAll GoodProv) (ProvErr s) := by
  unfold packProvSurvey
  split
  · exact ha
  · rename_i m hm
    have hs := reMatch_shape hm
    simp only [minorplanetSurveyProvIDRegex, cat, times, Re.shape] at hs
    obtain ⟨_, _, ⟨u, _, ⟨hu1, hu2, hu⟩, rfl, rfl⟩, ⟨_, _, rfl, ⟨_, _, ⟨v, k, hv, hk, rfl⟩, rfl, rfl⟩, rfl⟩, rfl⟩ := hs
    have := alts4_lit_shape hk
    subst this
    have hu2 := hu2 4 rfl
    obtain ⟨hn, hn'⟩ := pyNat_digits (s := u) (by rintro rfl; simp at hu1) hu
    rw [show u.length = 4 by omega] at hn'
    have hc : ∃ c d, charAt v 0 = .ok c ∧ charAt v 2 = .ok d := by
      rcases alts4_lit_lang hv with rfl | rfl | rfl | rfl <;> exact ⟨_, _, rfl, rfl⟩
    obtain ⟨c, d, hc, hd⟩ := hc
    simp [grp!, group, bind, Except.bind, hn, hc, hd]
    refine OptAll.some ?_
    have := padded_length (k := 4) (n := digitsVal u) (by omega) hn'
    simp at this
    simp [GoodProv, this]

theorem digitsVal_zero_cons (s : Str) (h : ∀ c ∈ s, isDec c = true) : ∃ n, pyNat ('0' :: s) = .ok n := by
  obtain ⟨n, hn, -⟩ := pyNat_total (s := '0' :: s) (by simp) (by simp only [List.mem_cons]; rintro c (rfl | hc); · decide
                                                                 · exact h c hc)
  exact ⟨n, hn⟩

/-- the century letter of a comet or satellite year -/
theorem centuryDigits {y : Str} (h : FourDigits y) :
    ∃ n, pyNat (slice y 0 2) = .ok n ∧ n = digitsVal (y.take 2) := by
  obtain ⟨h1, h2⟩ := h
  have e : slice y 0 2 = y.take 2 := by simp [slice]
  rw [e]
  have := pyNat_digits (s := y.take 2) (by rintro e; have := congrArg List.length e; rw [List.length_take, h1] at this; simp at this) (fun c hc => h2 c (List.mem_of_mem_take hc))
  exact ⟨_, this.1, rfl⟩

theorem packProvComet_wp (s : Str) {acc : Option Half} (ha : OptAll GoodProv acc) : Wp (packProvComet s acc) (OptAll GoodProv) (ProvErr s) := by
  unfold packProvComet
  split
  · exact ha
  · rename_i m hm
    obtain ⟨c, t, rfl, hp⟩ := reMatch_parse hm
    simp only [cometProvIDRegex, cat, times, star, opt, Re.parse] at hp
    obtain ⟨_, _, _, _, ⟨_, ⟨⟨ty, hty, rfl⟩, rfl⟩, rfl⟩, ⟨_, _, _, _, ⟨⟨_, hsl, rfl⟩, rfl⟩, ⟨y, _, _, _, ⟨_, ⟨⟨b1, b2, b3⟩, rfl⟩, rfl⟩, ⟨_, _, _, _, ⟨⟨_, hsp, rfl⟩, rfl⟩, ⟨_, _, _, _, ⟨_, ⟨⟨h, hh, rfl⟩, rfl⟩, rfl⟩, ⟨oo, _, k, _, ho, ⟨ds, _, _, _, ⟨_, ⟨⟨-, -, d3⟩, rfl⟩, rfl⟩, ⟨rfl, rfl, ht⟩, rfl, rfl⟩, rfl, rfl⟩, rfl, rfl⟩, rfl, rfl⟩, rfl, rfl⟩, rfl, rfl⟩, rfl, rfl⟩ := hp
    have b2 := b2 4 rfl
    have hsp := (ch_iff _ _).mp hsp
    have hsl := (ch_iff _ _).mp hsl
    subst hsp hsl
    have hy : FourDigits y := ⟨by omega, b3⟩
    obtain ⟨n, hn⟩ := digitsVal_zero_cons ds d3
    obtain ⟨cy, hcy, hcy'⟩ := centuryDigits hy
    have key : ∃ ex : Str, ex.length = 1 ∧ Wp (do
        let n1 := n / 10
        let n2 := n - n1 * 10
        if n1 > 61 then raiseRT
        else
          let y1 ← packLetter cy
          return some (⟨[ty] ++ [y1] ++ slice y 2 4 ++ [h] ++ [← packLetter n1] ++ [← packLetter n2] ++ ex, if [ty] = c! "A" then .A else .C, []⟩ : Half))
        (OptAll GoodProv) (ProvErr ([ty] ++ (['/'] ++ (y ++ ([' '] ++ ([h] ++ (oo ++ (ds ++ [])))))) ++ t)) ∧
        ex = (if truthy (group ((1, [ty]) :: [] ++ ([] ++ ((2, y) :: [] ++ ([] ++ ((3, [h]) :: [] ++ (k ++ ((5, ds) :: [] ++ []))))))) 4) = true then
          (group ((1, [ty]) :: [] ++ ([] ++ ((2, y) :: [] ++ ([] ++ ((3, [h]) :: [] ++ (k ++ ((5, ds) :: [] ++ []))))))) 4).getD [] else ['0']) := by
      have hex : ∃ ex : Str, ex.length = 1 ∧ ex = (if truthy (group ((1, [ty]) :: [] ++ ([] ++ ((2, y) :: [] ++ ([] ++ ((3, [h]) :: [] ++ (k ++ ((5, ds) :: [] ++ []))))))) 4) = true then
          (group ((1, [ty]) :: [] ++ ([] ++ ((2, y) :: [] ++ ([] ++ ((3, [h]) :: [] ++ (k ++ ((5, ds) :: [] ++ []))))))) 4).getD [] else ['0']) := by
        rcases ho with ⟨_, ⟨⟨o, ho, rfl⟩, rfl⟩, rfl⟩ | ⟨rfl, rfl⟩
        · exact ⟨[o], rfl, by simp [group, truthy]⟩
        · exact ⟨['0'], rfl, by simp [group, truthy]⟩
      obtain ⟨ex, he, hex⟩ := hex
      refine ⟨ex, he, ?_, hex⟩
      refine Wp.ite (fun _ => Or.inl rfl) (fun h6 => ?_)
      by_cases h62 : cy < 62
      · obtain ⟨l, hl⟩ := packLetter_lt h62
        obtain ⟨l1, hl1⟩ := packLetter_lt (i := n / 10) (by omega)
        obtain ⟨l2, hl2⟩ := packLetter_lt (i := n - n / 10 * 10) (by omega)
        simp only [hl, hl1, hl2, bind, Except.bind]
        refine OptAll.some ?_
        simp [GoodProv, slice, he]; omega
      · rw [packLetter_ge (by omega)]
        exact Or.inr (Or.inr ⟨rfl, Or.inl ⟨ty, y, h :: (oo ++ (ds ++ t)), by simp, hy, by omega⟩⟩)
    obtain ⟨ex, -, key, hex⟩ := key
    have hk5 : group ((1, [ty]) :: [] ++ ([] ++ ((2, y) :: [] ++ ([] ++ ((3, [h]) :: [] ++ (k ++ ((5, ds) :: [] ++ []))))))) 5 = some ds := by
      rcases ho with ⟨_, ⟨⟨o, ho, rfl⟩, rfl⟩, rfl⟩ | ⟨rfl, rfl⟩ <;> simp [group]
    simp only [← hex, grp_of hk5, grp_of (show group ((1, [ty]) :: [] ++ ([] ++ ((2, y) :: [] ++ ([] ++ ((3, [h]) :: [] ++ (k ++ ((5, ds) :: [] ++ []))))))) 1 = some [ty] by simp [group]),
      grp_of (show group ((1, [ty]) :: [] ++ ([] ++ ((2, y) :: [] ++ ([] ++ ((3, [h]) :: [] ++ (k ++ ((5, ds) :: [] ++ []))))))) 2 = some y by simp [group]),
      grp_of (show group ((1, [ty]) :: [] ++ ([] ++ ((2, y) :: [] ++ ([] ++ ((3, [h]) :: [] ++ (k ++ ((5, ds) :: [] ++ []))))))) 3 = some [h] by simp [group]),
      bind, Except.bind, hn, hcy] at key ⊢
    exact key

theorem packProvFragment_wp (s : Str) {acc : Option Half} (ha : OptAll GoodProv acc) : Wp (packProvFragment s acc) (OptAll GoodProv) (ProvErr s) := by
  unfold packProvFragment
  split
  · exact ha
  · rename_i m hm
    obtain ⟨c, t, rfl, hp⟩ := reMatch_parse hm
    simp only [cometfragmentProvIDRegex, cat, times, star, Re.parse] at hp
    obtain ⟨_, _, _, _, ⟨_, ⟨⟨ty, hty, rfl⟩, rfl⟩, rfl⟩, ⟨_, _, _, _, ⟨⟨_, hsl, rfl⟩, rfl⟩, ⟨y, _, _, _, ⟨_, ⟨⟨b1, b2, b3⟩, rfl⟩, rfl⟩, ⟨_, _, _, _, ⟨⟨_, hsp, rfl⟩, rfl⟩, ⟨_, _, _, _, ⟨_, ⟨⟨h, hh, rfl⟩, rfl⟩, rfl⟩, ⟨ds, _, _, _, ⟨_, ⟨⟨-, -, d3⟩, rfl⟩, rfl⟩, ⟨_, _, _, _, ⟨⟨_, hda, rfl⟩, rfl⟩, ⟨_, _, _, _, ⟨_, ⟨⟨f, hf, rfl⟩, rfl⟩, rfl⟩, ⟨rfl, rfl, ht⟩, rfl, rfl⟩, rfl, rfl⟩, rfl, rfl⟩, rfl, rfl⟩, rfl, rfl⟩, rfl, rfl⟩, rfl, rfl⟩, rfl, rfl⟩ := hp
    have b2 := b2 4 rfl
    have hsp := (ch_iff _ _).mp hsp
    have hsl := (ch_iff _ _).mp hsl
    have hda := (ch_iff _ _).mp hda
    subst hsp hsl hda
    have hy : FourDigits y := ⟨by omega, b3⟩
    obtain ⟨cy, hcy, hcy'⟩ := centuryDigits hy
    by_cases hds : ds = []
    · subst hds
      simp [grp!, group, bind, Except.bind, pyNat, intDigits]
      exact Or.inr (Or.inl ⟨rfl, ty, y, h, f, t, by simp, hy, ht⟩)
    · obtain ⟨hn, -⟩ := pyNat_digits hds d3
      simp [grp!, group, bind, Except.bind, hn, hcy]
      refine Wp.ite (fun _ => Or.inl rfl) (fun h6 => ?_)
      by_cases h62 : cy < 62
      · obtain ⟨l, hl⟩ := packLetter_lt h62
        obtain ⟨l1, hl1⟩ := packLetter_lt (i := digitsVal ds / 10) (by omega)
        obtain ⟨l2, hl2⟩ := packLetter_lt (i := digitsVal ds - digitsVal ds / 10 * 10) (by omega)
        simp only [hl, hl1, hl2]
        refine OptAll.some ?_
        simp [GoodProv, slice]; omega
      · rw [packLetter_ge (by omega)]
        exact Or.inr (Or.inr ⟨rfl, Or.inl ⟨ty, y, h :: (ds ++ '-' :: f :: t), by simp, hy, by omega⟩⟩)

theorem packProvSat_wp (s : Str) {acc : Option Half} (ha : OptAll GoodProv acc) : Wp (packProvSat s acc) (OptAll GoodProv) (ProvErr s) := by
  unfold packProvSat
  split
  · exact ha
  · rename_i m hm
    obtain ⟨c, t, rfl, hp⟩ := reMatch_parse hm
    simp only [satelliteProvIDRegex, cat, times, plus, Re.parse] at hp
    obtain ⟨_, _, _, _, ⟨⟨_, hS, rfl⟩, rfl⟩, ⟨_, _, _, _, ⟨⟨_, hsl, rfl⟩, rfl⟩, ⟨y, _, _, _, ⟨_, ⟨⟨b1, b2, b3⟩, rfl⟩, rfl⟩, ⟨_, _, _, _, ⟨⟨_, hsp, rfl⟩, rfl⟩, ⟨_, _, _, _, ⟨_, ⟨⟨h, hh, rfl⟩, rfl⟩, rfl⟩, ⟨_, _, _, _, ⟨⟨_, hsp2, rfl⟩, rfl⟩, ⟨ds, _, _, _, ⟨_, ⟨⟨d1, -, d3⟩, rfl⟩, rfl⟩, ⟨rfl, rfl, ht⟩, rfl, rfl⟩, rfl, rfl⟩, rfl, rfl⟩, rfl, rfl⟩, rfl, rfl⟩, rfl, rfl⟩, rfl, rfl⟩ := hp
    have b2 := b2 4 rfl
    have hsp := (ch_iff _ _).mp hsp
    have hsl := (ch_iff _ _).mp hsl
    have hsp2 := (ch_iff _ _).mp hsp2
    have hS := (ch_iff _ _).mp hS
    subst hsp hsl hsp2 hS
    have hy : FourDigits y := ⟨by omega, b3⟩
    obtain ⟨cy, hcy, hcy'⟩ := centuryDigits hy
    obtain ⟨hn, -⟩ := pyNat_digits (s := ds) (by rintro rfl; simp at d1) d3
    simp [grp!, group, bind, Except.bind, hn, hcy]
    refine Wp.ite (fun _ => Or.inl rfl) (fun h6 => Wp.ite (fun _ => Or.inl rfl) (fun h0 => ?_))
    by_cases h62 : cy < 62
    · obtain ⟨l, hl⟩ := packLetter_lt h62
      obtain ⟨l1, hl1⟩ := packLetter_lt (i := digitsVal ds / 10) (by omega)
      obtain ⟨l2, hl2⟩ := packLetter_lt (i := digitsVal ds - digitsVal ds / 10 * 10) (by omega)
      simp only [hl, hl1, hl2]
      refine OptAll.some ?_
      simp [GoodProv, slice]; omega
    · rw [packLetter_ge (by omega)]
      exact Or.inr (Or.inr ⟨rfl, Or.inl ⟨'S', y, h :: ' ' :: (ds ++ t), by simp, hy, by omega⟩⟩)

theorem packProv_wp (s : Str) : Wp (packProv (some s)) (OptAll GoodProv) (ProvErr s) := by
  simp only [packProv]
  refine Wp.bind (packProvMinor_wp s (by intro h e; simp at e)) fun a _ ha => ?_
  refine Wp.bind (packProvSurvey_wp s ha) fun a _ ha => ?_
  refine Wp.bind (packProvComet_wp s ha) fun a _ ha => ?_
  refine Wp.bind (packProvFragment_wp s ha) fun a _ ha => ?_
  refine Wp.bind (packProvSat_wp s ha) fun a _ ha => ?_
  split
  · exact Wp.ite (fun _ => Or.inl rfl) (fun _ => ha)
  · exact Or.inl rfl

theorem packTrk_wp (o : Option Str) (p q : Option Half) : Wp (packTrk o p q) (fun r => ∀ t, r = some t → t.length ≤ 7) IsRT := by
  unfold packTrk
  split
  · rename_i t
    have : ∀ t', (match reMatch trksubRegex t with
        | some m => if ((group m 1).getD []).length > 7 then some (((group m 1).getD []).drop 1) else some ((group m 1).getD [])
        | none => none) = some t' → t'.length ≤ 7 := by
      intro t' e
      split at e
      · rename_i m hm
        have hs := reMatch_shape hm
        simp only [trksubRegex, cat, Re.shape, Re.lang] at hs
        obtain ⟨_, _, ⟨u, _, ⟨-, hu2, -⟩, rfl, rfl⟩, rfl, rfl⟩ := hs
        have := hu2 8 rfl
        simp [group] at e
        split at e <;> injection e with e <;> subst e
        · simp; omega
        · omega
      · simp at e
    refine Wp.ite (fun _ => this) (fun _ => Wp.ite (fun _ => this) (fun _ => rfl))
  · intro t e; simp at e

/-- exceptions of `packTupleID` -/
def PackErr (t : IDs) (e : PyErr) : Prop := e = .runtimeError ∨ ∃ s, t.provID = some s ∧ ProvErr s e

theorem packTupleID_wp (t : IDs) : Wp (packTupleID t) (fun s => s.length = 12) (PackErr t) := by
  obtain ⟨a, b, c⟩ := t
  simp only [packTupleID]
  refine Wp.bind ((packPerm_wp a).mono (fun _ h => h) (fun e h => Or.inl h)) fun p _ hp => ?_
  have hq : Wp (packProv b) (OptAll GoodProv) (PackErr ⟨a, b, c⟩) := by
    cases b with
    | none => intro h e; simp at e
    | some s => exact (packProv_wp s).mono (fun _ h => h) (fun e h => Or.inr ⟨s, rfl, h⟩)
  refine Wp.bind hq fun q _ hq => ?_
  refine Wp.bind ((packTrk_wp c p q).mono (fun _ h => h) (fun e h => Or.inl h)) fun r _ hr => ?_
  cases p with
  | some p =>
    obtain ⟨hp1, hp2⟩ := hp p rfl
    cases q with
    | some q =>
      have hq := hq q rfl
      refine Wp.ite (fun _ => Or.inl rfl) (fun _ => Wp.ite (fun _ => Or.inl rfl) (fun _ => ?_))
      simp only [GoodProv] at hq
      show (p.text ++ q.text.drop 1).length = 12
      simp [hp1, hq]
    | none =>
      refine Wp.ite (fun _ => Or.inl rfl) (fun _ => Wp.ite (fun hF => ?_) (fun _ => ?_))
      · show ((p.text ++ c! "       ").take 10 ++ List.map asciiLower (if p.frag.length = 1 then ' ' :: p.frag else p.frag)).length = 12
        have := hp2 hF
        split <;> simp [hp1] <;> omega
      · show (p.text ++ c! "       ").length = 12
        simp [hp1]
  | none =>
    cases q with
    | some q =>
      have hq := hq q rfl
      show (c! "    " ++ q.text).length = 12
      simp only [GoodProv] at hq
      simp [hq]
    | none =>
      refine Wp.ite (fun h => ?_) (fun _ => Or.inl rfl)
      cases r with
      | none => simp [truthy] at h
      | some t =>
        have := hr t rfl
        show (ljust 12 (c! "     " ++ t)).length = 12
        simp [ljust]; omega

end Verif
