import Verif.MasterTables
import Verif.Props.Schema
import Verif.Props.Psv
/-!
  C33: the tables derived from adesmaster.xml agree with the schema derived from it.
-/
namespace Verif
open Verif.Xml Verif.Spec Verif.Master Verif.Psv

/-- the tables of psvtoxml -/
def adesTab : Tab := ⟨adesTables.allowed, adesTables.required⟩

/-- the observation types and their columns -/
def adesTypes : Types := typesOf adesTab

/-- the observation elements -/
def obsKinds : List Str := [c! "optical", c! "offset", c! "occultation", c! "radar", c! "opticalResidual", c! "radarResidual"]

/-- the complex type of an element -/
def typeName (t : Str) : Str := (Spec.lookup generalSchema.elements t).getD []

namespace C33

/-- all that is checked by computation, for one observation element -/
def orderB (t : Str) : Bool := ((Spec.lookup generalSchema.complex (typeName t)).bind fun c => Check.after generalSchema 80 (.seq c.content) (adesTypes.allowed t)).isSome
def contentOf (t : Str) : List Particle := ((Spec.lookup generalSchema.complex (typeName t)).map (·.content)).getD []
def requiredB (t : Str) : Bool := (adesTypes.required t).all fun n => Check.needs generalSchema (fun m => m = n) 80 (.seq (contentOf t))
def exactB (t : Str) : Bool := (adesTypes.allowed t).all fun n => (Check.wordWith generalSchema n 80 (.seq (contentOf t))).isSome

set_option maxRecDepth 10000
theorem order_ok : obsKinds.all orderB = true := by decide +kernel
theorem required_ok : obsKinds.all requiredB = true := by decide +kernel
theorem exact_ok : obsKinds.all exactB = true := by decide +kernel

/-- the types tried after `t` by the header classification -/
def later (t : Str) : List Str := (adesTypes.kinds.dropWhile (· ≠ t)).tail
def headerB (t : Str) : Bool := (later t).all fun t' => Check.needs generalSchema (fun n => n ∉ adesTypes.allowed t') 80 (.seq (contentOf t))
theorem header_ok : obsKinds.all headerB = true := by decide +kernel

theorem split_at {t : Str} : ∀ {l : List Str}, t ∈ l → ∃ a, l = a ++ t :: (l.dropWhile (· ≠ t)).tail
  | [], h => by simp at h
  | x :: l, h => by
    by_cases e : x = t
    · subst e; exact ⟨[], by simp [List.dropWhile]⟩
    · obtain ⟨a, ha⟩ := split_at (t := t) (l := l) (by simpa [Ne.symm e] using h)
      refine ⟨x :: a, ?_⟩
      simp only [List.dropWhile, e, ne_eq, not_false_eq_true, decide_true, List.cons_append]
      rw [← ha]

theorem kinds_eq : adesTypes.kinds = obsKinds ++ [c! "obsBlock"] := by decide +kernel

theorem dictGet_mem {β : Type} {d : List (Str × β)} {k : Str} {v : β} (h : PackUtil.dictGet d k = some v) : (k, v) ∈ d := by
  unfold PackUtil.dictGet at h
  simp only [Option.map_eq_some_iff] at h
  obtain ⟨⟨a, b⟩, h1, h2⟩ := h
  simp at h2; subst h2
  have h3 := List.find?_some h1
  have h4 := List.mem_of_find?_eq_some h1
  simp at h3 h4
  subst h3; exact h4

theorem typeName_complex : obsKinds.all (fun t => (Spec.lookup generalSchema.complex (typeName t)).isSome && (Spec.lookup generalSchema.elements t).isSome) = true := by decide +kernel

/-- the words of an element valid for a type -/
theorem word_of_valid {F : Facets} {t : Str} {e : Elem} (ht : t ∈ obsKinds) (hv : Valid F generalSchema (.typed (typeName t) e)) :
    ∃ w, Matches generalSchema (.seq (contentOf t)) w ∧ Valid F generalSchema (.kids w e.kids) := by
  have hc := List.all_eq_true.mp typeName_complex t ht
  simp only [Bool.and_eq_true] at hc
  cases hv with
  | simple hl _ => rw [hl] at hc; simp at hc
  | complex hl _ _ hm hk =>
    refine ⟨_, ?_, hk⟩
    unfold contentOf
    rw [hl]
    exact hm

end C33

/-- the tables are those `readAdesTables` computes from the master file (tableades.xslt with recursion depth 12 is enough) -/
theorem C33_tables : (tableLines adesmaster 12).map readAdesTables = some (.ok adesTables) := adesTables_eq

/-- the tables are complete -/
theorem adesTab_wf : Tab.WF adesTab where
  kinds := ⟨_, rfl⟩
  lists := by
    have h : (order adesTab (c! "ades")).all (fun k => (PackUtil.dictGet adesTab.allowed k).isSome && (PackUtil.dictGet adesTab.required k).isSome && !k.isEmpty) = true := by decide +kernel
    intro k hk
    have := List.all_eq_true.mp h k hk
    simp only [Bool.and_eq_true, Option.isSome_iff_exists, Bool.not_eq_true', List.isEmpty_eq_false_iff] at this
    exact ⟨this.1.1, this.1.2, this.2⟩

/-- no name is listed twice -/
theorem adesTypes_nodup (t : Str) : (adesTypes.allowed t).Nodup := by
  have h : adesTables.allowed.all (fun p => decide p.2.Nodup) = true := by decide +kernel
  show ((PackUtil.dictGet adesTab.allowed t).getD []).Nodup
  cases hd : PackUtil.dictGet adesTab.allowed t with
  | none => exact List.nodup_nil
  | some l => simpa using List.all_eq_true.mp h _ (C33.dictGet_mem hd)

/-- C33: required names are allowed -/
theorem C33_required_allowed (t n : Str) (h : n ∈ adesTypes.required t) : n ∈ adesTypes.allowed t := by
  have hb : adesTables.required.all (fun p => p.2.all fun n => decide (n ∈ adesTypes.allowed p.1)) = true := by decide +kernel
  change n ∈ (PackUtil.dictGet adesTab.required t).getD [] at h
  cases hd : PackUtil.dictGet adesTab.required t with
  | none => rw [hd] at h; simp at h
  | some l =>
    rw [hd] at h
    have := List.all_eq_true.mp hb _ (C33.dictGet_mem hd)
    simpa using List.all_eq_true.mp this n h

/-- C33: the sub-elements of every valid observation come in the order of the table, each at most once -/
theorem C33_order (F : Facets) (t : Str) (ht : t ∈ obsKinds) (e : Elem) (hv : Valid F (schema .general adesmaster) (.typed (typeName t) e)) :
    (e.kids.map Elem.tag).Sublist (adesTypes.allowed t) := by
  rw [generalSchema_eq] at hv
  have h := List.all_eq_true.mp C33.order_ok t ht
  unfold C33.orderB at h
  obtain ⟨r, hr⟩ := Option.isSome_iff_exists.mp h
  exact order_of_check hr hv

/-- C33: every valid observation has all required names -/
theorem C33_required (F : Facets) (t : Str) (ht : t ∈ obsKinds) (e : Elem) (hv : Valid F (schema .general adesmaster) (.typed (typeName t) e)) :
    ∀ n ∈ adesTypes.required t, n ∈ e.kids.map Elem.tag := by
  rw [generalSchema_eq] at hv
  intro n hn
  obtain ⟨w, hm, hk⟩ := C33.word_of_valid ht hv
  have h := List.all_eq_true.mp C33.required_ok t ht
  obtain ⟨m, h1, h2⟩ := Check.needs_sound _ _ _ _ (List.all_eq_true.mp h n hn) w hm
  simp at h1; subst h1
  exact Check.kids_mem hk h2

/-- C33: every allowed name can occur -/
theorem C33_exact (t : Str) (ht : t ∈ obsKinds) (n : Str) (hn : n ∈ adesTypes.allowed t) :
    ∃ c w, Spec.lookup (schema .general adesmaster).complex (typeName t) = some c ∧ Matches (schema .general adesmaster) (.seq c.content) w ∧ some n ∈ w.map (Option.map Prod.fst) := by
  rw [generalSchema_eq]
  have hc := List.all_eq_true.mp C33.typeName_complex t ht
  simp only [Bool.and_eq_true] at hc
  obtain ⟨c, hl⟩ := Option.isSome_iff_exists.mp hc.1
  have h := List.all_eq_true.mp (List.all_eq_true.mp C33.exact_ok t ht) n hn
  obtain ⟨w, hw⟩ := Option.isSome_iff_exists.mp h
  have := Check.wordWith_sound _ _ _ _ _ hw
  unfold C33.contentOf at this
  rw [hl] at this
  exact ⟨c, w, hl, this.1, this.2⟩

/-- C33: column names that contain the names of some valid observation of type `t` and are all allowed in `t` are classified as `t` -/
theorem C33_header (F : Facets) (t : Str) (ht : t ∈ obsKinds) (e : Elem) (hv : Valid F (schema .general adesmaster) (.typed (typeName t) e)) (h : List Str)
    (h1 : ∀ n ∈ e.kids.map Elem.tag, n ∈ h) (h2 : ∀ n ∈ h, n ∈ adesTypes.allowed t) : adesTypes.Is h t := by
  have hreq := C33_required F t ht e hv
  rw [generalSchema_eq] at hv
  obtain ⟨w, hm, hk⟩ := C33.word_of_valid ht hv
  obtain ⟨a, ha⟩ := C33.split_at (t := t) (l := adesTypes.kinds) (by rw [C33.kinds_eq]; simp [ht])
  refine ⟨a, _, ha, ⟨h2, fun n hn => h1 n (hreq n hn)⟩, fun t' ht' hs => ?_⟩
  have hb := List.all_eq_true.mp (List.all_eq_true.mp C33.header_ok t ht) t' ht'
  obtain ⟨n, hn1, hn2⟩ := Check.needs_sound _ _ _ _ hb w hm
  simp at hn1
  exact hn1 (hs.1 n (h1 n (Check.kids_mem hk hn2)))

/-- listing the sub-elements in the order of a list that already orders them changes nothing -/
theorem reorder {f : Str → Option Elem} : ∀ {kids : List Elem} {o : List Str}, (kids.map Elem.tag).Sublist o → o.Nodup → (∀ k ∈ kids, f k.tag = some k) →
    (∀ n ∈ o, n ∉ kids.map Elem.tag → f n = none) → o.filterMap f = kids := by
  intro kids o hs
  generalize htags : kids.map Elem.tag = tags at hs
  induction hs generalizing kids with
  | slnil => simp at htags; subst htags; simp
  | @cons l1 l2 a hs ih =>
    subst htags
    intro hn hk ho
    have hna : a ∉ kids.map Elem.tag := fun hm => (List.nodup_cons.mp hn).1 (hs.subset hm)
    rw [List.filterMap_cons_none (ho a (by simp) hna)]
    exact ih rfl (List.nodup_cons.mp hn).2 hk fun n hn' => ho n (by simp [hn'])
  | @cons_cons l1 l2 a hs ih =>
    intro hn hk ho
    cases kids with
    | nil => simp at htags
    | cons k kids =>
      simp only [List.map_cons, List.cons.injEq] at htags
      obtain ⟨e1, e2⟩ := htags
      subst e1
      rw [List.filterMap_cons_some (hk k (by simp))]
      congr 1
      refine ih e2 (List.nodup_cons.mp hn).2 (fun k' hk' => hk k' (by simp [hk'])) fun n hn' hnk => ho n (by simp [hn']) ?_
      simp only [List.mem_cons, not_or]
      refine ⟨fun e => (List.nodup_cons.mp hn).1 (e ▸ hn'), hnk⟩

/-- a row (of the columns `h`) has exactly the values of the sub-elements of an observation -/
def RowHas (h cells : List Str) (kids : List Elem) : Prop :=
  ∀ n v, v ≠ [] → ((n, v) ∈ h.zip cells ↔ .mk n (some v) [] [] ∈ kids)

/-- C33: a row with the values of a valid observation, whatever the order of its columns, becomes exactly that observation -/
theorem C33_row (F : Facets) (t : Str) (ht : t ∈ obsKinds) (kids : List Elem) (hv : Valid F (schema .general adesmaster) (.typed (typeName t) (.mk t none [] kids)))
    (hleaf : ∀ k ∈ kids, ∃ v, v ≠ [] ∧ k = .mk k.tag (some v) [] []) (h cells : List Str) (hn : h.Nodup) (hrow : RowHas h cells kids) :
    rowElem adesTypes.allowed t h cells = .mk t none [] kids := by
  have hs := C33_order F t ht _ hv
  unfold rowElem rowKids
  congr 1
  refine reorder hs (adesTypes_nodup t) (fun k hk => ?_) fun n _ hnk => ?_
  · obtain ⟨v, h1, h2⟩ := hleaf k hk
    have : (k.tag, v) ∈ h.zip cells := (hrow _ _ h1).mpr (h2 ▸ hk)
    rw [cell_some hn this]
    simp only [h1, if_false]
    rw [← h2]
  · cases hc : cell h cells n with
    | none => rfl
    | some v =>
      by_cases hv : v = []
      · simp [hv]
      · exfalso
        have := (hrow n v hv).mp (cell_mem hc)
        exact hnk (List.mem_map.mpr ⟨_, this, rfl⟩)

/-! ### for every master file -/

theorem dictGet_append {β : Type} (d d' : List (Str × β)) (k : Str) : PackUtil.dictGet (d ++ d') k = (PackUtil.dictGet d' k).or (PackUtil.dictGet d k) := by
  unfold PackUtil.dictGet
  rw [List.reverse_append, List.find?_append]
  cases List.find? (fun x => x.1 == k) d'.reverse <;> simp

theorem dictGet_none {β : Type} {d : List (Str × β)} {k : Str} : PackUtil.dictGet d k = none ↔ ∀ p ∈ d, p.1 ≠ k := by
  unfold PackUtil.dictGet
  simp

theorem dictGet_map {β γ : Type} (d : List (Str × β)) (g : Str → β → γ) (k : Str) : PackUtil.dictGet (d.map fun p => (p.1, g p.1 p.2)) k = (PackUtil.dictGet d k).map (g k) := by
  induction d with
  | nil => rfl
  | cons p d ih =>
    have e1 := dictGet_append [p] d k
    have e2 := dictGet_append [(p.1, g p.1 p.2)] (d.map fun p => (p.1, g p.1 p.2)) k
    simp only [List.singleton_append] at e1 e2
    rw [List.map_cons, e1, e2, ih]
    cases PackUtil.dictGet d k with
    | some v => rfl
    | none =>
      by_cases hk : p.1 = k
      · subst hk; simp [PackUtil.dictGet]
      · simp [PackUtil.dictGet, hk]

theorem dictGet_dictSet {β : Type} (d : List (Str × β)) (k : Str) (v : β) (k' : Str) :
    PackUtil.dictGet (dictSet d k v) k' = if k' = k then some v else PackUtil.dictGet d k' := by
  unfold dictSet
  split
  · next h =>
    have : (d.map fun p => if p.1 = k then (k, v) else p) = d.map fun p => (p.1, (fun a b => if a = k then v else b) p.1 p.2) := by
      apply List.map_congr_left
      intro p _
      by_cases hp : p.1 = k <;> simp [hp]
    rw [this, dictGet_map d (fun a b => if a = k then v else b)]
    by_cases hk : k' = k
    · subst hk
      simp only [if_true]
      cases hd : PackUtil.dictGet d k' with
      | some x => rfl
      | none =>
        obtain ⟨p, hp, hpk⟩ := List.any_eq_true.mp h
        exact absurd (by simpa using hpk) (dictGet_none.mp hd p hp)
    · simp [hk]
  · next h =>
    rw [dictGet_append]
    by_cases hk : k' = k
    · subst hk; simp [PackUtil.dictGet]
    · simp [PackUtil.dictGet, hk, Ne.symm hk]

namespace C33

def getL (d : List (Str × List Str)) (k : Str) : List Str := (PackUtil.dictGet d k).getD []

/-- required names are allowed -/
def Inv (t : Tables) : Prop := ∀ k, ∀ n ∈ getL t.required k, n ∈ getL t.allowed k

theorem getL_set (d : List (Str × List Str)) (k : Str) (v : List Str) (k' : Str) : getL (dictSet d k v) k' = if k' = k then v else getL d k' := by
  unfold getL
  rw [dictGet_dictSet]
  split <;> rfl

theorem appendTo_inv {d d' : List (Str × List Str)} {k x : Str} (h : appendTo d k x = .ok d') : d' = dictSet d k (getL d k ++ [x]) := by
  unfold appendTo getItem at h
  unfold getL
  cases hd : PackUtil.dictGet d k with
  | none => rw [hd] at h; cases h
  | some l => rw [hd] at h; cases h; rfl

theorem line_inv {t t' : Tables} {ws : List Str} (ht : Inv t) (h : readTableLine t ws = .ok t') : Inv t' := by
  unfold readTableLine at h
  obtain ⟨w0, _, h⟩ := bind_ok.mp h
  split at h
  · obtain ⟨e, _, h⟩ := bind_ok.mp h
    cases h
    intro k n hn
    simp only [getL_set] at hn ⊢
    split at hn
    · simp at hn
    · next hk => rw [if_neg hk]; exact ht k n hn
  split at h
  · obtain ⟨w1, _, h⟩ := bind_ok.mp h
    split at h
    · cases h; exact ht
    · obtain ⟨w3, _, h⟩ := bind_ok.mp h
      split at h <;> (cases h; exact ht)
  split at h
  · cases h; exact ht
  split at h
  · obtain ⟨e, _, h⟩ := bind_ok.mp h
    obtain ⟨cur, _, h⟩ := bind_ok.mp h
    obtain ⟨a, ha, h⟩ := bind_ok.mp h
    have ha := appendTo_inv ha
    have h1 : Inv { t with allowed := a } := by
      subst ha
      intro k n hn
      simp only [getL_set]
      split
      · next hk => subst hk; exact List.mem_append_left _ (ht _ n hn)
      · exact ht k n hn
    obtain ⟨sr, _, h⟩ := bind_ok.mp h
    split at h
    · obtain ⟨w3, _, h⟩ := bind_ok.mp h
      split at h
      · obtain ⟨r, hr, h⟩ := bind_ok.mp h
        have hr := appendTo_inv hr
        cases h
        intro k n hn
        subst hr
        simp only [getL_set] at hn
        split at hn
        · next hk =>
          subst hk
          rcases List.mem_append.mp hn with hn | hn
          · exact h1 _ n hn
          · simp at hn; subst hn; subst ha; simp [getL_set]
        · exact h1 k n hn
      · cases h; exact h1
    · cases h; exact h1
  split at h
  · obtain ⟨_, _, h⟩ := bind_ok.mp h
    obtain ⟨_, _, h⟩ := bind_ok.mp h
    obtain ⟨_, _, h⟩ := bind_ok.mp h
    obtain ⟨_, _, h⟩ := bind_ok.mp h
    obtain ⟨_, _, h⟩ := bind_ok.mp h
    obtain ⟨_, _, h⟩ := bind_ok.mp h
    obtain ⟨_, _, h⟩ := bind_ok.mp h
    obtain ⟨_, _, h⟩ := bind_ok.mp h
    cases h; exact ht
  · cases h; exact ht

theorem lines_inv : ∀ {lines : List (List Str)} {t t' : Tables}, Inv t → lines.foldlM readTableLine t = .ok t' → Inv t'
  | [], t, t', ht, h => by cases h; exact ht
  | l :: ls, t, t', ht, h => by
    rw [List.foldlM_cons] at h
    obtain ⟨t1, h1, h2⟩ := bind_ok.mp h
    exact lines_inv (line_inv ht h1) h2

theorem mem_firsts {x : Str} : ∀ {l : List Str}, x ∈ firsts l ↔ x ∈ l
  | [] => by simp [firsts]
  | y :: l => by
    simp only [firsts, List.mem_cons, List.mem_filter, mem_firsts, decide_eq_true_eq]
    by_cases h : x = y <;> simp [h]

theorem nodup_firsts : ∀ (l : List Str), (firsts l).Nodup
  | [] => by simp [firsts]
  | y :: l => by
    simp only [firsts, List.nodup_cons, List.mem_filter]
    refine ⟨by simp, (nodup_firsts l).filter _⟩

theorem mem_lasts {x : Str} {l : List Str} : x ∈ lasts l ↔ x ∈ l := by simp [lasts, mem_firsts]

theorem nodup_lasts (l : List Str) : (lasts l).Nodup := by
  unfold lasts
  exact (List.pairwise_reverse.mpr ((nodup_firsts _).imp fun h => h.symm))

end C33

/-- C33, whatever the table lines are: if the tables can be read at all, no list has a name twice and everything required is allowed -/
theorem C33_any_tables (lines : List (List Str)) (t : Tables) (h : readAdesTables lines = .ok t) :
    (∀ k l, PackUtil.dictGet t.allowed k = some l → l.Nodup) ∧ (∀ k l, PackUtil.dictGet t.required k = some l → l.Nodup) ∧
    ∀ k n, n ∈ (PackUtil.dictGet t.required k).getD [] → n ∈ (PackUtil.dictGet t.allowed k).getD [] := by
  unfold readAdesTables at h
  obtain ⟨t0, h0, h⟩ := bind_ok.mp h
  cases h
  have hi : C33.Inv t0 := C33.lines_inv (fun k n hn => by simp [C33.getL, PackUtil.dictGet] at hn) h0
  have e1 := fun k => dictGet_map t0.allowed (fun _ l => lasts l) k
  have e2 := fun k => dictGet_map t0.required (fun _ l => lasts l) k
  simp only [e1, e2]
  refine ⟨fun k l hl => ?_, fun k l hl => ?_, fun k n hn => ?_⟩
  · obtain ⟨x, _, rfl⟩ := Option.map_eq_some_iff.mp hl; exact C33.nodup_lasts x
  · obtain ⟨x, _, rfl⟩ := Option.map_eq_some_iff.mp hl; exact C33.nodup_lasts x
  · have := hi k n
    unfold C33.getL at this
    cases hr : PackUtil.dictGet t0.required k with
    | none => rw [hr] at hn; simp at hn
    | some r =>
      rw [hr] at hn this
      have hn := this (C33.mem_lasts.mp hn)
      cases ha : PackUtil.dictGet t0.allowed k with
      | none => rw [ha] at hn; simp at hn
      | some a => rw [ha] at hn; simpa [C33.mem_lasts] using hn

/-! ### the PSV formats -/

/-- the PSV format names that the table of the type does not allow -/
def notAllowed (t : Str) : List Str := (((PackUtil.dictGet adesTables.psv t).getD []).map (·.1)).filter fun n => n ∉ adesTypes.allowed t

/-- C33: all PSV formats are well formed, but formats exist for names that no observation of the type can have (misspelt `rmsdist`, ...),
    `astCat` has two for `offset`, and the residual types have none at all -/
theorem C33_psv_formats :
    (∀ p ∈ adesTables.psv, ∀ x ∈ p.2, 0 ≤ x.2.1 ∧ x.2.2.1 ∈ [c! "L", c! "R", c! "D"] ∧ 0 ≤ x.2.2.2) ∧
    notAllowed (c! "optical") = [] ∧ notAllowed (c! "radar") = [] ∧
    notAllowed (c! "offset") = [c! "rmsdist", c! "astCat", c! "astCat"] ∧ notAllowed (c! "occultation") = [c! "obsCenter", c! "rmsdist", c! "exp"] ∧
    adesTables.psv.map (·.1) = [c! "optical", c! "offset", c! "occultation", c! "radar"] := by
  refine ⟨?_, ?_, ?_, ?_, ?_, ?_⟩ <;> decide +kernel

/-! ### a concrete case -/

/-- the hypotheses of the theorems above are met by an observation with ten values, given in another column order, with an empty column -/
theorem C33_sample : rowElem adesTypes.allowed (c! "optical") [c! "stn", c! "mode", c! "permID", c! "mag", c! "obsTime", c! "dec", c! "ra", c! "astCat", c! "band", c! "provID"]
      [c! "568", c! "CCD", c! "433", c! "21.9", c! "2016-08-29T12:23:34.12Z", c! "-12.5", c! "215.1", c! "Gaia3", c! "G", []] =
    .mk (c! "optical") none [] [leaf (c! "permID") (c! "433"), leaf (c! "mode") (c! "CCD"), leaf (c! "stn") (c! "568"), leaf (c! "obsTime") (c! "2016-08-29T12:23:34.12Z"),
      leaf (c! "ra") (c! "215.1"), leaf (c! "dec") (c! "-12.5"), leaf (c! "astCat") (c! "Gaia3"), leaf (c! "mag") (c! "21.9"), leaf (c! "band") (c! "G")] := by
  have hv : Valid Check.lenient (schema .general adesmaster) (.typed (typeName (c! "optical")) (.mk (c! "optical") none [] [leaf (c! "permID") (c! "433"), leaf (c! "mode") (c! "CCD"), leaf (c! "stn") (c! "568"), leaf (c! "obsTime") (c! "2016-08-29T12:23:34.12Z"),
      leaf (c! "ra") (c! "215.1"), leaf (c! "dec") (c! "-12.5"), leaf (c! "astCat") (c! "Gaia3"), leaf (c! "mag") (c! "21.9"), leaf (c! "band") (c! "G")])) := by
    rw [generalSchema_eq]
    exact Check.validB_sound _ 80 _ _ (by decide +kernel)
  refine C33_row _ (c! "optical") (by decide) _ hv (by simp [leaf, Elem.tag]) _ _ (by decide) ?_
  intro n v hne
  simp only [List.zip, List.zipWith, leaf, List.mem_cons, List.not_mem_nil, or_false, Prod.mk.injEq, Elem.mk.injEq, and_true, Option.some.injEq]
  grind

end Verif
