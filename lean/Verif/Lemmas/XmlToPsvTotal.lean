import Verif.Lemmas.XmlToPsvRun
/-! When xmltopsv does not fail. -/
namespace Verif.ToPsv
open Verif Verif.Xml Verif.Spec Verif.Psv Verif.Master

/-- the columns of type `t` that the PSV formats declare to be text (left or right justified) -/
def textCols (t : Str) : List Str :=
  (((PackUtil.dictGet adesTables.psv t).getD []).filter fun f => f.2.2.1 = c! "L" ∨ f.2.2.1 = c! "R").map (·.1)

/-- at most one decimal point, unless it is in a text column -/
def DotOk (t n v : Str) : Prop := n ∈ textCols t ∨ v.count '.' ≤ 1

structure Fmt (t : Str) (ps : List Str) (info : List HItem) : Prop where
  psv : ∀ n ∈ textCols t, n ∈ ps ∧ ∃ it ∈ info, it.name = n
  item : ∀ it ∈ info, it.fmt ≠ .other ∧ 0 ≤ it.dpos ∧ (it.name ∈ textCols t → it.fmt ≠ .D)

theorem pj_ok {s : Str} {l : Int} {j : JType} {dpos : Int} (hj : j ≠ .other) (hd : 0 ≤ dpos) (hs : j = .D → s.count '.' ≤ 1) :
    ∃ r, applyPJ s l j dpos = .ok r ∧ 0 ≤ r.2.2 := by
  cases j with
  | L => exact ⟨_, rfl, hd⟩
  | R => exact ⟨_, rfl, hd⟩
  | C => exact ⟨_, rfl, hd⟩
  | other => exact absurd rfl hj
  | D =>
    have h2 := hs rfl
    by_cases h0 : '.' ∈ s
    · obtain ⟨a, b, rfl, ha⟩ := exists_split h0
      have hb : '.' ∉ b := by
        intro hb
        have := List.count_pos_iff.2 hb
        simp at h2; omega
      rw [applyPJ_point ha hb l dpos hd]
      exact ⟨_, rfl, by simp only; omega⟩
    · rw [applyPJ_nopoint h0 l dpos hd]
      exact ⟨_, rfl, by simp only; omega⟩

variable {t : Str} {ps : List Str}

theorem adjust_total {v : Str} {it : HItem} (h : it.fmt ≠ .other ∧ 0 ≤ it.dpos ∧ (it.name ∈ textCols t → it.fmt ≠ .D)) (hps : ∀ n ∈ textCols t, n ∈ ps) (hv : DotOk t it.name v) :
    ∃ it', adjust ps v it = .ok it' ∧ it'.name = it.name ∧ it'.fmt ≠ .other ∧ 0 ≤ it'.dpos ∧ (it'.name ∈ textCols t → it'.fmt ≠ .D) := by
  unfold adjust
  simp only
  generalize hx : (if it.name ∉ ps ∧ it.seen = false ∧ (it.fmt = .R ∨ it.fmt = .L) then
      match indexDot v with
      | some i => { it with fmt := .D, dpos := i + 1 }
      | none => { it with dpos := 0 }
    else it) = x
  have hx' : x.name = it.name ∧ x.fmt ≠ .other ∧ 0 ≤ x.dpos ∧ (x.name ∈ textCols t → x.fmt ≠ .D) := by
    subst hx
    split
    · rename_i hc
      split
      · exact ⟨rfl, by simp, by simp only; omega, fun hm => absurd (hps _ hm) hc.1⟩
      · exact ⟨rfl, h.1, by simp, h.2.2⟩
    · exact ⟨rfl, h⟩
  obtain ⟨e1, e2, e3, e4⟩ := hx'
  obtain ⟨r, h1, h2⟩ := pj_ok (s := v) (l := x.width) e2 e3 fun hD => by
    rcases hv with hv | hv
    · exact absurd hD (e4 (by rw [e1]; exact hv))
    · exact hv
  rw [h1]
  exact ⟨_, rfl, e1, e2, h2, e4⟩

theorem updateLast_total {n : Str} {f : HItem → Py HItem} {P : HItem → Prop} : ∀ {l : List HItem}, (∀ it ∈ l, P it) → (∀ it, it.name = n → P it → ∃ it', f it = .ok it' ∧ it'.name = n ∧ P it') →
    updateLast n f l = none ∨ ∃ l', updateLast n f l = some (.ok l') ∧ (∀ it ∈ l', P it) ∧ l'.map (·.name) = l.map (·.name)
  | [], _, _ => .inl rfl
  | it :: l, hp, hf => by
    rcases updateLast_total (n := n) (f := f) (l := l) (fun x hx => hp x (List.mem_cons_of_mem _ hx)) hf with h | ⟨l', h, h1, h2⟩
    · rw [updateLast, h]
      by_cases e : it.name = n
      · obtain ⟨it', h3, h4, h5⟩ := hf it e (hp it (by simp))
        refine .inr ⟨it' :: l, ?_, ?_, ?_⟩
        · simp [e, h3, bind, Except.bind, pure, Except.pure]
        · intro x hx
          rcases List.mem_cons.mp hx with rfl | hx
          · exact h5
          · exact hp x (by simp [hx])
        · simp [h4, e]
      · simp [e]
    · rw [updateLast, h]
      refine .inr ⟨it :: l', by simp [bind, Except.bind, pure, Except.pure], ?_, by simp [h2]⟩
      intro x hx
      rcases List.mem_cons.mp hx with rfl | hx
      · exact hp _ (by simp)
      · exact h1 x hx

theorem insertBeforeLast_mem {α : Type} {l : List α} {x y : α} : y ∈ insertBeforeLast l x ↔ y = x ∨ y ∈ l := by
  rcases List.eq_nil_or_concat l with rfl | ⟨t, a, rfl⟩
  · simp [insertBeforeLast]
  · rw [List.concat_eq_append, insertBeforeLast_snoc]
    simp
    grind

theorem addValue_total {info : List HItem} {n v : Str} (h : Fmt t ps info) (hv : DotOk t n v) : ∃ info', addValue ps info (n, v) = .ok info' ∧ Fmt t ps info' := by
  unfold addValue
  rcases updateLast_total (n := n) (f := adjust ps v) h.item (fun it e hp => by
      subst e
      obtain ⟨it', h1, h2, h3⟩ := adjust_total hp (fun n hn => (h.psv n hn).1) hv
      exact ⟨it', h1, h2, h3⟩) with hu | ⟨l', hu, h1, h2⟩
  · rw [show updateLast (n, v).fst (adjust ps (n, v).snd) info = none from hu]
    have hno := updateLast_none.mp hu
    refine ⟨_, rfl, ⟨fun m hm => ?_, fun it hit => ?_⟩⟩
    · obtain ⟨a, it, b, c⟩ := h.psv m hm
      exact ⟨a, it, insertBeforeLast_mem.mpr (.inr b), c⟩
    · rcases insertBeforeLast_mem.mp hit with rfl | hit
      · have hn : n ∉ textCols t := by
          intro hm
          obtain ⟨-, it, b, c⟩ := h.psv n hm
          exact hno it b c
        simp only [newItem]
        split
        · exact ⟨by simp, by simp only; omega, fun hm => absurd hm hn⟩
        · exact ⟨by simp, by simp, fun _ => by simp⟩
      · exact h.item it hit
  · rw [show updateLast (n, v).fst (adjust ps (n, v).snd) info = some (.ok l') from hu]
    refine ⟨l', rfl, ⟨fun m hm => ?_, h1⟩⟩
    obtain ⟨a, it, b, c⟩ := h.psv m hm
    have : m ∈ l'.map (·.name) := by rw [h2]; exact List.mem_map.mpr ⟨it, b, c⟩
    obtain ⟨it', b', c'⟩ := List.mem_map.mp this
    exact ⟨a, it', b', c'⟩

theorem addValues_total : ∀ {d : List (Str × Str)} {info : List HItem}, Fmt t ps info → (∀ p ∈ d, DotOk t p.1 p.2) → ∃ info', d.foldlM (addValue ps) info = .ok info' ∧ Fmt t ps info'
  | [], info, h, _ => ⟨info, rfl, h⟩
  | (n, v) :: d, info, h, hd => by
    obtain ⟨i1, h1, h2⟩ := addValue_total h (hd (n, v) (by simp))
    obtain ⟨i2, h3, h4⟩ := addValues_total h2 fun p hp => hd p (List.mem_cons_of_mem _ hp)
    exact ⟨i2, by rw [List.foldlM_cons, h1]; exact h3, h4⟩

/-- all that is checked by computation -/
def fmtB (t : Str) : Bool :=
  match initialHeader adesTables t with
  | .ok (ps, items) => (textCols t).all (fun n => decide (n ∈ ps) && items.any fun i => i.name == n) &&
      items.all fun i => decide (i.fmt ≠ .other) && decide (0 ≤ i.dpos) && (decide (i.name ∉ textCols t) || decide (i.fmt ≠ .D))
  | .error _ => false

theorem fmt_ok : psvKinds.all fmtB = true := by decide +kernel

theorem init_fmt (ht : t ∈ psvKinds) : ∃ ps items, initialHeader adesTables t = .ok (ps, items) ∧ Fmt t ps items := by
  have h := List.all_eq_true.mp fmt_ok t ht
  unfold fmtB at h
  split at h
  · rename_i ps items he
    simp only [Bool.and_eq_true, List.all_eq_true, List.any_eq_true, decide_eq_true_eq, beq_iff_eq, Bool.or_eq_true] at h
    refine ⟨ps, items, he, ⟨fun n hn => h.1 n hn, fun it hit => ?_⟩⟩
    obtain ⟨⟨a, b⟩, c⟩ := h.2 it hit
    exact ⟨a, b, fun hm => by rcases c with c | c; exact absurd hm c; exact c⟩
  · simp at h

/-- a state in which printing will not fail, and further observations of type `t` can be added -/
structure Good (t : Str) (g : Out) : Prop where
  kind : t ∈ psvKinds
  fmt : Fmt t g.psvList g.headerInfo
  vals : ∀ d ∈ g.dataDicts, ∀ p ∈ d, DotOk t p.1 p.2

/-- the values of an observation -/
def DotsOk (t : Str) (o : Elem) : Prop := ∀ k ∈ o.kids, ∀ v, k.text = some v → DotOk t k.tag v

theorem good_values {F : Facets} {o : Elem} (ht : t ∈ psvKinds) (hc : Cells (validObs F) t o) (hd : DotsOk t o) : ∀ p ∈ subDict o, DotOk t p.1 p.2 := by
  rw [(cells_facts ht hc).2.2]
  intro p hp
  obtain ⟨k, hk, rfl⟩ := List.mem_map.mp hp
  obtain ⟨v, e, -⟩ := hc.cells k hk
  have hv : k.text = some v := by rw [e]; rfl
  have := hd k hk v hv
  simpa [hv] using this

theorem first_total {F : Facets} {g : Out} {o : Elem} (ht : t ∈ psvKinds) (hc : Cells (validObs F) t o) (hd : DotsOk t o) :
    ∃ g', processDataElement adesTables g true o = .ok g' ∧ Good t g' := by
  obtain ⟨ps, items, h1, h2⟩ := init_fmt ht
  have htag : o.tag = t := by rw [hc.shape]; rfl
  have hv := good_values ht hc hd
  obtain ⟨info, h3, h4⟩ := addValues_total h2 hv
  refine ⟨⟨[subDict o], info, ps, g.out⟩, ?_, ⟨ht, h4, by simpa using hv⟩⟩
  unfold processDataElement
  simp only [htag, h1, if_true, bind, Except.bind, pure, Except.pure]
  rw [h3]
  simp

theorem next_total {F : Facets} {g : Out} {o : Elem} (hg : Good t g) (hc : Cells (validObs F) t o) (hd : DotsOk t o) :
    ∃ g', processDataElement adesTables g false o = .ok g' ∧ Good t g' := by
  have hv := good_values hg.kind hc hd
  obtain ⟨info, h3, h4⟩ := addValues_total hg.fmt hv
  refine ⟨{ g with headerInfo := info, dataDicts := g.dataDicts ++ [subDict o] }, ?_, ⟨hg.kind, h4, ?_⟩⟩
  · unfold processDataElement
    simp only [Bool.false_eq_true, if_false, bind, Except.bind, pure, Except.pure]
    rw [h3]
  · intro d hd'
    rcases List.mem_append.mp hd' with h | h
    · exact hg.vals d h
    · simp at h; subst h; exact hv

theorem mapM_total {α β : Type} {f : α → Py β} : ∀ {l : List α}, (∀ a ∈ l, ∃ b, f a = .ok b) → ∃ r, l.mapM f = .ok r
  | [], _ => ⟨[], rfl⟩
  | a :: l, h => by
    obtain ⟨b, hb⟩ := h a (by simp)
    obtain ⟨r, hr⟩ := mapM_total (l := l) fun x hx => h x (by simp [hx])
    exact ⟨b :: r, by rw [List.mapM_cons, hb]; simp [hr, bind, Except.bind, pure, Except.pure]⟩

theorem print_total {g : Out} (hg : g.dataDicts = [] ∨ ∃ t, Good t g) : ∃ g', printDataDicts g = .ok g' ∧ g'.psvList = g.psvList ∧ g'.headerInfo = g.headerInfo ∧ g'.dataDicts = g.dataDicts := by
  unfold printDataDicts
  split
  · exact ⟨g, rfl, rfl, rfl, rfl⟩
  · rename_i hne
    rcases hg with h | ⟨t, hg⟩
    · rw [h] at hne; simp at hne
    obtain ⟨hl, h1⟩ : ∃ hl, headerLine g.headerInfo = .ok hl := by
      unfold headerLine
      obtain ⟨r, hr⟩ := mapM_total (f := fun it : HItem => do
          let r ← applyPJ it.name it.width .L 0
          return r.1) (l := g.headerInfo.filter (·.seen)) fun it _ => ⟨_, rfl⟩
      exact ⟨_, by rw [hr]; rfl⟩
    obtain ⟨rows, h2⟩ : ∃ rows, g.dataDicts.mapM (rowLine g.headerInfo) = .ok rows := by
      apply mapM_total
      intro d hd
      unfold rowLine
      obtain ⟨r, hr⟩ := mapM_total (f := cellText d) (l := g.headerInfo.filter (·.seen)) fun it hit => by
        unfold cellText
        cases hx : PackUtil.dictGet d it.name with
        | none => exact ⟨_, rfl⟩
        | some v =>
          have hp := hg.fmt.item it (List.mem_filter.mp hit).1
          have hv := hg.vals d hd _ (C33.dictGet_mem hx)
          obtain ⟨r, h1, -⟩ := pj_ok (s := v) (l := it.width) hp.1 hp.2.1 fun hD => by
            rcases hv with hv | hv
            · exact absurd hD (hp.2.2 hv)
            · exact hv
          exact ⟨r.1, by simp [h1, bind, Except.bind, pure, Except.pure]⟩
      exact ⟨_, by rw [hr]; rfl⟩
    exact ⟨{ g with out := g.out ++ hl :: rows }, by rw [h1, h2]; rfl, rfl, rfl, rfl⟩

theorem obsData_total {F : Facets} : ∀ {l : List Elem} {g : Out}, Good t g → (∀ o ∈ l, Cells (validObs F) t o ∧ DotsOk t o) →
    ∃ g', processObsData adesTables (g, some t) l = .ok (g', some t) ∧ Good t g'
  | [], g, hg, _ => ⟨g, rfl, hg⟩
  | o :: l, g, hg, h => by
    obtain ⟨hc, hd⟩ := h o (by simp)
    have htag : o.tag = t := by rw [hc.shape]; rfl
    obtain ⟨g1, h1, h2⟩ := next_total hg hc hd
    obtain ⟨g2, h3, h4⟩ := obsData_total h2 fun x hx => h x (List.mem_cons_of_mem _ hx)
    refine ⟨g2, ?_, h4⟩
    rw [processObsData]
    simp only [htag, ne_eq, not_true_eq_false, if_false, bind, Except.bind, h1, pure, Except.pure]
    exact h3

theorem allowed_obsData : ∃ al, getItem adesTables.allowed (c! "obsData") = .ok al ∧ ∀ t ∈ psvKinds, t ∈ al := by
  refine ⟨_, show _ = Except.ok ((PackUtil.dictGet adesTables.allowed (c! "obsData")).getD []) from by decide +kernel, by decide +kernel⟩
theorem allowed_obsBlock : ∃ al, getItem adesTables.allowed (c! "obsBlock") = .ok al ∧ (c! "obsContext") ∈ al ∧ (c! "obsData") ∈ al := by
  refine ⟨_, show _ = Except.ok ((PackUtil.dictGet adesTables.allowed (c! "obsBlock")).getD []) from by decide +kernel, by decide +kernel⟩
theorem allowed_ades : ∃ al, getItem adesTables.allowed (c! "ades") = .ok al ∧ (∀ t ∈ psvKinds, t ∈ al) ∧ (c! "obsBlock") ∈ al := by
  refine ⟨_, show _ = Except.ok ((PackUtil.dictGet adesTables.allowed (c! "ades")).getD []) from by decide +kernel, by decide +kernel⟩

/-- the children of `ades` have no more decimal points than can be justified -/
def KidDots (k : Elem) : Prop := ∀ o ∈ observationsIn k, DotsOk o.tag o

theorem block_total {F : Facets} {g : Out} {ctx obs : List Elem} (ht : t ∈ psvKinds) (hne : obs ≠ []) (h : ∀ o ∈ obs, Cells (validObs F) t o ∧ DotsOk t o) :
    ∃ g' x, processObsBlock adesTables (g, none) [.mk (c! "obsContext") none [] ctx, .mk (c! "obsData") none [] obs] = .ok (g', x) ∧ Good t g' := by
  obtain ⟨al, ha, hb, hc⟩ := allowed_obsBlock
  obtain ⟨al', ha', hb'⟩ := allowed_obsData
  cases obs with
  | nil => exact absurd rfl hne
  | cons o obs =>
    obtain ⟨h1, h2⟩ := h o (by simp)
    have htag : o.tag = t := by rw [h1.shape]; rfl
    obtain ⟨g1, h3, h4⟩ := first_total (g := { g with out := g.out ++ contextLines (.mk (c! "obsContext") none [] ctx) }) ht h1 h2
    obtain ⟨g2, h5, h6⟩ := obsData_total h4 fun x hx => h x (List.mem_cons_of_mem _ hx)
    have hD : processObsData adesTables ({ g with out := g.out ++ contextLines (.mk (c! "obsContext") none [] ctx) }, none) (o :: obs) = .ok (g2, some t) := by
      rw [processObsData]
      simp only [ha', htag, bind, Except.bind, pure, Except.pure, hb' t ht, not_true_eq_false, if_false]
      rw [h3]
      exact h5
    refine ⟨g2, some t, ?_, h6⟩
    rw [processObsBlock, ha]
    simp only [bind, Except.bind, tag_mk, hb, not_true_eq_false, if_false, if_true]
    rw [processObsBlock, ha]
    have : ¬ (c! "obsData") = c! "obsContext" := by decide
    simp only [bind, Except.bind, tag_mk, hc, not_true_eq_false, if_false, if_true, this, Elem.kids]
    rw [hD]
    simp [processObsBlock]

theorem children_total {F : Facets} : ∀ {l : List Elem} {g : Out} {last : Option Str},
    (g.dataDicts = [] ∨ ∃ t, Good t g) → (∀ t ∈ psvKinds, last = some t → Good t g) →
    (∀ k ∈ l, (WBlock psvKinds (validObs F) k ∨ ∃ t ∈ psvKinds, Cells (validObs F) t k) ∧ KidDots k) →
    ∃ g', processChildren adesTables g last l = .ok g' ∧ (g'.dataDicts = [] ∨ ∃ t, Good t g')
  | [], g, last, hg, _, _ => ⟨g, rfl, hg⟩
  | k :: l, g, last, hg, hl, hk => by
    obtain ⟨al, ha, hb, hc⟩ := allowed_ades
    obtain ⟨h1, h2⟩ := hk k (by simp)
    rw [processChildren, ha]
    rcases h1 with ⟨ctx, obs, hcne, hctx, hone, ⟨t, ht, ho⟩, rfl⟩ | ⟨t, ht, ho⟩
    · simp only [bind, Except.bind, tag_mk, hc, not_true_eq_false, if_false, if_true]
      obtain ⟨g1, e1, -⟩ := print_total hg
      obtain ⟨g2, x, e2, e3⟩ := block_total (g := g1) (ctx := ctx) ht hone fun o ho' => by
        refine ⟨ho o ho', ?_⟩
        have := h2 o (by simpa [observationsIn, Elem.kids, Elem.tag] using ho')
        rw [(ho o ho').shape] at this ⊢
        exact this
      rw [e1]
      simp only [Elem.kids, e2]
      refine children_total (.inr ⟨t, e3⟩) (fun t' ht' e => ?_) fun x hx => hk x (List.mem_cons_of_mem _ hx)
      simp at e; subst e; exact absurd ht' (by decide)
    · have htag : k.tag = t := by rw [ho.shape]; rfl
      have hnb : ¬ t = c! "obsBlock" := by rintro rfl; revert ht; decide
      have hd : DotsOk t k := by
        have := h2 k (by simp [observationsIn, htag, hnb])
        rwa [htag] at this
      simp only [bind, Except.bind, htag, hb t ht, not_true_eq_false, if_false, hnb]
      split
      · obtain ⟨g1, e1, -⟩ := print_total hg
        obtain ⟨g2, e2, e3⟩ := first_total (g := g1) ht ho hd
        rw [e1]
        simp only [e2]
        exact children_total (.inr ⟨t, e3⟩) (fun t' _ e => by simp at e; subst e; exact e3) fun x hx => hk x (List.mem_cons_of_mem _ hx)
      · rename_i hlast
        simp at hlast
        obtain ⟨g2, e2, e3⟩ := next_total (hl t ht hlast) ho hd
        simp only [e2]
        exact children_total (.inr ⟨t, e3⟩) (fun t' _ e => by simp at e; subst e; exact e3) fun x hx => hk x (List.mem_cons_of_mem _ hx)

end Verif.ToPsv
