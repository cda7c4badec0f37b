import Verif.Lemmas.XmlToPsvTable
import Verif.Lemmas.XmlToPsvTotal
/-! When all the lines of a table are aligned. -/
namespace Verif.ToPsv
open Verif Verif.Xml Verif.Spec Verif.Psv Verif.Master

/-- the format of a column is still the one it began with, and its numbers fit -/
structure Kept (fmts : List (Str × Int × Str × Int)) (it : HItem) (V : List (Str × Str)) : Prop where
  fmt : it.fmt = .D → ∃ f ∈ fmts, f.1 = it.name ∧ f.2.2.1 = c! "D" ∧ f.2.2.2 = it.dpos
  num : it.seen = true → it.fmt = .D → ∀ a b, (it.name, a ++ '.' :: b) ∈ V → '.' ∉ a → it.dpos + b.length ≤ it.width

/-- a value agrees with the formats -/
def ValueFits (fmts : List (Str × Int × Str × Int)) (n v : Str) : Prop :=
  (∀ f ∈ fmts, f.1 = n → f.2.2.1 = c! "D" → (intLen v : Int) < f.2.2.2) ∧ (n ∉ fmts.map (·.1) → '.' ∉ v)

variable {fmts : List (Str × Int × Str × Int)}

theorem indexDot_none {v : Str} (h : '.' ∉ v) : indexDot v = none := by
  unfold indexDot
  rw [if_neg]
  simpa using h

theorem Kept.other {it : HItem} {V : List (Str × Str)} {n v : Str} (h : Kept fmts it V) (hne : it.seen = true → it.name ≠ n) : Kept fmts it (V ++ [(n, v)]) := by
  refine ⟨h.fmt, fun hs hf a b hu ha => ?_⟩
  rcases List.mem_append.mp hu with hu | hu
  · exact h.num hs hf a b hu ha
  · simp at hu; exact absurd hu.1 (hne hs)

theorem adjust_kept {v : Str} {it it' : HItem} {V : List (Str × Str)} (h : Kept fmts it V) (hv : ValueFits fmts it.name v) (hV : it.seen = false → ∀ w, (it.name, w) ∉ V)
    (ha : adjust (fmts.map (·.1)) v it = .ok it') : Kept fmts it' (V ++ [(it.name, v)]) := by
  unfold adjust at ha
  simp only at ha
  generalize hx : (if it.name ∉ fmts.map (·.1) ∧ it.seen = false ∧ (it.fmt = .R ∨ it.fmt = .L) then
      match indexDot v with
      | some i => { it with fmt := .D, dpos := i + 1 }
      | none => { it with dpos := 0 }
    else it) = x at ha
  have hx' : x.name = it.name ∧ x.width = it.width ∧ x.fmt = it.fmt ∧ (x.fmt = .D → x = it) := by
    subst hx
    split
    · rename_i hc
      rw [indexDot_none (hv.2 hc.1)]
      refine ⟨rfl, rfl, rfl, fun hD => ?_⟩
      simp only at hD
      rcases hc.2.2 with e | e <;> rw [e] at hD <;> simp at hD
    · exact ⟨rfl, rfl, rfl, fun _ => rfl⟩
  obtain ⟨e1, e2, e3, e4⟩ := hx'
  obtain ⟨⟨r, w, d⟩, h1, h2⟩ := bind_ok.mp ha
  simp [pure, Except.pure] at h2
  subst h2
  by_cases hD : x.fmt = .D
  · have hxi := e4 hD
    subst hxi
    rw [hD] at h1
    obtain ⟨f, hf1, hf2, hf3, hf4⟩ := h.fmt hD
    obtain ⟨-, a2, a3, a4, a5⟩ := pjD h1
    have hint := hv.1 f hf1 hf2 hf3
    have hd : d = x.dpos := by omega
    refine ⟨fun _ => ⟨f, hf1, hf2, hf3, by simp only; omega⟩, fun _ _ a b hu hna => ?_⟩
    simp only at hu ⊢
    rcases List.mem_append.mp hu with hu | hu
    · cases hs : x.seen with
      | false => exact absurd hu (hV hs _)
      | true =>
        have := h.num hs hD a b hu hna
        omega
    · simp at hu
      subst hu
      have hw : w = r.length := (C17_only_padding _ _ _ _ _ _ _ h1).2.1
      rcases a5 with ⟨h0, -⟩ | ⟨a', b', e, ha', hb', hr⟩
      · simp at h0
      · obtain ⟨rfl, rfl⟩ := split_unique e hna ha'
        rw [intLen_point hna] at hint
        rw [hw, hr]
        simp only [List.length_append, blanks_length, List.length_cons]
        omega
  · exact ⟨fun hf => absurd hf hD, fun _ hf => absurd hf hD⟩
where
  split_unique : ∀ {a b a' b' : Str}, a ++ '.' :: b = a' ++ '.' :: b' → '.' ∉ a → '.' ∉ a' → a = a' ∧ b = b'
    | [], b, [], b', e, _, _ => by simpa using e
    | [], b, c :: a', b', e, _, h => by simp at e; exact absurd (List.mem_cons.mpr (.inl e.1)) h
    | c :: a, b, [], b', e, h, _ => by simp at e; exact absurd (List.mem_cons.mpr (.inl e.1.symm)) h
    | c :: a, b, c' :: a', b', e, h, h' => by
      simp at e
      obtain ⟨h1, h2⟩ := split_unique e.2 (fun hm => h (by simp [hm])) (fun hm => h' (by simp [hm]))
      exact ⟨by rw [e.1, h1], h2⟩

theorem addValue_kept {l l' : List HItem} {V : List (Str × Str)} {n v : Str} (hw : Widths l V) (h : ∀ it ∈ l, Kept fmts it V) (hv : ValueFits fmts n v)
    (hnames : ∀ f ∈ fmts, ∃ it ∈ l, it.name = f.1)
    (ha : addValue (fmts.map (·.1)) l (n, v) = .ok l') (hne : l ≠ []) : (∀ it ∈ l', Kept fmts it (V ++ [(n, v)])) ∧ ∀ f ∈ fmts, ∃ it ∈ l', it.name = f.1 := by
  unfold addValue at ha
  cases hu : updateLast n (adjust (fmts.map (·.1)) v) l with
  | some r =>
    rw [show updateLast (n, v).fst (adjust (fmts.map (·.1)) (n, v).snd) l = some r from hu] at ha
    obtain ⟨a, it, it', b, rfl, e2, e3, e4, rfl⟩ := updateLast_some hu ha
    subst e2
    have hname : it'.name = it.name := adjust_name e4
    refine ⟨fun x hx => ?_, fun f hf => ?_⟩
    · rcases List.mem_append.mp hx with hx | hx
      · refine (h x (by simp [hx])).other fun hs e => ?_
        have := (List.pairwise_append.mp hw.once).2.2 x hx it (by simp) e
        rw [hs] at this; simp at this
      · rcases List.mem_cons.mp hx with rfl | hx
        · refine adjust_kept (h it (by simp)) hv (fun hs w hw' => ?_) e4
          have hm := (hw.used it.name).mpr ⟨w, hw'⟩
          simp only [cols, List.mem_map, List.mem_filter] at hm
          obtain ⟨y, ⟨h1, h2⟩, h3⟩ := hm
          rcases List.mem_append.mp h1 with h1 | h1
          · have := (List.pairwise_append.mp hw.once).2.2 y h1 it (by simp) h3
            rw [h2] at this; simp at this
          · rcases List.mem_cons.mp h1 with rfl | h1
            · rw [hs] at h2; simp at h2
            · exact e3 y h1 h3
        · exact (h x (by simp [hx])).other fun _ => e3 x hx
    · obtain ⟨y, hy, e⟩ := hnames f hf
      rcases List.mem_append.mp hy with hy | hy
      · exact ⟨y, by simp [hy], e⟩
      · rcases List.mem_cons.mp hy with rfl | hy
        · exact ⟨it', by simp, by rw [hname, e]⟩
        · exact ⟨y, by simp [hy], e⟩
  | none =>
    rw [show updateLast (n, v).fst (adjust (fmts.map (·.1)) (n, v).snd) l = none from hu] at ha
    have hno := updateLast_none.mp hu
    simp at ha
    subst ha
    refine ⟨fun x hx => ?_, fun f hf => ?_⟩
    · rcases insertBeforeLast_mem.mp hx with rfl | hx
      · have hnf : n ∉ fmts.map (·.1) := by
          intro hm
          obtain ⟨f, hf, e⟩ := List.mem_map.mp hm
          obtain ⟨it, hit, e'⟩ := hnames f hf
          exact hno it hit (e'.trans e)
        simp only [newItem, indexDot_none (hv.2 hnf)]
        exact ⟨fun hf => by simp at hf, fun _ hf => by simp at hf⟩
      · exact (h x hx).other fun _ => hno x hx
    · obtain ⟨y, hy, e⟩ := hnames f hf
      exact ⟨y, insertBeforeLast_mem.mpr (.inr hy), e⟩
where
  adjust_name {ps : List Str} {v : Str} {it it' : HItem} (h : adjust ps v it = .ok it') : it'.name = it.name := by
    unfold adjust at h
    simp only at h
    obtain ⟨r, h1, h2⟩ := bind_ok.mp h
    simp [pure, Except.pure] at h2
    subst h2
    simp only
    split
    · split <;> rfl
    · rfl

theorem addValues_kept : ∀ {d : List (Str × Str)} {l l' : List HItem} {V : List (Str × Str)}, Widths l V → (∀ it ∈ l, Kept fmts it V) → (∀ f ∈ fmts, ∃ it ∈ l, it.name = f.1) →
    (∀ p ∈ d, ValueFits fmts p.1 p.2) → d.foldlM (addValue (fmts.map (·.1))) l = .ok l' → l ≠ [] →
    (Widths l' (V ++ d) ∧ l' ≠ []) ∧ (∀ it ∈ l', Kept fmts it (V ++ d)) ∧ ∀ f ∈ fmts, ∃ it ∈ l', it.name = f.1
  | [], l, l', V, hw, h, hf, _, hd, hne => by
    simp [pure, Except.pure] at hd; subst hd
    exact ⟨⟨by simpa using hw, hne⟩, by simpa using h, hf⟩
  | (n, v) :: d, l, l', V, hw, h, hf, hv, hd, hne => by
    rw [List.foldlM_cons] at hd
    obtain ⟨l1, h1, h2⟩ := bind_ok.mp hd
    obtain ⟨a, b⟩ := addValue_widths hw h1 hne
    obtain ⟨a', b'⟩ := addValue_kept hw h (hv (n, v) (by simp)) hf h1 hne
    have := addValues_kept a a' b' (fun p hp => hv p (List.mem_cons_of_mem _ hp)) h2 b
    simpa using this

theorem jtypeOf_D {s : Str} (h : jtypeOf s = .D) : s = c! "D" := by
  unfold jtypeOf at h
  repeat' split at h
  all_goals first | assumption | simp at h

theorem foldl_insert_old {names : List Str} : ∀ {items : List HItem} {x : HItem}, x ∈ items → x ∈ names.foldl (fun l j => insertBeforeLast l ⟨j, j.length, .R, 0, false⟩) items := by
  induction names with
  | nil => intro items x h; exact h
  | cons j names ih => intro items x h; exact ih (insertBeforeLast_mem.mpr (.inr h))

theorem initial_kept {tabs : Tables} {t : Str} {ps : List Str} {items : List HItem} (h : initialHeader tabs t = .ok (ps, items)) (hfm : getItem tabs.psv t = .ok fmts) :
    ps = fmts.map (·.1) ∧ (∀ it ∈ items, Kept fmts it []) ∧ ∀ f ∈ fmts, ∃ it ∈ items, it.name = f.1 := by
  unfold initialHeader at h
  obtain ⟨fmts', h1, h2⟩ := bind_ok.mp h
  rw [hfm] at h1
  simp at h1
  subst h1
  obtain ⟨al, h3, h4⟩ := bind_ok.mp h2
  simp only [pure, Except.pure, Except.ok.injEq, Prod.mk.injEq] at h4
  refine ⟨h4.1.symm, fun it hit => ?_, fun f hf => ?_⟩
  · rw [← h4.2] at hit
    refine ⟨fun hD => ?_, fun hs hf a b hm => by simp at hm⟩
    rcases foldl_insert_mem hit with hit | ⟨j, rfl⟩
    · obtain ⟨j, hj, rfl⟩ := List.mem_map.mp hit
      exact ⟨j, hj, rfl, jtypeOf_D hD, rfl⟩
    · simp at hD
  · rw [← h4.2]
    refine ⟨_, foldl_insert_old (List.mem_map.mpr ⟨f, hf, rfl⟩), rfl⟩

theorem tableInfo_kept {tabs : Tables} {t : Str} {obs : List Elem} {ps : List Str} {info : List HItem} (h : tableInfo tabs t obs = .ok (ps, info)) (hfm : getItem tabs.psv t = .ok fmts)
    (hne : fmts ≠ []) (hv : ∀ o ∈ obs, ∀ p ∈ subDict o, ValueFits fmts p.1 p.2) : ∀ it ∈ info, Kept fmts it (obs.flatMap subDict) := by
  unfold tableInfo at h
  obtain ⟨⟨ps', items⟩, h1, h2⟩ := bind_ok.mp h
  obtain ⟨info', h3, h4⟩ := bind_ok.mp h2
  simp only [pure, Except.pure, Except.ok.injEq, Prod.mk.injEq] at h4
  obtain ⟨rfl, rfl⟩ := h4
  have hi := initial_widths h1
  obtain ⟨k1, k2, k3⟩ := initial_kept h1 hfm
  subst k1
  have hine : items ≠ [] := by
    rintro rfl
    cases fmts with
    | nil => exact hne rfl
    | cons f fs => obtain ⟨it, hit, -⟩ := k3 f (by simp); simp at hit
  have : ∀ (obs : List Elem) (l l' : List HItem) (V : List (Str × Str)), Widths l V → l ≠ [] → (∀ it ∈ l, Kept fmts it V) → (∀ f ∈ fmts, ∃ it ∈ l, it.name = f.1) →
      (∀ o ∈ obs, ∀ p ∈ subDict o, ValueFits fmts p.1 p.2) →
      obs.foldlM (fun info o => (subDict o).foldlM (addValue (fmts.map (·.1))) info) l = .ok l' →
      ∀ it ∈ l', Kept fmts it (V ++ obs.flatMap subDict) := by
    intro obs
    induction obs with
    | nil => intro l l' V _ _ h _ _ he; simp [pure, Except.pure] at he; subst he; simpa using h
    | cons o obs ih =>
      intro l l' V hw hl hk hf hv he
      rw [List.foldlM_cons] at he
      obtain ⟨l1, e1, e2⟩ := bind_ok.mp he
      obtain ⟨⟨a, b⟩, c, d⟩ := addValues_kept hw hk hf (hv o (by simp)) e1 hl
      have := ih l1 l' _ a b c d (fun o ho => hv o (by simp [ho])) e2
      simpa using this
  simpa using this obs items info' [] hi hine k2 k3 hv h3

theorem cell_exact {it : HItem} {V : List (Str × Str)} {v : Str} (hr : Room it V) (hk : Kept fmts it V) (hs : it.seen = true) (hv : (it.name, v) ∈ V) {r : Str} {w : Nat} {d : Int}
    (h : applyPJ v it.width it.fmt it.dpos = .ok (r, w, d)) : r.length = it.width.toNat := by
  by_cases hD : it.fmt = .D
  · rw [hD] at h
    obtain ⟨n1, n2⟩ := hr.num hs hD
    have hint := n2 v hv
    obtain ⟨a1, a2, a3, a4, a5⟩ := pjD h
    have hd : d = it.dpos := by omega
    rcases a5 with ⟨h0, e⟩ | ⟨a, b, rfl, ha, hb, e⟩
    · rw [intLen_nopoint h0] at hint
      rw [e]
      simp only [List.length_append, blanks_length]
      omega
    · rw [intLen_point ha] at hint
      have := hk.num hs hD a b hv ha
      rw [e]
      simp only [List.length_append, blanks_length, List.length_cons]
      omega
  · obtain ⟨b1, b2, b3, b4⟩ := pjText hD h
    have := b4 (hr.text hs hD v hv)
    omega

theorem layout_width (it : HItem) : (layout it).width = it.width.toNat := by
  unfold layout
  split <;> rfl

theorem table_aligned {tabs : Tables} {t : Str} {obs : List Elem} {ps : List Str} {info : List HItem} (h : tableInfo tabs t obs = .ok (ps, info)) (hfm : getItem tabs.psv t = .ok fmts) (hne : fmts ≠ [])
    (hv : ∀ o ∈ obs, ∀ p ∈ subDict o, ValueFits fmts p.1 p.2)
    {hl : Str} {rows : List Str} (hh : headerLine info = .ok hl) (hr : (obs.map subDict).mapM (rowLine info) = .ok rows) : IsTable Layout.HoldsExactly obs hl rows := by
  have hne' : ∃ f fs, getItem tabs.psv t = .ok (f :: fs) := by cases fmts with | nil => exact absurd rfl hne | cons f fs => exact ⟨f, fs, hfm⟩
  have hw := tableInfo_widths h hne'
  have hk := tableInfo_kept h hfm hne hv
  refine table_lined h hne' (fun o ho it hit hs cell hc => ⟨table_holds h hne' o ho it hit hs cell hc, ?_⟩) hh hr
  rw [layout_width]
  unfold cellText at hc
  cases hd : PackUtil.dictGet (subDict o) it.name with
  | none =>
    rw [hd] at hc; simp at hc; subst hc
    simp [blanks_length]
  | some v =>
    rw [hd] at hc
    obtain ⟨⟨r, w, d⟩, h3, h4⟩ := bind_ok.mp hc
    simp [pure, Except.pure] at h4
    subst h4
    exact cell_exact (hw.room it hit) (hk it hit) hs (List.mem_flatMap.mpr ⟨o, ho, dictGet_mem' hd⟩) h3

end Verif.ToPsv
