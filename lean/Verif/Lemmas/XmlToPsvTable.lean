import Verif.Lemmas.XmlToPsv
import Verif.Spec.Writable
/-! The columns of a table written by xmltopsv. -/
namespace Verif.ToPsv
open Verif Verif.Xml Verif.Spec Verif.Psv Verif.Master

/-- the number of characters before the decimal point -/
def intLen (v : Str) : Nat := (v.takeWhile (· ≠ '.')).length

theorem intLen_point {a b : Str} (ha : '.' ∉ a) : intLen (a ++ '.' :: b) = a.length := by
  unfold intLen
  congr 1
  induction a with
  | nil => simp
  | cons c a ih =>
    simp at ha
    simp [Ne.symm ha.1]
    simpa using ih ha.2

theorem intLen_nopoint {a : Str} (ha : '.' ∉ a) : intLen a = a.length := by
  unfold intLen
  congr 1
  induction a with
  | nil => simp
  | cons c a ih =>
    simp at ha
    simp [Ne.symm ha.1]
    simpa using ih ha.2

theorem intLen_le (v : Str) : intLen v ≤ v.length := by
  unfold intLen
  exact (List.takeWhile_sublist _).length_le

/-- decimal justification, all cases in which it succeeds -/
theorem pjD {v : Str} {l dpos : Int} {r : Str} {w : Nat} {d : Int} (h : applyPJ v l .D dpos = .ok (r, w, d)) :
    0 ≤ dpos ∧ d = max dpos (intLen v + 1) ∧ l ≤ w ∧ d - 1 ≤ w ∧
    (('.' ∉ v ∧ r = blanks (dpos - 1 - v.length) ++ v ++ blanks (l - d + 1)) ∨
      ∃ a b, v = a ++ '.' :: b ∧ '.' ∉ a ∧ '.' ∉ b ∧ r = blanks (dpos - 1 - a.length) ++ v ++ blanks (l - d - b.length)) := by
  have hn : ¬ (dpos < 0 ∨ 2 ≤ v.count '.') := by
    intro hc
    rw [(C17_decimal_errors v l dpos).mpr hc] at h
    simp at h
  have hd : 0 ≤ dpos := by omega
  by_cases h0 : '.' ∈ v
  · obtain ⟨a, b, rfl, ha⟩ := exists_split h0
    have hb : '.' ∉ b := by
      intro hb
      have := List.count_pos_iff.2 hb
      simp at hn; omega
    rw [applyPJ_point ha hb l dpos hd] at h
    simp only [Except.ok.injEq, Prod.mk.injEq] at h
    obtain ⟨h1, h2, h3⟩ := h
    rw [intLen_point ha]
    refine ⟨hd, by omega, ?_, ?_, .inr ⟨a, b, rfl, ha, hb, by rw [← h1, h3]⟩⟩
    · rw [← h2]; simp only [List.length_append, blanks_length, List.length_cons]; omega
    · rw [← h2]; simp only [List.length_append, blanks_length, List.length_cons]; omega
  · rw [applyPJ_nopoint h0 l dpos hd] at h
    simp only [Except.ok.injEq, Prod.mk.injEq] at h
    obtain ⟨h1, h2, h3⟩ := h
    rw [intLen_nopoint h0]
    refine ⟨hd, by omega, ?_, ?_, .inl ⟨h0, by rw [← h1, h3]⟩⟩
    · rw [← h2]; simp only [List.length_append, blanks_length]; omega
    · rw [← h2]; simp only [List.length_append, blanks_length]; omega

/-- the other justifications -/
theorem pjText {v : Str} {l : Int} {j : JType} {dpos : Int} {r : Str} {w : Nat} {d : Int} (hj : j ≠ .D) (h : applyPJ v l j dpos = .ok (r, w, d)) :
    w = r.length ∧ l ≤ w ∧ v.length ≤ w ∧ ((v.length : Int) ≤ l → (w : Int) = l) := by
  obtain ⟨⟨i, k, e⟩, h1, h2⟩ := C17_only_padding v l j dpos r w d h
  refine ⟨h1, h2, by rw [h1, e]; simp; omega, fun hl => ?_⟩
  cases j with
  | D => exact absurd rfl hj
  | other => simp [applyPJ, raiseRT] at h
  | L =>
    simp only [applyPJ, Except.ok.injEq, Prod.mk.injEq] at h
    rw [← h.2.1]; simp only [List.length_append, blanks_length]; omega
  | R =>
    simp only [applyPJ, Except.ok.injEq, Prod.mk.injEq] at h
    rw [← h.2.1]; simp only [List.length_append, blanks_length]; omega
  | C =>
    simp only [applyPJ, Except.ok.injEq, Prod.mk.injEq] at h
    rw [← h.2.1]; simp only [List.length_append, blanks_length]; split <;> omega

/-- a used column has room for its name and for the values `V` -/
structure Room (it : HItem) (V : List (Str × Str)) : Prop where
  name : (it.name.length : Int) ≤ it.width
  text : it.seen = true → it.fmt ≠ .D → ∀ v, (it.name, v) ∈ V → (v.length : Int) ≤ it.width
  num : it.seen = true → it.fmt = .D → it.dpos - 1 ≤ it.width ∧ ∀ v, (it.name, v) ∈ V → (intLen v : Int) + 1 ≤ it.dpos

theorem adjust_room {ps : List Str} {v : Str} {it it' : HItem} {V : List (Str × Str)} (h : Room it V) (hV : it.seen = false → ∀ w, (it.name, w) ∉ V)
    (ha : adjust ps v it = .ok it') : Room it' (V ++ [(it.name, v)]) := by
  unfold adjust at ha
  simp only at ha
  generalize hx : (if it.name ∉ ps ∧ it.seen = false ∧ (it.fmt = .R ∨ it.fmt = .L) then
      match indexDot v with
      | some i => { it with fmt := .D, dpos := i + 1 }
      | none => { it with dpos := 0 }
    else it) = x at ha
  have hx' : x.name = it.name ∧ x.width = it.width ∧ (x = it ∨ it.seen = false) := by
    subst hx
    split
    · rename_i hc
      split
      · exact ⟨rfl, rfl, .inr hc.2.1⟩
      · exact ⟨rfl, rfl, .inr hc.2.1⟩
    · exact ⟨rfl, rfl, .inl rfl⟩
  obtain ⟨e1, e2, e3⟩ := hx'
  obtain ⟨⟨r, w, d⟩, h1, h2⟩ := bind_ok.mp ha
  simp [pure, Except.pure] at h2
  have hseen : it.seen = true → x = it := fun hs => by
    rcases e3 with e | e
    · exact e
    · rw [hs] at e; simp at e
  have hmem : ∀ u, (it.name, u) ∈ V ++ [(it.name, v)] → u = v ∨ (it.seen = true ∧ (it.name, u) ∈ V) := by
    intro u hu
    rcases List.mem_append.mp hu with hu | hu
    · right
      cases hs : it.seen with
      | false => exact absurd hu (hV hs u)
      | true => exact ⟨rfl, hu⟩
    · left; simpa using hu
  subst h2
  by_cases hD : x.fmt = .D
  · rw [hD] at h1
    obtain ⟨a1, a2, a3, a4, -⟩ := pjD h1
    refine ⟨?_, fun _ hf => absurd hD hf, fun _ _ => ⟨a4, fun u hu => ?_⟩⟩
    · have := h.name
      simp only [e1]
      rw [e2] at a3
      omega
    · simp only [e1] at hu
      simp only
      rcases hmem u hu with rfl | ⟨hs, hu⟩
      · omega
      · have hxi := hseen hs
        subst hxi
        have := (h.num hs hD).2 u hu
        omega
  · obtain ⟨b1, b2, b3, -⟩ := pjText hD h1
    refine ⟨?_, fun _ _ u hu => ?_, fun _ hf => absurd hf hD⟩
    · have := h.name
      simp only [e1]
      rw [e2] at b2
      omega
    · simp only [e1] at hu
      simp only
      rcases hmem u hu with rfl | ⟨hs, hu⟩
      · omega
      · have hxi := hseen hs
        subst hxi
        have := h.text hs hD u hu
        omega

/-- all columns have room, and the names used are those of the values -/
structure Widths (l : List HItem) (V : List (Str × Str)) : Prop where
  once : l.Pairwise fun a b => a.name = b.name → a.seen = false
  used : ∀ n, n ∈ cols l ↔ ∃ v, (n, v) ∈ V
  room : ∀ it ∈ l, Room it V

theorem Room.other {it : HItem} {V : List (Str × Str)} {n v : Str} (h : Room it V) (hne : it.seen = true → it.name ≠ n) : Room it (V ++ [(n, v)]) := by
  refine ⟨h.name, fun hs hf u hu => ?_, fun hs hf => ⟨(h.num hs hf).1, fun u hu => ?_⟩⟩
  · rcases List.mem_append.mp hu with hu | hu
    · exact h.text hs hf u hu
    · simp at hu; exact absurd hu.1 (hne hs)
  · rcases List.mem_append.mp hu with hu | hu
    · exact (h.num hs hf).2 u hu
    · simp at hu; exact absurd hu.1 (hne hs)

theorem addValue_widths {ps : List Str} {l l' : List HItem} {V : List (Str × Str)} {n v : Str} (h : Widths l V) (ha : addValue ps l (n, v) = .ok l') (hne : l ≠ []) :
    Widths l' (V ++ [(n, v)]) ∧ l' ≠ [] := by
  obtain ⟨last, hlast⟩ : ∃ z, l.getLast?.map (·.name) = some z := by
    cases hl : l.getLast? with
    | none => simp at hl; exact absurd hl hne
    | some z => exact ⟨_, rfl⟩
  obtain ⟨c1, c2, c3⟩ := addValue_cols ha h.once hlast
  have hne' : l' ≠ [] := by rintro rfl; simp at c3
  refine ⟨⟨c1, fun m => ?_, ?_⟩, hne'⟩
  · rw [c2, h.used]
    simp only [List.mem_append, List.mem_singleton, Prod.mk.injEq]
    constructor
    · rintro (⟨w, hw⟩ | rfl)
      · exact ⟨w, .inl hw⟩
      · exact ⟨v, .inr ⟨rfl, rfl⟩⟩
    · rintro ⟨w, hw | ⟨rfl, -⟩⟩
      · exact .inl ⟨w, hw⟩
      · exact .inr rfl
  · unfold addValue at ha
    cases hu : updateLast n (adjust ps v) l with
    | some r =>
      rw [show updateLast (n, v).fst (adjust ps (n, v).snd) l = some r from hu] at ha
      obtain ⟨a, it, it', b, rfl, e2, e3, e4, rfl⟩ := updateLast_some hu ha
      subst e2
      intro x hx
      rcases List.mem_append.mp hx with hx | hx
      · refine (h.room x (by simp [hx])).other fun hs e => ?_
        have := (List.pairwise_append.mp h.once).2.2 x hx it (by simp) e
        rw [hs] at this; simp at this
      · rcases List.mem_cons.mp hx with rfl | hx
        · refine adjust_room (h.room it (by simp)) (fun hs w hw => ?_) e4
          have hm := (h.used it.name).mpr ⟨w, hw⟩
          simp only [cols, List.mem_map, List.mem_filter] at hm
          obtain ⟨y, ⟨h1, h2⟩, h3⟩ := hm
          rcases List.mem_append.mp h1 with h1 | h1
          · have := (List.pairwise_append.mp h.once).2.2 y h1 it (by simp) h3
            rw [h2] at this; simp at this
          · rcases List.mem_cons.mp h1 with rfl | h1
            · rw [hs] at h2; simp at h2
            · exact e3 y h1 h3
        · exact (h.room x (by simp [hx])).other fun _ => e3 x hx
    | none =>
      rw [show updateLast (n, v).fst (adjust ps (n, v).snd) l = none from hu] at ha
      have hno := updateLast_none.mp hu
      simp at ha
      subst ha
      have hnV : ∀ w, (n, w) ∉ V := by
        intro w hw
        have hm := (h.used n).mpr ⟨w, hw⟩
        obtain ⟨y, hy, e⟩ := List.mem_map.mp hm
        exact hno y (List.mem_filter.mp hy).1 e
      intro x hx
      have hx' : x = newItem n v ∨ x ∈ l := by
        obtain ⟨t, a, rfl⟩ := List.eq_nil_or_concat l |>.resolve_left hne
        rw [List.concat_eq_append, insertBeforeLast_snoc] at hx
        simp at hx ⊢
        grind
      rcases hx' with rfl | hx
      · have hv : ∀ u, (n, u) ∈ V ++ [(n, v)] → u = v := by
          intro u hu
          rcases List.mem_append.mp hu with hu | hu
          · exact absurd hu (hnV u)
          · simpa using hu
        have hl : n.length ≤ (if v.length < n.length then n.length else v.length) ∧ v.length ≤ (if v.length < n.length then n.length else v.length) := by
          split <;> omega
        simp only [newItem]
        generalize (if v.length < n.length then n.length else v.length) = w at hl
        split
        · rename_i i hi
          have hii : i = intLen v := by
            unfold indexDot at hi
            split at hi
            · simp at hi; simpa [intLen] using hi.symm
            · simp at hi
          have := intLen_le v
          refine ⟨by simp only; omega, fun _ hf => absurd rfl hf, fun _ _ => ⟨by simp only; omega, fun u hu => ?_⟩⟩
          rw [hv u hu]
          simp only; omega
        · refine ⟨by simp only; omega, fun _ _ u hu => ?_, fun _ hf => by simp at hf⟩
          rw [hv u hu]
          simp only; omega
      · exact (h.room x hx).other fun _ => hno x hx

theorem addValues_widths {ps : List Str} : ∀ {d : List (Str × Str)} {l l' : List HItem} {V : List (Str × Str)}, Widths l V → d.foldlM (addValue ps) l = .ok l' → l ≠ [] →
    Widths l' (V ++ d) ∧ l' ≠ []
  | [], l, l', V, h, hd, hne => by
    simp [pure, Except.pure] at hd; subst hd
    exact ⟨by simpa using h, hne⟩
  | (n, v) :: d, l, l', V, h, hd, hne => by
    rw [List.foldlM_cons] at hd
    obtain ⟨l1, h1, h2⟩ := bind_ok.mp hd
    obtain ⟨a, b⟩ := addValue_widths h h1 hne
    have := addValues_widths a h2 b
    simpa using this

/-- the columns after the observations `obs` of a table of type `t`: what processDataElement computes (xmltopsv.py:39-160) -/
def tableInfo (tabs : Tables) (t : Str) (obs : List Elem) : Py (List Str × List HItem) := do
  let (ps, items) ← initialHeader tabs t
  let info ← obs.foldlM (fun info o => (subDict o).foldlM (addValue ps) info) items
  return (ps, info)

theorem foldl_insert_mem {names : List Str} : ∀ {items : List HItem} {x : HItem}, x ∈ names.foldl (fun l j => insertBeforeLast l ⟨j, j.length, .R, 0, false⟩) items →
    x ∈ items ∨ ∃ j : Str, x = ⟨j, j.length, .R, 0, false⟩ := by
  induction names with
  | nil => intro items x h; exact .inl h
  | cons j names ih =>
    intro items x h
    rcases ih h with h | h
    · unfold insertBeforeLast at h
      simp only [List.mem_append, List.mem_cons] at h
      rcases h with h | h | h
      · exact .inl (List.dropLast_subset _ h)
      · exact .inr ⟨j, h⟩
      · left
        simp at h
        exact List.mem_of_getLast? h
    · exact .inr h

theorem initial_widths {tabs : Tables} {t : Str} {ps : List Str} {items : List HItem} (h : initialHeader tabs t = .ok (ps, items)) : Widths items [] := by
  unfold initialHeader at h
  obtain ⟨fmts, h1, h2⟩ := bind_ok.mp h
  obtain ⟨al, h3, h4⟩ := bind_ok.mp h2
  simp only [pure, Except.pure, Except.ok.injEq, Prod.mk.injEq] at h4
  have key : ∀ it ∈ items, it.seen = false ∧ (it.name.length : Int) ≤ it.width := by
    intro it hit
    rw [← h4.2] at hit
    rcases foldl_insert_mem hit with hit | ⟨j, rfl⟩
    · obtain ⟨j, hj, rfl⟩ := List.mem_map.mp hit
      refine ⟨rfl, ?_⟩
      simp only
      split <;> omega
    · exact ⟨rfl, by simp⟩
  refine ⟨?_, fun n => ?_, fun it hit => ⟨(key it hit).2, fun hs => ?_, fun hs => ?_⟩⟩
  · have : ∀ l : List HItem, (∀ it ∈ l, it.seen = false) → l.Pairwise fun a b => a.name = b.name → a.seen = false := by
      intro l
      induction l with
      | nil => intro _; exact .nil
      | cons a l ih => intro hl; exact .cons (fun _ _ _ => hl a (by simp)) (ih fun x hx => hl x (by simp [hx]))
    exact this items fun it hit => (key it hit).1
  · simp only [List.not_mem_nil, exists_false, iff_false]
    intro hm
    obtain ⟨i, hi, -⟩ := List.mem_map.mp hm
    rw [List.mem_filter] at hi
    rw [(key i hi.1).1] at hi
    simp at hi
  · rw [(key it hit).1] at hs; simp at hs
  · rw [(key it hit).1] at hs; simp at hs

theorem tableInfo_widths {tabs : Tables} {t : Str} {obs : List Elem} {ps : List Str} {info : List HItem} (h : tableInfo tabs t obs = .ok (ps, info)) (hne : ∃ f fs, getItem tabs.psv t = .ok (f :: fs)) :
    Widths info (obs.flatMap subDict) := by
  unfold tableInfo at h
  obtain ⟨⟨ps', items⟩, h1, h2⟩ := bind_ok.mp h
  obtain ⟨info', h3, h4⟩ := bind_ok.mp h2
  simp only [pure, Except.pure, Except.ok.injEq, Prod.mk.injEq] at h4
  obtain ⟨rfl, rfl⟩ := h4
  have hi := initial_widths h1
  have hine : items ≠ [] := by
    obtain ⟨f, fs, hf⟩ := hne
    unfold initialHeader at h1
    rw [hf] at h1
    obtain ⟨fmts, e1, e2⟩ := bind_ok.mp h1
    simp at e1
    subst e1
    obtain ⟨al, e3, e4⟩ := bind_ok.mp e2
    simp only [pure, Except.pure, Except.ok.injEq, Prod.mk.injEq] at e4
    rw [← e4.2]
    have : ∀ (names : List Str) (l : List HItem), l ≠ [] → names.foldl (fun l j => insertBeforeLast l (⟨j, j.length, .R, 0, false⟩ : HItem)) l ≠ [] := by
      intro names
      induction names with
      | nil => intro l h; exact h
      | cons j names ih => intro l h; exact ih _ (by simp [insertBeforeLast])
    exact this _ _ (by simp)
  have : ∀ (obs : List Elem) (l l' : List HItem) (V : List (Str × Str)), Widths l V → l ≠ [] → obs.foldlM (fun info o => (subDict o).foldlM (addValue ps') info) l = .ok l' →
      Widths l' (V ++ obs.flatMap subDict) := by
    intro obs
    induction obs with
    | nil => intro l l' V h _ he; simp [pure, Except.pure] at he; subst he; simpa using h
    | cons o obs ih =>
      intro l l' V h hl he
      rw [List.foldlM_cons] at he
      obtain ⟨l1, e1, e2⟩ := bind_ok.mp he
      obtain ⟨a, b⟩ := addValues_widths h e1 hl
      have := ih l1 l' _ a b e2
      simpa using this
  simpa using this obs items info' [] hi hine h3

/-! ### the lines -/

/-- the layout of a column -/
def layout (it : HItem) : Layout := if it.fmt = .D then .number it.width.toNat it.dpos.toNat else .text it.width.toNat

theorem each_map_left {α β γ : Type} {f : α → β} {R : β → γ → Prop} : ∀ {l : List α} {r : List γ}, Each (fun a c => R (f a) c) l r → Each R (l.map f) r
  | _, _, .nil => .nil
  | _, _, .cons h t => .cons h (each_map_left t)

theorem each_imp {α β : Type} {R S : α → β → Prop} : ∀ {l : List α} {r : List β}, Each R l r → (∀ a b, a ∈ l → R a b → S a b) → Each S l r
  | _, _, .nil, _ => .nil
  | _, _, .cons h t, hh => .cons (hh _ _ (by simp) h) (each_imp t fun a b ha hr => hh a b (by simp [ha]) hr)

theorem rstrip_of_last {s : Str} (h : ∀ c ∈ s.getLast?, isSpace c = false) : rstrip s = s := by
  unfold rstrip
  cases hr : s.reverse with
  | nil => simpa using hr.symm
  | cons c t =>
    have : s.getLast? = some c := by rw [← List.head?_reverse, hr]; rfl
    have := h c (by simp [this])
    simp only [List.dropWhile_cons, this, Bool.false_eq_true, if_false]
    rw [← hr, List.reverse_reverse]

theorem cell_holds {it : HItem} {V : List (Str × Str)} {v : Str} (hr : Room it V) (hs : it.seen = true) (hv : (it.name, v) ∈ V) (ht : Trim v) {r : Str × Nat × Int}
    (h : applyPJ v it.width it.fmt it.dpos = .ok r) : (layout it).Holds r.1 := by
  obtain ⟨r, w, d⟩ := r
  unfold layout
  by_cases hD : it.fmt = .D
  · rw [if_pos hD]
    rw [hD] at h
    obtain ⟨h1, h2, h3, h4, h5⟩ := pjD h
    obtain ⟨n1, n2⟩ := hr.num hs hD
    have n3 := n2 v hv
    have hd : d = it.dpos := by omega
    subst hd
    rcases h5 with ⟨h0, rfl⟩ | ⟨a, b, rfl, ha, hb, rfl⟩
    · rw [intLen_nopoint h0] at n3
      left
      refine ⟨?_, ?_⟩
      · simp [h0, blanks]
      · simp only [List.length_append, blanks_length]; omega
    · rw [intLen_point ha] at n3
      right
      refine ⟨blanks (it.dpos - 1 - a.length) ++ a, b ++ blanks (it.width - it.dpos - b.length), by simp, ?_, ?_, ?_, ?_⟩
      · simp [ha, blanks]
      · simp [hb, blanks]
      · simp only [List.length_append, blanks_length]; omega
      · simp only [List.length_append, blanks_length, List.length_cons]
        by_cases hf : it.dpos + b.length ≤ it.width
        · left; omega
        · right
          refine ⟨by omega, ?_⟩
          have eb : blanks (it.width - it.dpos - b.length) = [] := blanks_of_neg (by omega)
          rw [eb, List.append_nil]
          apply rstrip_of_last
          intro c hc
          rw [List.getLast?_append] at hc
          have hne : (a ++ '.' :: b).getLast? = some ((a ++ '.' :: b).getLast (by simp)) := List.getLast?_eq_some_getLast _
          rw [hne] at hc
          simp only [Option.some_or, Option.mem_def, Option.some.injEq] at hc
          exact ht.last c (by rw [hne]; simpa using hc)
  · rw [if_neg hD]
    obtain ⟨b1, b2, b3, b4⟩ := pjText hD h
    have := hr.text hs hD v hv
    have := b4 this
    simp only [Layout.Holds]
    omega

theorem padded_of {v r : Str} {l : Int} {j : JType} {dpos : Int} {w : Nat} {d : Int} (h : applyPJ v l j dpos = .ok (r, w, d)) : Padded v r :=
  (C17_only_padding v l j dpos r w d h).1

/-- a column -/
def colOf (it : HItem) : Str × Layout := (it.name, layout it)

theorem header_lined {info : List HItem} {V : List (Str × Str)} (hw : Widths info V) {line : Str} (h : headerLine info = .ok line) :
    ∃ cells, line = cellsLine cells ∧ Each (fun col cell => Padded col.1 cell ∧ cell.length = col.2.width) ((info.filter (·.seen)).map colOf) cells := by
  unfold headerLine at h
  obtain ⟨cells, h1, h2⟩ := bind_ok.mp h
  simp [pure, Except.pure] at h2
  subst h2
  refine ⟨cells, by rw [cellsLine, joinBars_eq], each_map_left (each_imp (mapM_ok h1) fun it b hit hb => ?_)⟩
  obtain ⟨⟨r, w, d⟩, h3, h4⟩ := bind_ok.mp hb
  simp [pure, Except.pure] at h4
  subst h4
  refine ⟨padded_of h3, ?_⟩
  obtain ⟨b1, b2, b3, b4⟩ := pjText (by simp) h3
  have hn := (hw.room it (List.mem_filter.mp hit).1).name
  have := b4 hn
  simp only [colOf, layout]
  split <;> simp only [Layout.width] <;> omega

theorem dictGet_mem' {sub : List (Str × Str)} {n v : Str} (hd : PackUtil.dictGet sub n = some v) : (n, v) ∈ sub := by
  unfold PackUtil.dictGet at hd
  simp only [Option.map_eq_some_iff] at hd
  obtain ⟨⟨a, b⟩, e1, e2⟩ := hd
  simp at e2; subst e2
  have e3 := List.find?_some e1
  have e4 := List.mem_of_find?_eq_some e1
  simp at e3 e4
  subst e3; exact e4

theorem row_lined {P : Layout → Str → Prop} {info : List HItem} {sub : List (Str × Str)} {line : Str}
    (hP : ∀ it ∈ info, it.seen = true → ∀ cell, cellText sub it = .ok cell → P (layout it) cell) (h : rowLine info sub = .ok line) :
    ∃ cells, line = cellsLine cells ∧ Each (fun col cell => Padded ((PackUtil.dictGet sub col.1).getD []) cell ∧ P col.2 cell) ((info.filter (·.seen)).map colOf) cells := by
  unfold rowLine at h
  obtain ⟨cells, h1, h2⟩ := bind_ok.mp h
  simp [pure, Except.pure] at h2
  subst h2
  refine ⟨cells, by rw [cellsLine, joinBars_eq], each_map_left (each_imp (mapM_ok h1) fun it b hit hb => ⟨?_, ?_⟩)⟩
  · unfold cellText at hb
    simp only [colOf]
    cases hd : PackUtil.dictGet sub it.name with
    | none =>
      rw [hd] at hb; simp at hb; subst hb
      exact ⟨it.width.toNat, 0, by simp [blanks]⟩
    | some v =>
      rw [hd] at hb
      obtain ⟨⟨r, w, d⟩, h3, h4⟩ := bind_ok.mp hb
      simp [pure, Except.pure] at h4
      subst h4
      exact padded_of h3
  · rw [List.mem_filter] at hit
    exact hP it hit.1 hit.2 b hb

theorem cellText_holds {info : List HItem} {V : List (Str × Str)} (hw : Widths info V) {sub : List (Str × Str)} (hsub : ∀ p ∈ sub, p ∈ V ∧ Trim p.2) :
    ∀ it ∈ info, it.seen = true → ∀ cell, cellText sub it = .ok cell → (layout it).Holds cell := by
  intro it hit hs b hb
  unfold cellText at hb
  cases hd : PackUtil.dictGet sub it.name with
  | none =>
    rw [hd] at hb; simp at hb; subst hb
    unfold layout
    split
    · left
      exact ⟨fun hm => by simpa using blanks_mem hm, by simp [blanks_length]⟩
    · simp [Layout.Holds, blanks_length]
  | some v =>
    rw [hd] at hb
    obtain ⟨⟨r, w, d⟩, h3, h4⟩ := bind_ok.mp hb
    simp [pure, Except.pure] at h4
    subst h4
    have hm := dictGet_mem' hd
    exact cell_holds (hw.room it hit) hs (hsub _ hm).1 (hsub _ hm).2 h3

theorem strip_strip (s : Str) : strip (strip s) = strip s := strip_of_ends (strip_ends s).1 (strip_ends s).2

theorem subDict_trim (o : Elem) : ∀ p ∈ subDict o, Trim p.2 := by
  unfold subDict
  have : ∀ (kids : List Elem) (d : List (Str × Str)), (∀ p ∈ d, Trim p.2) →
      ∀ p ∈ kids.foldl (fun d i => let (t, x) := getElementTagText i; if x.isEmpty then d else dictSet d t x) d, Trim p.2 := by
    intro kids
    induction kids with
    | nil => intro d h; exact h
    | cons k kids ih =>
      intro d h
      rw [List.foldl_cons]
      apply ih
      change ∀ p ∈ (if (regularizeWhiteSpace k.text).isEmpty then d else dictSet d k.tag (regularizeWhiteSpace k.text)), Trim p.2
      split
      · exact h
      · have ht : Trim (regularizeWhiteSpace k.text) := by
          unfold regularizeWhiteSpace
          split
          · rfl
          · exact strip_strip _
        intro p hp
        unfold dictSet at hp
        split at hp
        · obtain ⟨q, hq, e⟩ := List.mem_map.mp hp
          split at e
          · subst e; exact ht
          · subst e; exact h q hq
        · rcases List.mem_append.mp hp with hp | hp
          · exact h p hp
          · simp at hp; subst hp; exact ht
  exact this o.kids [] (by simp)

/-! ### the values -/

/-- the dictionary after the children `kids` -/
def kidsDict (kids : List Elem) : List (Str × Str) :=
  kids.foldl (fun d i => let (t, x) := getElementTagText i; if x.isEmpty then d else dictSet d t x) []

theorem find_map_set {k v n : Str} : ∀ d : List (Str × Str), ((d.map fun p => if p.1 = k then (k, v) else p).find? (·.1 == n)).map (·.2) =
    if n = k ∧ d.any (fun p => p.1 == k) then some v else (d.find? (·.1 == n)).map (·.2)
  | [] => by simp
  | p :: d => by
    have ih := find_map_set (k := k) (v := v) (n := n) d
    simp only [List.map_cons, List.find?_cons, List.any_cons]
    by_cases hp : p.1 = k
    · by_cases hn : n = k
      · simp [hp, hn]
      · have h1 : ((k == n) : Bool) = false := by simpa using fun e => hn e.symm
        simp only [hp, if_true, h1]
        rw [ih]
        simp [hn]
    · simp only [hp, if_false]
      have hp' : ((p.1 == k) : Bool) = false := by simpa using hp
      by_cases hpn : p.1 = n
      · have : ¬ n = k := fun e => hp (hpn.trans e)
        simp [hpn, this]
      · have h1 : ((p.1 == n) : Bool) = false := by simpa using hpn
        simp only [h1, hp', Bool.false_or]
        exact ih

theorem dictGet_set {d : List (Str × Str)} {k v n : Str} : PackUtil.dictGet (dictSet d k v) n = if n = k then some v else PackUtil.dictGet d n := by
  unfold dictSet PackUtil.dictGet
  split
  · rename_i h
    rw [← List.map_reverse, find_map_set]
    have : (d.reverse.any fun p => p.1 == k) = true := by rw [List.any_reverse]; exact h
    simp [this]
  · rename_i h
    rw [List.reverse_append]
    by_cases hn : n = k
    · subst hn; simp
    · have : ¬ k = n := fun e => hn e.symm
      simp [hn, this]

theorem kidsDict_value (n : Str) : ∀ kids : List Elem, PackUtil.dictGet (kidsDict kids) n =
    (kids.filterMap fun k => if k.tag = n ∧ strip (k.text.getD []) ≠ [] then some (strip (k.text.getD [])) else none).getLast? := by
  intro kids
  rcases List.eq_nil_or_concat kids with rfl | ⟨l, k, rfl⟩
  · rfl
  · have ih := kidsDict_value n l
    rw [List.concat_eq_append]
    have hr : regularizeWhiteSpace k.text = strip (k.text.getD []) := by
      cases k.text <;> rfl
    have e : kidsDict (l ++ [k]) = if (strip (k.text.getD [])).isEmpty then kidsDict l else dictSet (kidsDict l) k.tag (strip (k.text.getD [])) := by
      rw [← hr]
      simp only [kidsDict, List.foldl_append, List.foldl_cons, List.foldl_nil]
      rfl
    rw [e, List.filterMap_append]
    by_cases h0 : strip (k.text.getD []) = []
    · have : (strip (k.text.getD [])).isEmpty = true := by rw [h0]; rfl
      rw [if_pos this, ih]
      simp [h0]
    · have : ¬ (strip (k.text.getD [])).isEmpty = true := by simpa using h0
      rw [if_neg this, dictGet_set]
      by_cases hk : k.tag = n
      · simp [hk, h0]
      · have : ¬ n = k.tag := fun e => hk e.symm
        simp [hk, this, ih]
termination_by kids => kids.length

theorem value_eq (o : Elem) (n : Str) : PackUtil.dictGet (subDict o) n = value o n := kidsDict_value n o.kids

theorem dictGet_isSome {d : List (Str × Str)} {n : Str} : (PackUtil.dictGet d n).isSome ↔ ∃ v, (n, v) ∈ d := by
  constructor
  · intro h
    obtain ⟨v, hv⟩ := Option.isSome_iff_exists.mp h
    exact ⟨v, dictGet_mem' hv⟩
  · rintro ⟨v, hv⟩
    cases hd : PackUtil.dictGet d n with
    | some => rfl
    | none =>
      unfold PackUtil.dictGet at hd
      simp at hd
      exact absurd rfl (hd _ _ hv)

theorem each_map_left' {α β γ : Type} {f : α → β} {R : β → γ → Prop} : ∀ {l : List α} {r : List γ}, Each R (l.map f) r → Each (fun a c => R (f a) c) l r
  | [], _, .nil => .nil
  | _ :: _, _, .cons h t => .cons h (each_map_left' t)

/-- the lines of a table -/
theorem table_lined {P : Layout → Str → Prop} {tabs : Tables} {t : Str} {obs : List Elem} {ps : List Str} {info : List HItem} (h : tableInfo tabs t obs = .ok (ps, info)) (hne : ∃ f fs, getItem tabs.psv t = .ok (f :: fs))
    (hP : ∀ o ∈ obs, ∀ it ∈ info, it.seen = true → ∀ cell, cellText (subDict o) it = .ok cell → P (layout it) cell)
    {hl : Str} {rows : List Str} (hh : headerLine info = .ok hl) (hr : (obs.map subDict).mapM (rowLine info) = .ok rows) : IsTable P obs hl rows := by
  have hw := tableInfo_widths h hne
  have hn : ((info.filter (·.seen)).map colOf).map (·.1) = (info.filter (·.seen)).map (·.name) := by simp [colOf, Function.comp_def]
  refine ⟨(info.filter (·.seen)).map colOf, ?_, fun n => ?_, header_lined hw hh, ?_⟩
  · rw [hn, List.Nodup, List.pairwise_map]
    refine List.Pairwise.imp_of_mem (fun {a b} ha hb hab e => ?_) (hw.once.sublist List.filter_sublist)
    have := (List.mem_filter.mp ha).2
    rw [hab e] at this
    simp at this
  · have hu := hw.used n
    rw [hn]
    unfold cols at hu
    rw [hu]
    constructor
    · rintro ⟨v, hv⟩
      obtain ⟨o, ho, hv⟩ := List.mem_flatMap.mp hv
      exact ⟨o, ho, by rw [← value_eq, dictGet_isSome]; exact ⟨v, hv⟩⟩
    · rintro ⟨o, ho, hv⟩
      rw [← value_eq, dictGet_isSome] at hv
      obtain ⟨v, hv⟩ := hv
      exact ⟨v, List.mem_flatMap.mpr ⟨o, ho, hv⟩⟩
  · refine each_imp (each_map_left' (mapM_ok hr)) fun o r ho he => ?_
    obtain ⟨cells, h1, h2⟩ := row_lined (hP o ho) he
    refine ⟨cells, h1, each_imp h2 fun col cell _ hc => ?_⟩
    rw [← value_eq]
    exact hc

theorem table_holds {tabs : Tables} {t : Str} {obs : List Elem} {ps : List Str} {info : List HItem} (h : tableInfo tabs t obs = .ok (ps, info)) (hne : ∃ f fs, getItem tabs.psv t = .ok (f :: fs)) :
    ∀ o ∈ obs, ∀ it ∈ info, it.seen = true → ∀ cell, cellText (subDict o) it = .ok cell → (layout it).Holds cell := fun o ho =>
  cellText_holds (tableInfo_widths h hne) fun p hp => ⟨List.mem_flatMap.mpr ⟨o, ho, hp⟩, subDict_trim o p hp⟩

end Verif.ToPsv
