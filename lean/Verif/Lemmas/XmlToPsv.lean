import Verif.XmlToPsv
import Verif.Lemmas.PsvText
import Verif.Props.Justify
/-! The text of the lines xmltopsv writes. -/
namespace Verif.ToPsv
open Verif Verif.Xml Verif.Spec Verif.Psv

theorem joinBars_eq : ∀ l : List Str, joinBars l = List.intercalate ['|'] l
  | [] => rfl
  | [x] => by simp [joinBars, List.intercalate]
  | x :: y :: l => by
    rw [joinBars, joinBars_eq (y :: l)]
    · simp [List.intercalate]
    · simp

theorem strip_cons_space {c : Char} (h : isSpace c = true) (p : Str) : strip (c :: p) = strip p := by
  unfold strip rstrip lstrip
  rw [List.reverse_cons, List.dropWhile_append]
  split
  · rename_i he
    have : List.dropWhile isSpace p.reverse = [] := by simpa using he
    simp [this, h]
  · simp [h]

theorem rstrip_snoc_space {c : Char} (h : isSpace c = true) (p : Str) : rstrip (p ++ [c]) = rstrip p := by
  simp [rstrip, h]

theorem strip_snoc_space {c : Char} (h : isSpace c = true) (p : Str) : strip (p ++ [c]) = strip p := by
  rw [strip, rstrip_snoc_space h, strip]

theorem splitChar_cons_ne {c d : Char} (h : d ≠ c) (s : Str) : ∃ p ps, splitChar c s = p :: ps ∧ splitChar c (d :: s) = (d :: p) :: ps := by
  cases hs : splitChar c s with
  | nil => exact absurd hs (splitChar_ne_nil c s)
  | cons p ps => exact ⟨p, ps, rfl, by rw [splitChar, if_neg h, hs]⟩

theorem splitChar_snoc_ne {c d : Char} (h : d ≠ c) : ∀ s : Str, ∃ ps p, splitChar c s = ps ++ [p] ∧ splitChar c (s ++ [d]) = ps ++ [p ++ [d]]
  | [] => ⟨[], [], by simp [splitChar], by simp [splitChar, h]⟩
  | e :: s => by
    obtain ⟨ps, p, h1, h2⟩ := splitChar_snoc_ne h s
    by_cases he : e = c
    · exact ⟨[] :: ps, p, by simp [splitChar, he, h1], by simp [splitChar, he, h2]⟩
    · cases ps with
      | nil => exact ⟨[], e :: p, by simp at h1; simp [splitChar, he, h1], by simp at h2; simp [splitChar, he, h2]⟩
      | cons q qs => exact ⟨(e :: q) :: qs, p, by simp at h1; simp [splitChar, he, h1], by simp at h2; simp [splitChar, he, h2]⟩

theorem space_ne_bar {d : Char} (h : isSpace d = true) : d ≠ '|' := by rintro rfl; revert h; decide

theorem split_lstrip : ∀ s : Str, (splitChar '|' (lstrip s)).map strip = (splitChar '|' s).map strip
  | [] => rfl
  | d :: s => by
    by_cases h : isSpace d = true
    · have e : lstrip (d :: s) = lstrip s := by simp [lstrip, h]
      obtain ⟨p, ps, h1, h2⟩ := splitChar_cons_ne (space_ne_bar h) s
      rw [e, split_lstrip s, h1, h2]
      simp [strip_cons_space h]
    · have e : lstrip (d :: s) = d :: s := by simp [lstrip, h]
      rw [e]

theorem split_rstrip (s : Str) : (splitChar '|' (rstrip s)).map strip = (splitChar '|' s).map strip := by
  suffices ∀ r : Str, (splitChar '|' (rstrip r.reverse)).map strip = (splitChar '|' r.reverse).map strip by
    simpa using this s.reverse
  intro r
  induction r with
  | nil => rfl
  | cons d r ih =>
    by_cases h : isSpace d = true
    · rw [List.reverse_cons, rstrip_snoc_space h, ih]
      obtain ⟨ps, p, h1, h2⟩ := splitChar_snoc_ne (space_ne_bar h) r.reverse
      rw [h1, h2]
      simp [strip_snoc_space h]
    · have e : rstrip (d :: r).reverse = (d :: r).reverse := by simp [rstrip, h]
      rw [e]

theorem isCells_strip {s : Str} {cs : List Str} (h : IsCells s cs) : IsCells (strip s) cs := by
  rw [isCells_iff] at *
  rw [h, strip, split_lstrip, split_rstrip]

theorem strip_rstrip (s : Str) : strip (rstrip s) = strip s := by
  have : rstrip (rstrip s) = rstrip s := by
    unfold rstrip
    rw [List.reverse_reverse]
    congr 1
    generalize s.reverse = t
    induction t with
    | nil => rfl
    | cons c t ih =>
      by_cases h : isSpace c = true
      · simp [h, ih]
      · simp [h]
  rw [strip, this, strip]

/-- the line of cells `xs` (each the padded form of a text without '|') -/
theorem bars_cells {xs : List Str} (hne : xs ≠ []) (h : ∀ x ∈ xs, '|' ∉ x) : IsCells (strip (rstrip (joinBars xs))) (xs.map strip) := by
  rw [strip_rstrip, joinBars_eq]
  exact isCells_strip ⟨xs, rfl, hne, h, rfl⟩

/-- no outer white space -/
def Trim (s : Str) : Prop := strip s = s

theorem Trim.head {s : Str} (h : Trim s) : ∀ c ∈ s.head?, isSpace c = false := by
  have := (strip_ends s).1
  rwa [h] at this
theorem Trim.last {s : Str} (h : Trim s) : ∀ c ∈ s.getLast?, isSpace c = false := by
  have := (strip_ends s).2
  rwa [h] at this

theorem pad_facts {s : Str} {l : Int} {j : JType} {dpos : Int} {r : Str × Nat × Int} (h : applyPJ s l j dpos = .ok r) (ht : Trim s) (hb : '|' ∉ s) :
    strip r.1 = s ∧ '|' ∉ r.1 := by
  obtain ⟨r, w, d⟩ := r
  refine ⟨C17_strip s l j dpos r w d h ht.head ht.last, ?_⟩
  obtain ⟨⟨i, k, rfl⟩, -, -⟩ := C17_only_padding s l j dpos r w d h
  simp [hb]

theorem strip_blanks (n : Int) : strip (blanks n) = [] := by
  have := strip_pad (s := []) n.toNat 0 (by simp) (by simp)
  simpa [blanks] using this

theorem mapM_ok {α β : Type} {f : α → Py β} : ∀ {l : List α} {r : List β}, l.mapM f = .ok r → Each (fun a b => f a = .ok b) l r
  | [], r, h => by simp [pure, Except.pure] at h; subst h; exact .nil
  | a :: l, r, h => by
    rw [List.mapM_cons] at h
    obtain ⟨b, h1, h2⟩ := bind_ok.mp h
    obtain ⟨bs, h3, h4⟩ := bind_ok.mp h2
    simp [pure, Except.pure] at h4
    subst h4
    exact .cons h1 (mapM_ok h3)

theorem each_map {α β γ : Type} {R : α → β → Prop} {f : β → γ} {g : α → γ} : ∀ {l : List α} {r : List β}, Each R l r → (∀ a b, a ∈ l → R a b → f b = g a) → r.map f = l.map g
  | _, _, .nil, _ => rfl
  | _, _, .cons h t, hh => by
    simp only [List.map_cons]
    rw [hh _ _ (by simp) h, each_map t fun a b ha hr => hh a b (by simp [ha]) hr]

theorem each_mem {α β : Type} {R : α → β → Prop} : ∀ {l : List α} {r : List β}, Each R l r → ∀ b ∈ r, ∃ a ∈ l, R a b
  | _, _, .nil, _, hb => by simp at hb
  | _, _, .cons h t, b, hb => by
    rcases List.mem_cons.mp hb with rfl | hb
    · exact ⟨_, by simp, h⟩
    · obtain ⟨a, h1, h2⟩ := each_mem t b hb
      exact ⟨a, by simp [h1], h2⟩

/-- the names of the columns that are printed -/
def cols (info : List HItem) : List Str := (info.filter (·.seen)).map (·.name)

theorem header_cells {info : List HItem} {line : Str} (h : headerLine info = .ok line) (hne : cols info ≠ []) (hn : ∀ n ∈ cols info, Trim n ∧ '|' ∉ n) :
    IsCells (strip line) (cols info) := by
  unfold headerLine at h
  obtain ⟨cells, h1, h2⟩ := bind_ok.mp h
  simp [pure, Except.pure] at h2
  subst h2
  have he := mapM_ok h1
  have key : ∀ it b, it ∈ info.filter (·.seen) → (do let r ← applyPJ it.name it.width .L 0; return r.1 : Py Str) = .ok b → strip b = it.name ∧ '|' ∉ b := by
    intro it b hi hb
    obtain ⟨r, h3, h4⟩ := bind_ok.mp hb
    simp [pure, Except.pure] at h4
    subst h4
    have := hn it.name (List.mem_map.mpr ⟨it, hi, rfl⟩)
    exact pad_facts h3 this.1 this.2
  have hc : cells.map strip = cols info := each_map he fun a b ha hr => (key a b ha hr).1
  rw [← hc]
  refine bars_cells (by rintro rfl; simp at hc; exact hne hc) fun x hx => ?_
  obtain ⟨a, ha, hr⟩ := each_mem he x hx
  exact (key a x ha hr).2

/-- the value of a column -/
def valueOf (sub : List (Str × Str)) (n : Str) : Str := (PackUtil.dictGet sub n).getD []

theorem row_cells' {info : List HItem} {sub : List (Str × Str)} {line : Str} (h : rowLine info sub = .ok line) (hne : cols info ≠ [])
    (hv : ∀ n v, PackUtil.dictGet sub n = some v → Trim v ∧ '|' ∉ v) : IsCells (strip line) ((cols info).map (valueOf sub)) := by
  unfold rowLine at h
  obtain ⟨cells, h1, h2⟩ := bind_ok.mp h
  simp [pure, Except.pure] at h2
  subst h2
  have he := mapM_ok h1
  have key : ∀ it b, cellText sub it = .ok b → strip b = valueOf sub it.name ∧ '|' ∉ b := by
    intro it b hb
    unfold cellText at hb
    unfold valueOf
    cases hd : PackUtil.dictGet sub it.name with
    | none =>
      rw [hd] at hb; simp at hb; subst hb
      exact ⟨by simp [strip_blanks], fun hm => by simpa using blanks_mem hm⟩
    | some v =>
      rw [hd] at hb
      obtain ⟨r, h3, h4⟩ := bind_ok.mp hb
      simp [pure, Except.pure] at h4
      subst h4
      exact pad_facts h3 (hv _ _ hd).1 (hv _ _ hd).2
  have hc : cells.map strip = (cols info).map (valueOf sub) := by
    rw [cols, List.map_map]
    exact each_map he fun a b _ hr => (key a b hr).1
  rw [← hc]
  refine bars_cells (by rintro rfl; simp at hc; exact hne hc) fun x hx => ?_
  obtain ⟨a, _, hr⟩ := each_mem he x hx
  exact (key a x hr).2

theorem lstrip_head_of {p : Str} {c : Char} (h : p.head? = some c) (hc : isSpace c = false) : (strip p).head? = some c := by
  cases p with
  | nil => simp at h
  | cons d t =>
    simp at h; subst h
    have hr : ∃ u, rstrip (d :: t) = d :: u := by
      unfold rstrip
      rw [List.reverse_cons, List.dropWhile_append]
      split
      · simp [hc]
      · simp
    obtain ⟨u, hu⟩ := hr
    rw [strip, hu]
    simp [lstrip, hc]

/-- the first character of a line of cells -/
theorem cells_head {line : Str} {x : Str} {xs : List Str} (h : IsCells (strip line) (x :: xs)) :
    strip line = [] ∨ (strip line).head? = some '|' ∨ ∃ c, (strip line).head? = some c ∧ x.head? = some c := by
  obtain ⟨pieces, h1, h2, h3, h4⟩ := h
  cases pieces with
  | nil => exact absurd rfl h2
  | cons p ps =>
    simp at h4
    cases p with
    | nil =>
      cases ps with
      | nil => left; simpa [List.intercalate] using h1.symm
      | cons q qs => right; left; rw [← h1]; simp [List.intercalate]
    | cons c p =>
      have hh : (strip line).head? = some c := by
        rw [← h1]
        cases ps <;> simp [List.intercalate]
      right; right
      refine ⟨c, hh, ?_⟩
      rw [h4.1]
      exact lstrip_head_of rfl ((strip_ends line).1 c (by simp [hh]))

theorem cells_nonempty {line : Str} {xs : List Str} (h : IsCells (strip line) xs) (hx : ∃ x ∈ xs, x ≠ []) : strip line ≠ [] := by
  intro e
  rw [e, isCells_iff] at h
  simp [splitChar, strip, rstrip, lstrip] at h
  subst h
  obtain ⟨x, hm, hx⟩ := hx
  simp at hm; exact hx hm

/-! ### the column list -/

/-- The columns after the values of the rows `D`: of two items with one name only the later can be used; the names used are those of the rows; the last item is `last`. -/
structure Cols (last : Str) (info : List HItem) (D : List (List (Str × Str))) : Prop where
  once : info.Pairwise fun a b => a.name = b.name → a.seen = false
  used : ∀ n, n ∈ cols info ↔ ∃ d ∈ D, ∃ v, (n, v) ∈ d
  fin : info.getLast?.map (·.name) = some last

theorem updateLast_none {n : Str} {f : HItem → Py HItem} : ∀ {l : List HItem}, updateLast n f l = none ↔ ∀ it ∈ l, it.name ≠ n
  | [] => by simp [updateLast]
  | it :: l => by
    have ih := updateLast_none (n := n) (f := f) (l := l)
    rw [updateLast]
    cases h : updateLast n f l with
    | none =>
      rw [h] at ih
      by_cases e : it.name = n
      · simp [e]
      · simp [e]; simpa using ih
    | some r =>
      rw [h] at ih
      simp at ih
      simp
      intro _
      exact ih

theorem updateLast_some {n : Str} {f : HItem → Py HItem} : ∀ {l : List HItem} {r : Py (List HItem)} {l' : List HItem}, updateLast n f l = some r → r = .ok l' →
    ∃ a it it' b, l = a ++ it :: b ∧ it.name = n ∧ (∀ x ∈ b, x.name ≠ n) ∧ f it = .ok it' ∧ l' = a ++ it' :: b
  | [], r, l', h, _ => by simp [updateLast] at h
  | it :: l, r, l', h, hr => by
    rw [updateLast] at h
    cases hu : updateLast n f l with
    | none =>
      rw [hu] at h
      by_cases e : it.name = n
      · simp [e] at h
        subst h
        obtain ⟨it', h1, h2⟩ := bind_ok.mp hr
        simp [pure, Except.pure] at h2
        exact ⟨[], it, it', l, rfl, e, updateLast_none.mp hu, h1, h2.symm⟩
      · simp [e] at h
    | some q =>
      rw [hu] at h
      simp at h
      subst h
      obtain ⟨l1, h1, h2⟩ := bind_ok.mp hr
      simp [pure, Except.pure] at h2
      obtain ⟨a, i, i', b, e1, e2, e3, e4, e5⟩ := updateLast_some hu h1
      exact ⟨it :: a, i, i', b, by simp [e1], e2, e3, e4, by rw [← h2, e5]; rfl⟩

theorem adjust_ok {ps : List Str} {v : Str} {it it' : HItem} (h : adjust ps v it = .ok it') : it'.name = it.name ∧ it'.seen = true := by
  unfold adjust at h
  simp only at h
  split at h <;> (obtain ⟨⟨a, b, c⟩, h1, h2⟩ := bind_ok.mp h; simp [pure, Except.pure] at h2; subst h2; simp)
  split <;> simp

theorem insertBeforeLast_snoc {α : Type} (l : List α) (a x : α) : insertBeforeLast (l ++ [a]) x = l ++ [x, a] := by
  simp [insertBeforeLast]

theorem getLast?_split {α : Type} {l : List α} {a : α} (h : l.getLast? = some a) : ∃ t, l = t ++ [a] := by
  exact List.getLast?_eq_some_iff.mp h

/-- one more value -/
theorem addValue_cols {last : Str} {ps : List Str} {l l' : List HItem} {n v : Str} (h : addValue ps l (n, v) = .ok l')
    (ho : l.Pairwise fun a b => a.name = b.name → a.seen = false) (hf : l.getLast?.map (·.name) = some last) :
    (l'.Pairwise fun a b => a.name = b.name → a.seen = false) ∧ (∀ m, m ∈ cols l' ↔ m ∈ cols l ∨ m = n) ∧ l'.getLast?.map (·.name) = some last := by
  unfold addValue at h
  cases hu : updateLast n (adjust ps v) l with
  | some r =>
    rw [show updateLast (n, v).fst (adjust ps (n, v).snd) l = some r from hu] at h
    obtain ⟨a, it, it', b, rfl, e2, e3, e4, rfl⟩ := updateLast_some hu h
    have ha := adjust_ok e4
    refine ⟨?_, ?_, ?_⟩
    · rw [List.pairwise_append, List.pairwise_cons] at *
      refine ⟨ho.1, ⟨fun x hx hxx => ?_, ho.2.1.2⟩, fun x hx y hy => ?_⟩
      · exact absurd (by rw [← hxx, ha.1, e2]) (e3 x hx)
      · rcases List.mem_cons.mp hy with rfl | hy
        · have := ho.2.2 x hx it (by simp)
          rw [ha.1]; exact this
        · exact ho.2.2 x hx y (by simp [hy])
    · intro m
      simp only [cols, List.filter_append, List.filter_cons, ha.2, if_true, List.map_append, List.map_cons, ha.1, e2, List.mem_append, List.mem_cons]
      split
      · simp [e2]; grind
      · grind
    · rw [List.getLast?_append] at *
      cases b with
      | nil => simpa [ha.1] using hf
      | cons => simpa using hf
  | none =>
    rw [show updateLast (n, v).fst (adjust ps (n, v).snd) l = none from hu] at h
    have hno := updateLast_none.mp hu
    simp at h
    subst h
    cases hl : l.getLast? with
    | none => rw [hl] at hf; simp at hf
    | some z =>
      rw [hl] at hf
      obtain ⟨t, rfl⟩ := getLast?_split hl
      have hx : (newItem n v).name = n ∧ (newItem n v).seen = true := by
        simp only [newItem]; split <;> exact ⟨rfl, rfl⟩
      generalize newItem n v = x at hx
      rw [insertBeforeLast_snoc]
      refine ⟨?_, ?_, ?_⟩
      · rw [List.pairwise_append] at *
        refine ⟨ho.1, ?_, fun y hy w hw => ?_⟩
        · rw [List.pairwise_cons]
          refine ⟨fun w hw hxx => ?_, by simp⟩
          simp at hw; subst hw
          exact absurd (by rw [← hxx, hx.1]) (hno w (by simp))
        · simp at hw
          rcases hw with rfl | rfl
          · intro hxx
            exact absurd (by rw [hxx, hx.1]) (hno y (by simp [hy]))
          · exact ho.2.2 y hy w (by simp)
      · intro m
        simp only [cols, List.filter_append, List.filter_cons, hx.2, if_true, List.map_append, List.map_cons, hx.1, List.mem_append, List.mem_cons, List.filter_nil]
        grind
      · simpa using hf

theorem addValues_cols {last : Str} {ps : List Str} : ∀ {d : List (Str × Str)} {l l' : List HItem}, d.foldlM (addValue ps) l = .ok l' →
    (l.Pairwise fun a b => a.name = b.name → a.seen = false) → l.getLast?.map (·.name) = some last →
    (l'.Pairwise fun a b => a.name = b.name → a.seen = false) ∧ (∀ m, m ∈ cols l' ↔ m ∈ cols l ∨ ∃ v, (m, v) ∈ d) ∧ l'.getLast?.map (·.name) = some last
  | [], l, l', h, ho, hf => by
    simp [pure, Except.pure] at h; subst h; simp [ho, hf]
  | (n, v) :: d, l, l', h, ho, hf => by
    rw [List.foldlM_cons] at h
    obtain ⟨l1, h1, h2⟩ := bind_ok.mp h
    obtain ⟨a, b, c⟩ := addValue_cols h1 ho hf
    obtain ⟨a', b', c'⟩ := addValues_cols h2 a c
    refine ⟨a', fun m => ?_, c'⟩
    rw [b', b]
    simp
    grind

theorem Cols.addRow {last : Str} {ps : List Str} {info info' : List HItem} {D : List (List (Str × Str))} {d : List (Str × Str)} (h : Cols last info D)
    (hd : d.foldlM (addValue ps) info = .ok info') : Cols last info' (D ++ [d]) := by
  obtain ⟨a, b, c⟩ := addValues_cols hd h.once h.fin
  refine ⟨a, fun n => ?_, c⟩
  rw [b, h.used]
  simp
  try grind

theorem Cols.nodup {last : Str} {info : List HItem} {D : List (List (Str × Str))} (h : Cols last info D) : (cols info).Nodup := by
  have := h.once
  unfold cols List.Nodup
  rw [List.pairwise_map, List.pairwise_filter]
  refine this.imp ?_
  intro a b hab ha _ hn
  rw [hab hn] at ha
  simp at ha

/-- the last column is the first one only if it is the only one -/
theorem Cols.first {last : Str} {info : List HItem} {D : List (List (Str × Str))} (h : Cols last info D) {x : Str} {xs : List Str} (hc : cols info = x :: xs)
    (hx : ∃ n ∈ cols info, n ≠ last) : x ≠ last := by
  rintro rfl
  have hn := h.nodup
  cases hl : info.getLast? with
  | none => have := h.fin; rw [hl] at this; simp at this
  | some z =>
    have hf := h.fin
    rw [hl] at hf
    simp at hf
    obtain ⟨t, rfl⟩ := getLast?_split hl
    -- items named as the last one, before it, are not used
    have ht : x ∉ cols t := by
      intro hm
      simp only [cols, List.mem_map, List.mem_filter] at hm
      obtain ⟨it, ⟨h1, h2⟩, h3⟩ := hm
      have := (List.pairwise_append.mp h.once).2.2 it h1 z (by simp) (by rw [h3, hf])
      rw [this] at h2; simp at h2
    have e : cols (t ++ [z]) = cols t ++ cols [z] := by simp [cols]
    rw [e] at hc hx
    cases hct : cols t with
    | nil =>
      rw [hct] at hx
      obtain ⟨n, hm, hne⟩ := hx
      simp [cols] at hm
      obtain ⟨a, ⟨rfl, -⟩, h2⟩ := hm
      exact hne (h2.symm.trans hf)
    | cons y ys =>
      rw [hct] at hc ht
      simp at hc
      simp [hc.1] at ht

end Verif.ToPsv
