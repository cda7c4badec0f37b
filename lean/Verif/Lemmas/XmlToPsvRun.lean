import Verif.Lemmas.XmlToPsv
import Verif.Props.Tables
import Verif.Spec.Writable
/-! From the tables xmltopsv builds to the groups of a PSV document. -/
namespace Verif.ToPsv
open Verif Verif.Xml Verif.Spec Verif.Psv Verif.Master

/-- the observation elements that have PSV formats -/
def psvKinds : List Str := [c! "optical", c! "offset", c! "occultation", c! "radar"]

/-- valid in the general schema -/
abbrev validObs (F : Facets) (t : Str) (e : Elem) : Prop := Valid F (schema .general adesmaster) (.typed (typeName t) e)

theorem psvKinds_obs {t : Str} (h : t ∈ psvKinds) : t ∈ obsKinds := by
  simp only [psvKinds, obsKinds, List.mem_cons, List.not_mem_nil, or_false] at *
  grind

/-! ### dictionaries -/

theorem dictGet_of_mem {d : List (Str × Str)} (hn : (d.map (·.1)).Nodup) {k v : Str} (hm : (k, v) ∈ d) : PackUtil.dictGet d k = some v := by
  have hs : (PackUtil.dictGet d k).isSome := by
    cases h : PackUtil.dictGet d k with
    | none => exact absurd rfl (dictGet_none.mp h _ hm)
    | some => rfl
  obtain ⟨w, hw⟩ := Option.isSome_iff_exists.mp hs
  have hm' := C33.dictGet_mem hw
  rw [hw]
  congr 1
  clear hw hs
  induction d with
  | nil => simp at hm
  | cons p d ih =>
    simp only [List.map_cons, List.nodup_cons, List.mem_map, not_exists, not_and] at hn
    rcases List.mem_cons.mp hm with e1 | h1
    · rcases List.mem_cons.mp hm' with e2 | h2
      · rw [← e1] at e2; simp at e2; exact e2
      · exact absurd (by rw [← e1]) (hn.1 _ h2)
    · rcases List.mem_cons.mp hm' with e2 | h2
      · exact absurd (by rw [← e2]) (hn.1 _ h1)
      · exact ih hn.2 h1 h2

/-- the (name, value) pairs of an observation -/
def pairs (kids : List Elem) : List (Str × Str) := kids.map fun k => (k.tag, k.text.getD [])

theorem dictSet_new {d : List (Str × Str)} {k v : Str} (h : k ∉ d.map (·.1)) : dictSet d k v = d ++ [(k, v)] := by
  unfold dictSet
  rw [if_neg]
  simp only [List.any_eq_true, beq_iff_eq, not_exists, not_and]
  intro p hp e
  exact h (List.mem_map.mpr ⟨p, hp, e⟩)

theorem subDict_aux : ∀ (kids : List Elem) (d : List (Str × Str)), (∀ k ∈ kids, ∃ v, k.text = some v ∧ v ≠ [] ∧ strip v = v) → (d.map (·.1) ++ kids.map Elem.tag).Nodup →
    kids.foldl (fun d i => let (t, x) := getElementTagText i; if x.isEmpty then d else dictSet d t x) d = d ++ pairs kids
  | [], d, _, _ => by simp [pairs]
  | k :: kids, d, h, hn => by
    obtain ⟨v, h1, h2, h3⟩ := h k (by simp)
    have e : getElementTagText k = (k.tag, v) := by simp [getElementTagText, h1, regularizeWhiteSpace, h3]
    have hk : k.tag ∉ d.map (·.1) := by
      intro hm
      rw [List.nodup_append] at hn
      exact hn.2.2 _ hm k.tag (by simp) rfl
    rw [List.foldl_cons, e]
    have h2' : v.isEmpty = false := by simpa using h2
    simp only [h2', Bool.false_eq_true, if_false]
    rw [dictSet_new hk, subDict_aux kids _ (fun x hx => h x (by simp [hx])) (by simpa using hn)]
    simp [pairs, h1]

variable {F : Facets} {t : Str}

theorem cells_facts {o : Elem} (ht : t ∈ psvKinds) (h : Cells (validObs F) t o) :
    (o.kids.map Elem.tag).Sublist (adesTypes.allowed t) ∧ (o.kids.map Elem.tag).Nodup ∧ subDict o = pairs o.kids := by
  have h1 := C33_order F t (psvKinds_obs ht) o h.valid
  have h2 := (adesTypes_nodup t).sublist h1
  refine ⟨h1, h2, ?_⟩
  have := subDict_aux o.kids [] (fun k hk => ?_) (by simpa using h2)
  · simpa [subDict] using this
  · obtain ⟨v, e, hc, -⟩ := h.cells k hk
    exact ⟨v, by rw [e]; rfl, hc.1, hc.2.1⟩

theorem pairs_mem {o : Elem} (h : Cells (validObs F) t o) {n v : Str} : (n, v) ∈ pairs o.kids ↔ .mk n (some v) [] [] ∈ o.kids := by
  unfold pairs
  rw [List.mem_map]
  constructor
  · rintro ⟨k, hk, e⟩
    obtain ⟨w, e1, -⟩ := h.cells k hk
    rw [e1] at e
    simp [Elem.text, Elem.tag] at e
    rw [e1] at hk
    obtain ⟨rfl, rfl⟩ := e
    exact hk
  · intro hk
    exact ⟨_, hk, rfl⟩

theorem pairs_keys (kids : List Elem) : (pairs kids).map (·.1) = kids.map Elem.tag := by simp [pairs, Function.comp_def]

theorem dictGet_sub {o : Elem} (ht : t ∈ psvKinds) (h : Cells (validObs F) t o) {n v : Str} : PackUtil.dictGet (subDict o) n = some v ↔ .mk n (some v) [] [] ∈ o.kids := by
  obtain ⟨-, h2, h3⟩ := cells_facts ht h
  rw [h3, ← pairs_mem h]
  constructor
  · exact C33.dictGet_mem
  · exact dictGet_of_mem (by rw [pairs_keys]; exact h2)

theorem cell_value {o : Elem} (h : Cells (validObs F) t o) {n v : Str} (hm : .mk n (some v) [] [] ∈ o.kids) : CellValue v ∧ (n ≠ c! "remarks" → NoMark v) := by
  obtain ⟨w, e, h1, h2⟩ := h.cells _ hm
  simp [Elem.tag] at e h2
  subst e
  exact ⟨h1, h2⟩

/-- all names of the tables: letters and digits, beginning with a letter -/
def nameB (n : Str) : Bool := (match n with | c :: _ => alpha_ c | [] => false) && n.all fun c => !isSpace c && c != '|'

theorem names_ok : psvKinds.all (fun t => (adesTypes.allowed t).all nameB) = true := by decide +kernel

theorem name_facts (ht : t ∈ psvKinds) {n : Str} (h : n ∈ adesTypes.allowed t) : (∃ c, n.head? = some c ∧ Letter c) ∧ (∀ c ∈ n, isSpace c = false) ∧ '|' ∉ n ∧ Trim n := by
  have := List.all_eq_true.mp (List.all_eq_true.mp names_ok t ht) n h
  unfold nameB at this
  simp only [Bool.and_eq_true, List.all_eq_true, Bool.not_eq_true', bne_iff_ne, ne_eq] at this
  have hs : ∀ c ∈ n, isSpace c = false := fun c hc => (this.2 c hc).1
  refine ⟨?_, hs, fun hm => (this.2 _ hm).2 rfl, strip_of_none hs⟩
  cases n with
  | nil => simp at this
  | cons c n => exact ⟨c, rfl, (letter_iff c).mpr this.1⟩

theorem applyPJ_mem {s : Str} {l : Int} {j : JType} {dpos : Int} {r : Str × Nat × Int} (h : applyPJ s l j dpos = .ok r) {c : Char} (hc : c ∈ r.1) : c = ' ' ∨ c ∈ s := by
  obtain ⟨r, w, d⟩ := r
  obtain ⟨⟨i, k, rfl⟩, -, -⟩ := C17_only_padding s l j dpos r w d h
  simp at hc
  grind

theorem joinBars_mem : ∀ {xs : List Str} {c : Char}, c ∈ joinBars xs → c = '|' ∨ ∃ x ∈ xs, c ∈ x
  | [], c, h => by simp [joinBars] at h
  | [x], c, h => by simp [joinBars] at h; simp [h]
  | x :: y :: l, c, h => by
    rw [joinBars] at h
    · simp only [List.mem_append, List.mem_cons] at h
      rcases h with h | h | h
      · exact .inr ⟨x, by simp, h⟩
      · exact .inl h
      · rcases joinBars_mem h with h | ⟨z, h1, h2⟩
        · exact .inl h
        · exact .inr ⟨z, List.mem_cons_of_mem _ h1, h2⟩
    · simp

theorem rstrip_mem {s : Str} {c : Char} (h : c ∈ rstrip s) : c ∈ s := by
  unfold rstrip at h
  rw [List.mem_reverse] at h
  simpa using (List.dropWhile_suffix _).subset h

theorem header_mem {info : List HItem} {line : Str} (h : headerLine info = .ok line) {c : Char} (hc : c ∈ line) : c = '|' ∨ c = ' ' ∨ ∃ n ∈ cols info, c ∈ n := by
  unfold headerLine at h
  obtain ⟨cells, h1, h2⟩ := bind_ok.mp h
  simp [pure, Except.pure] at h2
  subst h2
  rcases joinBars_mem (rstrip_mem hc) with h | ⟨x, h3, h4⟩
  · exact .inl h
  · obtain ⟨it, h5, h6⟩ := each_mem (mapM_ok h1) x h3
    obtain ⟨r, h7, h8⟩ := bind_ok.mp h6
    simp [pure, Except.pure] at h8
    subst h8
    rcases applyPJ_mem h7 h4 with h | h
    · exact .inr (.inl h)
    · exact .inr (.inr ⟨it.name, List.mem_map.mpr ⟨it, h5, rfl⟩, h⟩)

theorem row_mem {info : List HItem} {sub : List (Str × Str)} {line : Str} (h : rowLine info sub = .ok line) {c : Char} (hc : c ∈ line) :
    c = '|' ∨ c = ' ' ∨ ∃ n v, PackUtil.dictGet sub n = some v ∧ c ∈ v := by
  unfold rowLine at h
  obtain ⟨cells, h1, h2⟩ := bind_ok.mp h
  simp [pure, Except.pure] at h2
  subst h2
  rcases joinBars_mem (rstrip_mem hc) with h | ⟨x, h3, h4⟩
  · exact .inl h
  · obtain ⟨it, h5, h6⟩ := each_mem (mapM_ok h1) x h3
    unfold cellText at h6
    cases hd : PackUtil.dictGet sub it.name with
    | none =>
      rw [hd] at h6; simp at h6; subst h6
      exact .inr (.inl (blanks_mem h4))
    | some v =>
      rw [hd] at h6
      obtain ⟨r, h7, h8⟩ := bind_ok.mp h6
      simp [pure, Except.pure] at h8
      subst h8
      rcases applyPJ_mem h7 h4 with h | h
      · exact .inr (.inl h)
      · exact .inr (.inr ⟨_, _, hd, h⟩)

/-- the table of the observations `obs` -/
def tableOf (t : Str) (info : List HItem) (obs : List Elem) : Table := ⟨t, cols info, obs.map fun o => (cols info).map (valueOf (subDict o))⟩

theorem row_has {info : List HItem} {o : Elem} (ht : t ∈ psvKinds) (h : Cells (validObs F) t o) (hc : ∀ n ∈ o.kids.map Elem.tag, n ∈ cols info) :
    RowHas (cols info) ((cols info).map (valueOf (subDict o))) o.kids := by
  intro n v hv
  have hz : ∀ (l : List Str), (n, v) ∈ l.zip (l.map (valueOf (subDict o))) ↔ n ∈ l ∧ v = valueOf (subDict o) n := by
    intro l
    induction l with
    | nil => simp
    | cons a l ih => simp [ih]; grind
  rw [hz, ← dictGet_sub ht h]
  constructor
  · rintro ⟨-, e⟩
    unfold valueOf at e
    cases hd : PackUtil.dictGet (subDict o) n with
    | none => rw [hd] at e; exact absurd e hv
    | some w => rw [hd] at e; simp at e; rw [e]
  · intro hd
    refine ⟨?_, by simp [valueOf, hd]⟩
    have := (dictGet_sub ht h).mp hd
    exact hc n (List.mem_map.mpr ⟨_, this, rfl⟩)

theorem table_lines {info : List HItem} {obs : List Elem} (ht : t ∈ psvKinds) (hne : obs ≠ []) (hobs : ∀ o ∈ obs, Cells (validObs F) t o)
    (hcols : Cols (c! "remarks") info (obs.map subDict)) {hl : Str} {rows : List Str} (hh : headerLine info = .ok hl)
    (hr : (obs.map subDict).mapM (rowLine info) = .ok rows) :
    Each (LineIs adesTypes) (hl :: rows) (tableOf t info obs).lines ∧ (tableOf t info obs).elems adesTypes.allowed = obs ∧ (tableOf t info obs).Fits ∧
      (tableOf t info obs).rows ≠ [] ∧ ∀ l ∈ hl :: rows, IsLine l := by
  have hin : ∀ o ∈ obs, ∀ n ∈ o.kids.map Elem.tag, n ∈ cols info := by
    intro o ho n hn
    rw [hcols.used]
    obtain ⟨k, hk, rfl⟩ := List.mem_map.mp hn
    refine ⟨subDict o, List.mem_map.mpr ⟨o, ho, rfl⟩, k.text.getD [], ?_⟩
    rw [(cells_facts ht (hobs o ho)).2.2]
    exact List.mem_map.mpr ⟨k, hk, rfl⟩
  have hall : ∀ n ∈ cols info, n ∈ adesTypes.allowed t := by
    intro n hn
    obtain ⟨d, hd, v, hv⟩ := (hcols.used n).mp hn
    obtain ⟨o, ho, rfl⟩ := List.mem_map.mp hd
    have hf := cells_facts ht (hobs o ho)
    rw [hf.2.2] at hv
    exact hf.1.subset (by rw [← pairs_keys]; exact List.mem_map.mpr ⟨_, hv, rfl⟩)
  -- an observation
  obtain ⟨o0, ho0⟩ : ∃ o, o ∈ obs := List.exists_mem_of_ne_nil _ hne
  obtain ⟨k0, hk0, hk0r, -⟩ := (hobs o0 ho0).nonLetter
  have hk0c := hin o0 ho0 k0.tag (List.mem_map.mpr ⟨k0, hk0, rfl⟩)
  have hcne : cols info ≠ [] := by intro e; rw [e] at hk0c; simp at hk0c
  obtain ⟨x, xs, hx⟩ : ∃ x xs, cols info = x :: xs := by
    cases h : cols info with
    | nil => exact absurd h hcne
    | cons x xs => exact ⟨x, xs, rfl⟩
  have hxr : x ≠ c! "remarks" := hcols.first hx ⟨k0.tag, hk0c, hk0r⟩
  have hnames : ∀ n ∈ cols info, Trim n ∧ '|' ∉ n := fun n hn => by
    have := name_facts ht (hall n hn)
    exact ⟨this.2.2.2, this.2.2.1⟩
  have hxa := name_facts ht (hall x (by rw [hx]; simp))
  refine ⟨.cons ?_ ?_, ?_, ?_, ?_, ?_⟩
  · -- the header line
    have hc := header_cells hh hcne hnames
    obtain ⟨c, hc1, hc2⟩ := hxa.1
    have hs : strip hl ≠ [] := cells_nonempty hc ⟨x, by rw [hx]; simp, by rintro rfl; simp at hc1⟩
    have hhead : (strip hl).head? = some '|' ∨ (strip hl).head? = some c := by
      rw [hx] at hc
      rcases cells_head hc with h | h | ⟨d, h1, h2⟩
      · exact absurd h hs
      · exact .inl h
      · rw [hc1] at h2; right; rw [h1, h2]
    have hcl : c ≠ '#' ∧ c ≠ '!' := by
      constructor <;> (rintro rfl; revert hc2; unfold Letter; decide)
    refine ⟨hs, ?_, ?_, hc, ?_, ?_⟩
    · rcases hhead with h | h <;> rw [h] <;> simp [hcl.1]
    · rcases hhead with h | h <;> rw [h] <;> simp [hcl.2]
    · intro n hn d hd
      obtain ⟨e, h1, h2⟩ := (name_facts ht (hall n hn)).1
      rw [h1] at hd; simp at hd; subst hd; exact h2
    · exact C33_header F t (psvKinds_obs ht) o0 (hobs o0 ho0).valid (cols info) (hin o0 ho0) hall
  · -- the rows
    have he := mapM_ok hr
    have key : ∀ o ∈ obs, ∀ l, rowLine info (subDict o) = .ok l → LineIs adesTypes l (.data ((cols info).map (valueOf (subDict o)))) := by
      intro o ho l hl'
      have hw := hobs o ho
      have hc := row_cells' hl' hcne fun n v hv => by
        have := cell_value hw ((dictGet_sub ht hw).mp hv)
        exact ⟨this.1.2.1, this.1.2.2.1⟩
      obtain ⟨k, hk, hkr, v, d, hv1, hv2, hv3⟩ := hw.nonLetter
      obtain ⟨w, e, -⟩ := hw.cells k hk
      have hvw : w = v := by rw [e] at hv1; simpa [Elem.text] using hv1
      subst hvw
      have hkm : valueOf (subDict o) k.tag = w := by
        have : PackUtil.dictGet (subDict o) k.tag = some w := (dictGet_sub ht hw).mpr (by rw [← e]; exact hk)
        simp [valueOf, this]
      have hmem : w ∈ (cols info).map (valueOf (subDict o)) := List.mem_map.mpr ⟨k.tag, hin o ho _ (List.mem_map.mpr ⟨k, hk, rfl⟩), hkm⟩
      have hs : strip l ≠ [] := cells_nonempty hc ⟨w, hmem, by rintro rfl; simp at hv2⟩
      have hmark : ∀ m, (m = '#' ∨ m = '!') → (strip l).head? ≠ some m := by
        intro m hm he
        have hc' := hc
        rw [hx, List.map_cons] at hc'
        rcases cells_head hc' with h | h | ⟨d, h1, h2⟩
        · exact hs h
        · rw [he] at h; simp at h; subst h; simp at hm
        · rw [he] at h1; simp at h1; subst h1
          unfold valueOf at h2
          cases hd : PackUtil.dictGet (subDict o) x with
          | none => rw [hd] at h2; simp at h2
          | some u =>
            rw [hd] at h2
            have := (cell_value hw ((dictGet_sub ht hw).mp hd)).2 hxr
            rcases hm with rfl | rfl
            · exact this.1 h2
            · exact this.2 h2
      exact ⟨hs, hmark _ (.inl rfl), hmark _ (.inr rfl), hc, w, hmem, d, by simp [hv2], hv3⟩
    clear hcols hin hall hh hr ho0 hk0 hne hk0c
    revert he
    simp only [tableOf]
    generalize obs = l at hobs key ⊢
    intro he
    clear hobs
    induction l generalizing rows with
    | nil => cases he; exact .nil
    | cons o l ih =>
      cases he with
      | cons h1 h2 =>
        exact .cons (key o (by simp) _ h1) (ih (fun o' ho' => key o' (by simp [ho'])) h2)
  · -- the elements
    have : ∀ o ∈ obs, rowElem adesTypes.allowed t (cols info) ((cols info).map (valueOf (subDict o))) = o := by
      intro o ho
      have hw := hobs o ho
      have hv := hw.valid
      rw [hw.shape] at hv
      rw [C33_row F t (psvKinds_obs ht) o.kids hv (fun k hk => ?_) (cols info) _ hcols.nodup (row_has ht hw (hin o ho)), ← hw.shape]
      obtain ⟨v, e, hc, -⟩ := hw.cells k hk
      exact ⟨v, hc.1, e⟩
    simp only [Table.elems, tableOf, List.map_map]
    conv => rhs; rw [← List.map_id obs]
    exact List.map_congr_left fun o ho => this o ho
  · intro r hr'
    simp only [tableOf, List.mem_map] at hr'
    obtain ⟨o, -, rfl⟩ := hr'
    simp [tableOf]
  · simpa [tableOf] using hne
  · intro l hl'
    have nl : isSpace '\n' = true ∧ isSpace '\r' = true := by decide
    rcases List.mem_cons.mp hl' with rfl | hl'
    · constructor
      · intro hm
        rcases header_mem hh hm with h | h | ⟨n, h1, h2⟩
        · simp at h
        · simp at h
        · have := (name_facts ht (hall n h1)).2.1 _ h2
          rw [nl.1] at this; simp at this
      · intro hm
        rcases header_mem hh hm with h | h | ⟨n, h1, h2⟩
        · simp at h
        · simp at h
        · have := (name_facts ht (hall n h1)).2.1 _ h2
          rw [nl.2] at this; simp at this
    · obtain ⟨d, hd, he⟩ := each_mem (mapM_ok hr) l hl'
      obtain ⟨o, ho, rfl⟩ := List.mem_map.mp hd
      constructor
      · intro hm
        rcases row_mem he hm with h | h | ⟨n, v, h1, h2⟩
        · simp at h
        · simp at h
        · exact (cell_value (hobs o ho) ((dictGet_sub ht (hobs o ho)).mp h1)).1.2.2.2.1 h2
      · intro hm
        rcases row_mem he hm with h | h | ⟨n, v, h1, h2⟩
        · simp at h
        · simp at h
        · exact (cell_value (hobs o ho) ((dictGet_sub ht (hobs o ho)).mp h1)).1.2.2.2.2 h2

/-! ### context lines -/

def itemOf (e : Elem) : Item := ⟨e.tag, e.text⟩

theorem contextLine_text {e : Elem} (h : ContextLine e) (m : Char) (hm : isSpace m = false) :
    ∃ r, strip (rstrip ([m, ' '] ++ e.tag ++ ' ' :: regularizeWhiteSpace e.text)) = m :: r ∧ FirstWord r (itemOf e) := by
  rw [strip_rstrip]
  obtain ⟨⟨hne, hw⟩, -, ht⟩ := h
  cases hx : e.text with
  | none =>
    refine ⟨' ' :: e.tag, ?_, hne, hw, [' '], by simp; decide, ?_⟩
    · simp only [regularizeWhiteSpace]
      rw [show [m, ' '] ++ e.tag ++ [' '] = (m :: ' ' :: e.tag) ++ [' '] by simp, strip_snoc_space (by decide)]
      apply strip_of_ends
      · simp [hm]
      · intro c hc
        rw [show m :: ' ' :: e.tag = [m, ' '] ++ e.tag by rfl, List.getLast?_append] at hc
        cases hl : e.tag.getLast? with
        | none => simp at hl; exact absurd hl hne
        | some d =>
          rw [hl] at hc; simp at hc; subst hc
          exact hw _ (List.mem_of_getLast? hl)
    · simp [itemOf, hx]
  | some v =>
    obtain ⟨hv, hs, -, -⟩ := ht v hx
    refine ⟨' ' :: e.tag ++ ' ' :: v, ?_, hne, hw, [' '], by simp; decide, ?_⟩
    · simp only [regularizeWhiteSpace, hs]
      apply strip_of_ends
      · simp [hm]
      · intro c hc
        rw [show [m, ' '] ++ e.tag ++ ' ' :: v = ([m, ' '] ++ e.tag ++ [' ']) ++ v by simp, List.getLast?_append] at hc
        cases hl : v.getLast? with
        | none => simp at hl; exact absurd hl hv
        | some d =>
          rw [hl] at hc; simp at hc; subst hc
          exact Trim.last hs d (by simp [hl])
    · simp only [itemOf, hx]
      exact ⟨hv, Trim.head hs, [' '], by simp, by simp; decide, by simp⟩

theorem contextLine_isLine {e : Elem} (h : ContextLine e) (m : Char) (h1 : m ≠ '\n') (h2 : m ≠ '\r') : IsLine (rstrip ([m, ' '] ++ e.tag ++ ' ' :: regularizeWhiteSpace e.text)) := by
  obtain ⟨⟨-, hw⟩, -, ht⟩ := h
  have key : ∀ x : Char, isSpace x = true → x ≠ ' ' → m ≠ x → (∀ v, e.text = some v → x ∉ v) → x ∉ rstrip ([m, ' '] ++ e.tag ++ ' ' :: regularizeWhiteSpace e.text) := by
    intro x hx hx' hm hv hmem
    have := rstrip_mem hmem
    simp only [List.mem_append, List.mem_cons, List.not_mem_nil, or_false] at this
    rcases this with (((e1 | e1) | e1) | e1 | e1)
    · exact hm e1.symm
    · exact hx' e1
    · rw [hw x e1] at hx; simp at hx
    · exact hx' e1
    · cases ht' : e.text with
      | none => rw [ht'] at e1; simp [regularizeWhiteSpace] at e1
      | some v =>
        rw [ht'] at e1
        simp only [regularizeWhiteSpace, (ht v ht').2.1] at e1
        exact hv v ht' e1
  exact ⟨key '\n' (by decide) (by decide) h1 fun v hv => (ht v hv).2.2.1, key '\r' (by decide) (by decide) h2 fun v hv => (ht v hv).2.2.2⟩

def ctxOf (ctx : List Elem) : List (Item × List Item) := ctx.map fun e => (itemOf e, e.kids.map itemOf)

theorem itemOf_elem {e : Elem} (h : ContextLine e) (kids : List Elem) : (itemOf e).elem kids = .mk e.tag e.text [] kids := by
  unfold Item.elem itemOf
  congr 1
  cases hx : e.text with
  | none => rfl
  | some v =>
    have := (h.2.2 v hx).1
    cases v with
    | nil => exact absurd rfl this
    | cons => rfl

theorem ctxOf_elem {ctx : List Elem} (h : ∀ c ∈ ctx, ContextTree c) : contextElem (ctxOf ctx) = .mk (c! "obsContext") none [] ctx := by
  unfold contextElem ctxOf
  congr 1
  rw [List.map_map]
  conv => rhs; rw [← List.map_id ctx]
  refine List.map_congr_left fun e he => ?_
  obtain ⟨h1, h2⟩ := h e he
  simp only [Function.comp, id]
  rw [itemOf_elem h1, List.map_map]
  have : e.kids.map ((fun i => i.elem []) ∘ itemOf) = e.kids := by
    conv => rhs; rw [← List.map_id e.kids]
    refine List.map_congr_left fun k hk => ?_
    obtain ⟨h3, h4⟩ := h2 k hk
    simp only [Function.comp, id]
    rw [itemOf_elem h3]
    obtain ⟨a, b, c, d⟩ := k
    simp [Elem.kids] at h4
    have := h3.2.1
    simp [Elem.attrib] at this
    simp [Elem.tag, Elem.text, h4, this]
  rw [this]
  obtain ⟨a, b, c, d⟩ := e
  have := h1.2.1
  simp [Elem.attrib] at this
  simp [Elem.tag, Elem.text, Elem.kids, this]

theorem each_append {α β : Type} {R : α → β → Prop} : ∀ {a c : List α} {b d : List β}, Each R a b → Each R c d → Each R (a ++ c) (b ++ d)
  | _, _, _, _, .nil, h => h
  | _, _, _, _, .cons h t, h' => .cons h (each_append t h')

theorem contextLines_ok {ctx : List Elem} (h : ∀ c ∈ ctx, ContextTree c) (tag : Str) (text : Option Str) (at' : Attrib) :
    Each (LineIs adesTypes) (contextLines (.mk tag text at' ctx)) ((ctxOf ctx).flatMap ctxLines) ∧ ∀ l ∈ contextLines (.mk tag text at' ctx), IsLine l := by
  unfold contextLines
  change Each _ (ctx.flatMap _) _ ∧ ∀ l ∈ ctx.flatMap _, _
  induction ctx with
  | nil => exact ⟨.nil, by simp⟩
  | cons e ctx ih =>
    obtain ⟨h1, h2⟩ := h e (by simp)
    obtain ⟨i1, i2⟩ := ih fun c hc => h c (by simp [hc])
    have hkids : Each (LineIs adesTypes) (e.kids.map fun j => rstrip (c! "! " ++ j.tag ++ ' ' :: regularizeWhiteSpace j.text)) ((e.kids.map itemOf).map .second) := by
      have : ∀ ks : List Elem, (∀ k ∈ ks, ContextLine k) → Each (LineIs adesTypes) (ks.map fun j => rstrip (c! "! " ++ j.tag ++ ' ' :: regularizeWhiteSpace j.text)) ((ks.map itemOf).map .second) := by
        intro ks
        induction ks with
        | nil => intro _; exact .nil
        | cons k ks ih =>
          intro hk
          exact .cons (contextLine_text (hk k (by simp)) '!' (by decide)) (ih fun x hx => hk x (by simp [hx]))
      exact this e.kids fun k hk => (h2 k hk).1
    refine ⟨?_, ?_⟩
    · simp only [List.flatMap_cons, ctxOf, List.map_cons, ctxLines]
      exact each_append (.cons (contextLine_text h1 '#' (by decide)) hkids) i1
    · intro l hl
      simp only [List.flatMap_cons, List.mem_append, List.mem_cons, List.mem_map] at hl
      rcases hl with (rfl | ⟨k, hk, rfl⟩) | hl
      · exact contextLine_isLine h1 '#' (by decide) (by decide)
      · exact contextLine_isLine (h2 k hk).1 '!' (by decide) (by decide)
      · exact i2 l hl

/-! ### the run -/

/-- the header list of a new table -/
def initB (t : Str) : Bool :=
  match initialHeader adesTables t with
  | .ok (_, items) => items.all (fun i => !i.seen) && items.getLast?.map (·.name) == some (c! "remarks")
  | .error _ => false

theorem init_ok : psvKinds.all initB = true := by decide +kernel

theorem init_cols (ht : t ∈ psvKinds) : ∃ ps items, initialHeader adesTables t = .ok (ps, items) ∧ Cols (c! "remarks") items [] := by
  have h := List.all_eq_true.mp init_ok t ht
  unfold initB at h
  split at h
  · rename_i ps items he
    simp only [Bool.and_eq_true, List.all_eq_true, beq_iff_eq, Bool.not_eq_true'] at h
    refine ⟨ps, items, he, ?_, ?_, h.2⟩
    · have := h.1
      clear h he
      induction items with
      | nil => exact .nil
      | cons i items ih => exact .cons (fun _ _ _ => this i (by simp)) (ih fun x hx => this x (by simp [hx]))
    · intro n
      simp only [List.not_mem_nil, false_and, exists_false, iff_false]
      intro hm
      obtain ⟨i, hi, -⟩ := List.mem_map.mp hm
      rw [List.mem_filter] at hi
      rw [h.1 i hi.1] at hi
      simp at hi
  · simp at h

/-- the observations `obs` of type `t` are waiting to be printed -/
structure Waiting (F : Facets) (t : Str) (obs : List Elem) (g : Out) : Prop where
  kind : t ∈ psvKinds
  some : obs ≠ []
  cells : ∀ o ∈ obs, Cells (validObs F) t o
  cols : Cols (c! "remarks") g.headerInfo (obs.map subDict)
  dicts : g.dataDicts = obs.map subDict

theorem first_waiting {g g' : Out} {o : Elem} (ht : t ∈ psvKinds) (ho : Cells (validObs F) t o) (h : processDataElement adesTables g true o = .ok g') :
    Waiting F t [o] g' ∧ g'.out = g.out := by
  obtain ⟨ps, items, h1, h2⟩ := init_cols ht
  have htag : o.tag = t := by rw [ho.shape]; rfl
  unfold processDataElement at h
  simp only [htag, h1, if_true, bind, Except.bind, pure, Except.pure] at h
  split at h
  · simp at h
  rename_i info h5
  simp at h
  subst h
  exact ⟨⟨ht, by simp, by simpa using ho, by simpa using h2.addRow h5, rfl⟩, rfl⟩

theorem next_waiting {g g' : Out} {o : Elem} {obs : List Elem} (hw : Waiting F t obs g) (ho : Cells (validObs F) t o) (h : processDataElement adesTables g false o = .ok g') :
    Waiting F t (obs ++ [o]) g' ∧ g'.out = g.out := by
  unfold processDataElement at h
  simp only [Bool.false_eq_true, if_false, bind, Except.bind, pure, Except.pure] at h
  split at h
  · simp at h
  rename_i info h5
  simp at h
  subst h
  refine ⟨⟨hw.kind, by simp, ?_, ?_, ?_⟩, rfl⟩
  · intro x hx
    rcases List.mem_append.mp hx with hx | hx
    · exact hw.cells x hx
    · simp at hx; subst hx; exact ho
  · simpa using hw.cols.addRow h5
  · simp [hw.dicts]

theorem obsData_next {g : Out} {s : Out × Option Str} : ∀ {l obs : List Elem}, Waiting F t obs g → (∀ o ∈ l, Cells (validObs F) t o) →
    processObsData adesTables (g, some t) l = .ok s → Waiting F t (obs ++ l) s.1 ∧ s.1.out = g.out := by
  intro l
  induction l generalizing g with
  | nil =>
    intro obs hw _ h
    simp [processObsData] at h
    subst h
    simpa using hw
  | cons o l ih =>
    intro obs hw hc h
    have htag : o.tag = t := by rw [(hc o (by simp)).shape]; rfl
    rw [processObsData] at h
    simp only [htag, ne_eq, not_true_eq_false, if_false] at h
    obtain ⟨g1, h3, h4⟩ := bind_ok.mp h
    obtain ⟨a, b⟩ := next_waiting hw (hc o (by simp)) h3
    obtain ⟨a', b'⟩ := ih a (fun x hx => hc x (by simp [hx])) h4
    refine ⟨by simpa using a', by rw [b', b]⟩

theorem obsData_first {g : Out} {s : Out × Option Str} {l : List Elem} (ht : t ∈ psvKinds) (hne : l ≠ []) (hc : ∀ o ∈ l, Cells (validObs F) t o)
    (h : processObsData adesTables (g, none) l = .ok s) : Waiting F t l s.1 ∧ s.1.out = g.out := by
  cases l with
  | nil => exact absurd rfl hne
  | cons o l =>
    have htag : o.tag = t := by rw [(hc o (by simp)).shape]; rfl
    rw [processObsData] at h
    simp only [htag] at h
    obtain ⟨al, h0, h1⟩ := bind_ok.mp h
    split at h1
    · simp [raiseRT, bind, Except.bind] at h1
    · obtain ⟨g1, h3, h4⟩ := bind_ok.mp h1
      obtain ⟨a, b⟩ := first_waiting ht (hc o (by simp)) h3
      obtain ⟨a', b'⟩ := obsData_next a (fun x hx => hc x (by simp [hx])) h4
      exact ⟨by simpa using a', by rw [b', b]⟩

/-- the lines `body` are those of the groups `gs`, followed by the lines `extra` -/
structure Body (body : List Str) (gs : List Group) (extra : List PLine) : Prop where
  each : Each (LineIs adesTypes) body (gs.flatMap Group.lines ++ extra)
  isLine : ∀ l ∈ body, IsLine l
  groups : ∀ g ∈ gs, g.Fits ∧ g.HasRows

/-- where the conversion stands when the elements `ks` have been read -/
inductive Stand (F : Facets) (vline : Str) : Out → Option Str → List Elem → Prop
  | start {g : Out} (h : g.out = [vline]) (hd : g.dataDicts = []) : Stand F vline g none []
  | table {g : Out} {body : List Str} {gs : List Group} {t : Str} {obs ks : List Elem} (h : g.out = vline :: body) (hb : Body body gs []) (hw : Waiting F t obs g)
      (hk : ks = gs.flatMap (Group.elems adesTypes.allowed) ++ obs) : Stand F vline g (some t) ks
  | block {g : Out} {body : List Str} {gs : List Group} {t : Str} {ctx obs ks : List Elem} (h : g.out = vline :: body) (hc : ∀ c ∈ ctx, ContextTree c) (hne : ctx ≠ [])
      (hb : Body body gs ((ctxOf ctx).flatMap ctxLines)) (hw : Waiting F t obs g)
      (hk : ks = gs.flatMap (Group.elems adesTypes.allowed) ++ [.mk (c! "obsBlock") none [] [.mk (c! "obsContext") none [] ctx, .mk (c! "obsData") none [] obs]]) :
      Stand F vline g (some (c! "obsBlock")) ks

theorem printed {vline : Str} {g g' : Out} {last : Option Str} {ks : List Elem} (hs : Stand F vline g last ks) (h : printDataDicts g = .ok g') :
    ∃ body gs, g'.out = vline :: body ∧ Body body gs [] ∧ ks = gs.flatMap (Group.elems adesTypes.allowed) ∧ (last = none → g' = g) := by
  unfold printDataDicts at h
  have print : ∀ {t : Str} {obs : List Elem}, Waiting F t obs g → ∃ hl rows, headerLine g.headerInfo = .ok hl ∧ (obs.map subDict).mapM (rowLine g.headerInfo) = .ok rows ∧
      g'.out = g.out ++ hl :: rows := by
    intro t obs hw
    have hne : g.dataDicts.isEmpty = false := by simpa [hw.dicts] using hw.some
    rw [hne] at h
    simp only [Bool.false_eq_true, if_false] at h
    obtain ⟨hl, h1, h2⟩ := bind_ok.mp h
    obtain ⟨rows, h3, h4⟩ := bind_ok.mp h2
    simp [pure, Except.pure] at h4
    subst h4
    exact ⟨hl, rows, h1, by rw [← hw.dicts]; exact h3, rfl⟩
  cases hs with
  | start ho hd =>
    rw [hd] at h
    simp at h
    subst h
    exact ⟨[], [], by simpa using ho, ⟨.nil, by simp, by simp⟩, rfl, fun _ => rfl⟩
  | @table body gs t obs _ ho hb hw hk =>
    obtain ⟨hl, rows, h1, h2, h3⟩ := print hw
    obtain ⟨e1, e2, e3, e4, e5⟩ := table_lines hw.kind hw.some hw.cells hw.cols h1 h2
    refine ⟨body ++ hl :: rows, gs ++ [.table (tableOf t g.headerInfo obs)], by rw [h3, ho]; simp, ⟨?_, ?_, ?_⟩, ?_, by simp⟩
    · have := hb.each
      simp only [List.append_nil] at this
      simp only [List.flatMap_append, List.flatMap_cons, List.flatMap_nil, List.append_nil, Group.lines]
      exact each_append this e1
    · intro l hl'
      rcases List.mem_append.mp hl' with h | h
      · exact hb.isLine l h
      · exact e5 l h
    · intro x hx
      rcases List.mem_append.mp hx with h | h
      · exact hb.groups x h
      · simp at h; subst h; exact ⟨e3, e4⟩
    · rw [hk]; simp [Group.elems, e2]
  | @block body gs t ctx obs _ ho hc hne hb hw hk =>
    obtain ⟨hl, rows, h1, h2, h3⟩ := print hw
    obtain ⟨e1, e2, e3, e4, e5⟩ := table_lines hw.kind hw.some hw.cells hw.cols h1 h2
    refine ⟨body ++ hl :: rows, gs ++ [.block (ctxOf ctx) (some (tableOf t g.headerInfo obs))], by rw [h3, ho]; simp, ⟨?_, ?_, ?_⟩, ?_, by simp⟩
    · have := hb.each
      simp only [List.flatMap_append, List.flatMap_cons, List.flatMap_nil, List.append_nil, Group.lines]
      rw [← List.append_assoc]
      exact each_append this e1
    · intro l hl'
      rcases List.mem_append.mp hl' with h | h
      · exact hb.isLine l h
      · exact e5 l h
    · intro x hx
      rcases List.mem_append.mp hx with h | h
      · exact hb.groups x h
      · simp at h; subst h; exact ⟨⟨by simpa [ctxOf] using hne, e3⟩, e4⟩
    · rw [hk]; simp [Group.elems, e2, e4, ctxOf_elem hc]

theorem tag_mk (a : Str) (b : Option Str) (c : Attrib) (d : List Elem) : (Elem.mk a b c d).tag = a := rfl

theorem obsBlock_run {g : Out} {s : Out × Option Str} {ctx obs : List Elem} (hc : ∀ c ∈ ctx, ContextTree c) (ht : t ∈ psvKinds) (hne : obs ≠ []) (ho : ∀ o ∈ obs, Cells (validObs F) t o)
    (h : processObsBlock adesTables (g, none) [.mk (c! "obsContext") none [] ctx, .mk (c! "obsData") none [] obs] = .ok s) :
    Waiting F t obs s.1 ∧ s.1.out = g.out ++ contextLines (.mk (c! "obsContext") none [] ctx) := by
  rw [processObsBlock] at h
  obtain ⟨al, h0, h1⟩ := bind_ok.mp h
  split at h1
  · simp [raiseRT] at h1
  rw [if_pos (tag_mk _ _ _ _), processObsBlock] at h1
  obtain ⟨al', h0', h2⟩ := bind_ok.mp h1
  split at h2
  · simp [raiseRT] at h2
  rw [if_neg (show ¬ Elem.tag _ = _ by simp only [Elem.tag]; decide), if_pos (tag_mk _ _ _ _)] at h2
  obtain ⟨s1, h3, h4⟩ := bind_ok.mp h2
  rw [processObsBlock] at h4
  simp at h4
  subst h4
  obtain ⟨a, b⟩ := obsData_first ht hne ho h3
  exact ⟨a, b⟩

theorem children {vline : Str} : ∀ {l : List Elem} {g g' : Out} {last : Option Str} {ks : List Elem}, Stand F vline g last ks →
    (∀ k ∈ l, WBlock psvKinds (validObs F) k ∨ ∃ t ∈ psvKinds, Cells (validObs F) t k) → processChildren adesTables g last l = .ok g' → ∃ last', Stand F vline g' last' (ks ++ l)
  | [], g, g', last, ks, hs, _, h => by
    simp [processChildren] at h
    subst h
    exact ⟨last, by simpa using hs⟩
  | k :: l, g, g', last, ks, hs, hk, h => by
    rw [processChildren] at h
    obtain ⟨al, h0, h1⟩ := bind_ok.mp h
    split at h1
    · simp [raiseRT] at h1
    have step : ∀ {g1 : Out} {last1 : Option Str}, Stand F vline g1 last1 (ks ++ [k]) → processChildren adesTables g1 last1 l = .ok g' → ∃ last', Stand F vline g' last' (ks ++ k :: l) := by
      intro g1 last1 hs1 hp
      obtain ⟨l', h'⟩ := children hs1 (fun x hx => hk x (by simp [hx])) hp
      exact ⟨l', by simpa using h'⟩
    rcases hk k (by simp) with ⟨ctx, obs, hcne, hc, hone, ⟨t, ht, ho⟩, rfl⟩ | ⟨t, ht, ho⟩
    · rw [if_pos (tag_mk _ _ _ _)] at h1
      obtain ⟨g1, h2, h3⟩ := bind_ok.mp h1
      obtain ⟨s, h4, h5⟩ := bind_ok.mp h3
      obtain ⟨body, gs, e1, e2, e3, -⟩ := printed hs h2
      obtain ⟨f1, f2⟩ := obsBlock_run hc ht hone ho h4
      obtain ⟨c1, c2⟩ := contextLines_ok hc (c! "obsContext") none []
      refine step (.block (body := body ++ contextLines (.mk (c! "obsContext") none [] ctx)) (gs := gs) ?_ hc hcne ⟨?_, ?_, e2.groups⟩ f1 (by rw [e3])) h5
      · rw [f2, e1]; simp
      · have := e2.each
        simp only [List.append_nil] at this
        exact each_append this c1
      · intro x hx
        rcases List.mem_append.mp hx with h | h
        · exact e2.isLine x h
        · exact c2 x h
    · have htag : k.tag = t := by rw [ho.shape]; rfl
      have hnb : ¬ k.tag = c! "obsBlock" := by
        rw [htag]
        rintro rfl
        revert ht; decide
      rw [if_neg hnb, htag] at h1
      split at h1
      · obtain ⟨g1, h2, h3⟩ := bind_ok.mp h1
        obtain ⟨g2, h4, h5⟩ := bind_ok.mp h3
        obtain ⟨body, gs, e1, e2, e3, -⟩ := printed hs h2
        obtain ⟨f1, f2⟩ := first_waiting ht ho h4
        exact step (.table (by rw [f2, e1]) e2 f1 (by rw [e3])) h5
      · rename_i hl
        simp at hl
        obtain ⟨g2, h4, h5⟩ := bind_ok.mp h1
        subst hl
        cases hs with
        | table h hb hw hk' =>
          obtain ⟨f1, f2⟩ := next_waiting hw ho h4
          exact step (.table (by rw [f2, h]) hb f1 (by rw [hk']; simp)) h5
        | block => exact absurd htag hnb

end Verif.ToPsv
