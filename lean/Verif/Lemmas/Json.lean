import Verif.Spec.Json
import Verif.Lemmas.BackDict
/-
  Lemmas for C46: what `xmltodict.parse` collects, and what `xmltodict.unparse` makes of it.
-/
namespace Verif.Json
open Verif Verif.Xml Verif.Spec

/-! ### names -/

theorem mem_first {n : Str} : ∀ {ns : List Str}, n ∈ firstNames ns ↔ n ∈ ns
  | [] => by simp [firstNames]
  | m :: ns => by
    simp only [firstNames, List.mem_cons, List.mem_filter, mem_first (ns := ns), decide_not, Bool.not_eq_true', decide_eq_false_iff_not, ne_eq]
    by_cases h : n = m <;> simp [h]

theorem first_nodup : ∀ (ns : List Str), (firstNames ns).Nodup
  | [] => by simp [firstNames]
  | m :: ns => by
    simp only [firstNames, List.nodup_cons]
    exact ⟨by simp, (first_nodup ns).filter _⟩

theorem first_snoc (ns : List Str) (n : Str) : firstNames (ns ++ [n]) = if n ∈ ns then firstNames ns else firstNames ns ++ [n] := by
  induction ns with
  | nil => simp [firstNames]
  | cons m ns ih =>
    simp only [List.cons_append, firstNames, ih, List.mem_cons]
    by_cases h : n ∈ ns
    · simp [h]
    · by_cases e : n = m
      · subst e; simp [h]
      · simp [h, e]

/-- consecutive blocks of names -/
theorem first_blocks (f : Str → List Str) : ∀ (ts : List Str), ts.Nodup → (∀ t ∈ ts, f t ≠ [] ∧ ∀ n ∈ f t, n = t) → firstNames (ts.flatMap f) = ts
  | [], _, _ => by simp [firstNames]
  | t :: ts, hn, hf => by
    obtain ⟨h1, h2⟩ := List.nodup_cons.mp hn
    have ih := first_blocks f ts h2 (fun s hs => hf s (List.mem_cons_of_mem _ hs))
    have key : ∀ (l r : List Str), (∀ n ∈ l, n = t) → (∀ n ∈ r, n ≠ t) → l ≠ [] → firstNames (l ++ r) = t :: firstNames r := by
      intro l
      induction l with
      | nil => intro r _ _ h; exact absurd rfl h
      | cons a l ihl =>
        intro r hl hr _
        have ha : a = t := hl a (by simp)
        subst ha
        simp only [List.cons_append, firstNames]
        by_cases hl0 : l = []
        · subst hl0
          congr 1
          simp only [List.nil_append]
          refine List.filter_eq_self.mpr fun n hn => ?_
          simpa using hr n (mem_first.mp hn)
        · rw [ihl r (fun n hn => hl n (List.mem_cons_of_mem _ hn)) hr hl0]
          congr 1
          simp only [ne_eq, decide_not, List.filter_cons, decide_true, Bool.not_true, Bool.false_eq_true, ↓reduceIte]
          refine List.filter_eq_self.mpr fun n hn => ?_
          simpa using hr n (mem_first.mp hn)
    rw [List.flatMap_cons, key _ _ (hf t (by simp)).2 _ (hf t (by simp)).1, ih]
    intro n hn e
    obtain ⟨s, hs, hn⟩ := List.mem_flatMap.mp hn
    have := (hf s (List.mem_cons_of_mem _ hs)).2 n hn
    rw [← this, e] at hs
    exact h1 hs

/-! ### `push_data` -/

def add : Val → Val → Val
  | .list l, v => .list (l ++ [v])
  | u, v => .list [u, v]

theorem push_hit (key : Str) (v u : Val) (rest : Dict) : pushData ((key, u) :: rest) key v = (key, add u v) :: rest := by
  cases u <;> simp [pushData, add]

theorem push_miss {k key : Str} (h : k ≠ key) (v u : Val) (rest : Dict) : pushData ((k, u) :: rest) key v = (k, u) :: pushData rest key v := by
  cases u <;> simp [pushData, h]

theorem push_append {key : Str} (v : Val) (r : Dict) : ∀ (d : Dict), (∀ p ∈ d, p.1 ≠ key) → pushData (d ++ r) key v = d ++ pushData r key v
  | [], _ => rfl
  | (k, u) :: d, h => by
    rw [List.cons_append, push_miss (h (k, u) (by simp)), push_append v r d (fun p hp => h p (List.mem_cons_of_mem _ hp))]; rfl

theorem push_new {key : Str} (v : Val) {d : Dict} (h : ∀ p ∈ d, p.1 ≠ key) : pushData d key v = d ++ [(key, v)] := by
  have := push_append v [] d h
  simpa [pushData] using this

theorem push_old {key : Str} (v : Val) (f : Str → Val) : ∀ (ns : List Str), ns.Nodup → key ∈ ns →
    pushData (ns.map fun n => (n, f n)) key v = ns.map fun n => (n, if n = key then add (f n) v else f n)
  | [], _, h => by simp at h
  | n :: ns, hn, h => by
    obtain ⟨h1, h2⟩ := List.nodup_cons.mp hn
    by_cases e : n = key
    · subst e
      rw [List.map_cons, push_hit, List.map_cons, if_pos rfl]
      congr 1
      refine List.map_congr_left fun m hm => ?_
      rw [if_neg (fun e : m = n => h1 (e ▸ hm))]
    · rw [List.map_cons, push_miss e, push_old v f ns h2 (by simpa [Ne.symm e] using h), List.map_cons, if_neg e]

/-! ### what an element becomes -/

theorem pushAll_foldl : ∀ (es : List Elem) (item : Dict), pushAll item es = es.foldl (fun it e => pushData it e.tag (value e)) item
  | [], _ => by simp [pushAll]
  | e :: es, item => by rw [pushAll, pushAll_foldl es, List.foldl_cons]

def isList : Val → Bool
  | .list _ => true
  | _ => false

theorem close_not_list (item : Dict) (data : Option Str) : isList (close item data) = false := by
  cases item <;> cases data <;> simp [close, isList]

theorem value_not_list (e : Elem) : isList (value e) = false := by
  obtain ⟨t, x, a, k⟩ := e
  rw [value]
  exact close_not_list _ _

theorem add_several {l : List Val} (h : l ≠ []) (hl : ∀ v ∈ l, isList v = false) (v : Val) : add (several l) v = several (l ++ [v]) := by
  match l, h with
  | [u], _ =>
    have := hl u (by simp)
    cases u <;> simp_all [several, add, isList]
  | u :: w :: l, _ => simp [several, add]

/-- the entries for sub-elements -/
def table (es : List Elem) : Dict := (firstNames (es.map Elem.tag)).map fun n => (n, several ((es.filter fun e => e.tag = n).map value))

theorem table_snoc (es : List Elem) (e : Elem) : pushData (table es) e.tag (value e) = table (es ++ [e]) := by
  rw [table, table, List.map_append, List.map_cons, List.map_nil, first_snoc]
  by_cases h : e.tag ∈ es.map Elem.tag
  · rw [if_pos h, push_old _ _ _ (first_nodup _) (mem_first.mpr h)]
    refine List.map_congr_left fun n hn => ?_
    by_cases hne : n = e.tag
    · rw [if_pos hne, add_several]
      · simp [hne, List.filter_append]
      · obtain ⟨x, hx, hxe⟩ := List.mem_map.mp h
        simp only [ne_eq, List.map_eq_nil_iff]
        exact List.ne_nil_of_mem (a := x) (by simp [hx, hxe, hne])
      · intro v hv
        obtain ⟨x, _, rfl⟩ := List.mem_map.mp hv
        exact value_not_list x
    · rw [if_neg hne]
      simp [List.filter_append, Ne.symm hne]
  · rw [if_neg h, push_new]
    · rw [List.map_append]
      congr 1
      · refine List.map_congr_left fun n hn => ?_
        have : e.tag ≠ n := fun c => h (c ▸ mem_first.mp hn)
        simp [List.filter_append, this]
      · have h0 : (es.filter fun x => x.tag = e.tag) = [] := by
          refine List.filter_eq_nil_iff.mpr fun x hx hxe => h ?_
          have hxe : x.tag = e.tag := by simpa using hxe
          exact List.mem_map.mpr ⟨x, hx, hxe⟩
        simp only [List.map_cons, List.map_nil, List.filter_append, h0, List.nil_append, List.filter_cons, decide_true, ↓reduceIte, List.filter_nil, several]
    · intro p hp
      obtain ⟨n, hn, rfl⟩ := List.mem_map.mp hp
      intro c
      exact h (c ▸ mem_first.mp hn)

theorem pushAll_eq {item : Dict} (es : List Elem) (h : ∀ e ∈ es, ∀ p ∈ item, p.1 ≠ e.tag) : pushAll item es = item ++ table es := by
  have key : ∀ (es done : List Elem), (∀ e ∈ es, ∀ p ∈ item, p.1 ≠ e.tag) →
      es.foldl (fun it e => pushData it e.tag (value e)) (item ++ table done) = item ++ table (done ++ es) := by
    intro es
    induction es with
    | nil => intro done _; simp
    | cons e es ih =>
      intro done h
      rw [List.foldl_cons, push_append _ _ _ (h e (by simp)), table_snoc, ih _ (fun x hx => h x (by simp [hx]))]
      simp
  have := key es [] h
  rw [pushAll_foldl]
  simpa [table, firstNames] using this

theorem data_trim (text : Option Str) : dataOf text = trimText text := by
  cases text with
  | none => simp [dataOf, trimText, strip, lstrip, rstrip]
  | some t => rfl

theorem trim_some {text : Option Str} {t : Str} (h : trimText text = some t) : t ≠ [] := by
  simp only [trimText] at h
  split at h
  · simp at h
  · next hn => simp at h; subst h; exact hn

/-- names of sub-elements are not names of attributes or of the text -/
theorem name_ne_text {n : Str} (h : XmlName n) : n ≠ c! "#text" := fun e => h.1 (by rw [e]; decide)

theorem name_not_attribute {n : Str} (h : XmlName n) : isAttribute n = false := by
  cases n with
  | nil => rfl
  | cons c n =>
    have : c ≠ '@' := fun e => h.2 (by simp [e])
    simp [isAttribute, this]

theorem attribute_ne {n k : Str} (h : XmlName n) : ('@' :: k) ≠ n := fun e => h.2 (by rw [← e]; simp)

/-- the value of an element -/
theorem value_eq {tag : Str} {text : Option Str} {attrib : Attrib} {kids : List Elem} (h : ∀ k ∈ kids, XmlName k.tag) :
    value (.mk tag text attrib kids) = if attrib = [] ∧ kids = [] then (match trimText text with | none => .null | some t => .text t)
      else .dict (attributeItems attrib ++ table kids ++ textEntry (trimText text)) := by
  rw [value, pushAll_eq kids, data_trim]
  · by_cases h0 : attrib = [] ∧ kids = []
    · rw [if_pos h0, h0.1, h0.2]
      cases trimText text <;> simp [attributeItems, table, firstNames, close]
    · rw [if_neg h0]
      have hne : attributeItems attrib ++ table kids ≠ [] := by
        intro e
        obtain ⟨e1, e2⟩ := List.append_eq_nil_iff.mp e
        apply h0
        refine ⟨by simpa [attributeItems] using e1, ?_⟩
        cases kids with
        | nil => rfl
        | cons a l => simp [table, firstNames] at e2
      have hk : ∀ p ∈ attributeItems attrib ++ table kids, p.1 ≠ c! "#text" := by
        intro p hp
        rcases List.mem_append.mp hp with hp | hp
        · obtain ⟨a, _, rfl⟩ := List.mem_map.mp hp
          simp
        · obtain ⟨n, hn, rfl⟩ := List.mem_map.mp hp
          obtain ⟨k, hk, rfl⟩ := List.mem_map.mp (mem_first.mp hn)
          exact name_ne_text (h k hk)
      revert hne hk
      generalize attributeItems attrib ++ table kids = d
      intro hne hk
      cases d with
      | nil => exact absurd rfl hne
      | cons p d =>
        cases trimText text with
        | none => simp [close, textEntry]
        | some t =>
          show Val.dict (pushData (p :: d) _ _) = _
          rw [push_new _ hk]; rfl
  · intro e he p hp
    obtain ⟨a, _, rfl⟩ := List.mem_map.mp hp
    exact attribute_ne (h e he)

/-! ### what a value becomes -/

theorem textItem_append (x : Corners) : ∀ (d r : Dict) (c : Option Str), (∀ p ∈ d, p.1 ≠ c! "#text") → textItem x (d ++ r) c = textItem x r c
  | [], _, _, _ => rfl
  | (k, v) :: d, r, c, h => by
    rw [List.cons_append, textItem, if_neg (h (k, v) (by simp))]
    exact textItem_append x d r c fun p hp => h p (List.mem_cons_of_mem _ hp)

theorem textItem_entry (x : Corners) (t : Option Str) : textItem x (textEntry t) none = .ok t := by
  cases t <;> simp [textEntry, textItem, cdataText]; rfl

theorem attributeList_append (x : Corners) : ∀ (d r : Dict), attributeList x (d ++ r) = attributeList x d ++ attributeList x r
  | [], _ => rfl
  | (k, v) :: d, r => by
    rw [List.cons_append, attributeList, attributeList, attributeList_append x d r]
    split <;> rfl

theorem attributeList_items (x : Corners) : ∀ (a : Attrib), attributeList x (attributeItems a) = a
  | [] => rfl
  | (k, v) :: a => by
    have := attributeList_items x a
    rw [attributeItems] at this ⊢
    simp [attributeList, isAttribute, attributeText, this]

theorem attributeList_none (x : Corners) : ∀ (d : Dict), (∀ p ∈ d, isAttribute p.1 = false) → attributeList x d = []
  | [], _ => rfl
  | (k, v) :: d, h => by
    have h1 := h (k, v) (by simp)
    simp only at h1
    rw [attributeList, if_neg (by simp [h1]), attributeList_none x d fun p hp => h p (List.mem_cons_of_mem _ hp)]

theorem children_skip (x : Corners) (r : Dict) : ∀ (d : Dict), (∀ p ∈ d, p.1 = c! "#text" ∨ isAttribute p.1 = true) → children x (d ++ r) = children x r
  | [], _ => rfl
  | (k, v) :: d, h => by
    rw [List.cons_append, children, if_pos (h (k, v) (by simp))]
    exact children_skip x r d fun p hp => h p (List.mem_cons_of_mem _ hp)

theorem children_names (x : Corners) (vs : Str → Val) (es : Str → List Elem) (r : Dict) (hr : children x r = .ok []) : ∀ (ns : List Str), (∀ n ∈ ns, XmlName n) →
    (∀ n ∈ ns, elements x n (vs n) = .ok (es n)) → children x (ns.map (fun n => (n, vs n)) ++ r) = .ok (ns.flatMap es)
  | [], _, _ => hr
  | n :: ns, h, he => by
    have hn := h n (by simp)
    rw [List.map_cons, List.cons_append, children, if_neg (by simp [name_ne_text hn, name_not_attribute hn]), he n (by simp),
      children_names x vs es r hr ns (fun m hm => h m (by simp [hm])) (fun m hm => he m (by simp [hm]))]
    rfl

theorem each_map (x : Corners) (n : Str) (f : Elem → Elem) : ∀ (l : List Elem), (∀ e ∈ l, element x n (value e) = .ok (f e)) → each x n (l.map value) = .ok (l.map f)
  | [], _ => by simp [each]
  | e :: l, h => by
    rw [List.map_cons, each, h e (by simp), each_map x n f l fun y hy => h y (by simp [hy])]
    rfl

theorem elements_plain (x : Corners) (n : Str) {v : Val} (h : isList v = false) : elements x n v = (element x n v).map fun e => [e] := by
  cases v with
  | list l => simp [isList] at h
  | _ => simp only [elements]; cases element x n _ <;> rfl

theorem elements_several (x : Corners) (n : Str) (f : Elem → Elem) {l : List Elem} (h0 : l ≠ []) (h : ∀ e ∈ l, element x n (value e) = .ok (f e)) :
    elements x n (several (l.map value)) = .ok (l.map f) := by
  match l, h0 with
  | [e], _ =>
    show elements x n (value e) = _
    rw [elements_plain x n (value_not_list e), h e (by simp)]
    rfl
  | a :: b :: l, _ =>
    show elements x n (.list ((a :: b :: l).map value)) = _
    rw [elements, each_map x n f _ h]

theorem tidy_tag (e : Elem) : (tidy e).tag = e.tag := by
  cases e; simp [tidy, Elem.tag]

theorem tidyAll_map : ∀ (es : List Elem), tidyAll es = es.map tidy
  | [] => by simp [tidyAll]
  | e :: es => by rw [tidyAll, tidyAll_map es, List.map_cons]

theorem trimmedAll_map : ∀ (es : List Elem), trimmedAll es = es.map trimmed
  | [] => by simp [trimmedAll]
  | e :: es => by rw [trimmedAll, trimmedAll_map es, List.map_cons]

theorem group_map (f : Elem → Elem) (hf : ∀ e, (f e).tag = e.tag) (es : List Elem) :
    groupByName (es.map f) = (firstNames (es.map Elem.tag)).flatMap fun n => (es.filter fun e => e.tag = n).map f := by
  rw [groupByName, List.map_map]
  have : Elem.tag ∘ f = Elem.tag := funext hf
  rw [this]
  congr 1
  funext n
  rw [List.filter_map]
  congr 1
  refine List.filter_congr fun e _ => ?_
  simp [hf]

theorem wf_tag {e : Elem} (h : WellFormed e) : XmlName e.tag := by cases h; assumption

/-- what is written for the value of an element is the tidy element -/
theorem element_value (x : Corners) {e : Elem} (h : WellFormed e) : element x e.tag (value e) = .ok (tidy e) := by
  induction h with
  | @mk tag text attrib kids ht ha hk ih =>
    have hn : ∀ k ∈ kids, XmlName k.tag := fun k hm => wf_tag (hk k hm)
    rw [value_eq hn, tidy]
    show element x tag _ = _
    split
    · next h0 =>
      rw [h0.1, h0.2]
      cases ht : trimText text with
      | none => simp [element, tidyAll, groupByName, firstNames]
      | some t => simp [element, tidyAll, groupByName, firstNames, nonEmpty, trim_some ht]
    · have hkeys : ∀ p ∈ table kids, XmlName p.1 := by
        intro p hp
        obtain ⟨n, hm, rfl⟩ := List.mem_map.mp hp
        obtain ⟨k, hk, rfl⟩ := List.mem_map.mp (mem_first.mp hm)
        exact hn k hk
      have e1 : textItem x (attributeItems attrib ++ table kids ++ textEntry (trimText text)) none = .ok (trimText text) := by
        rw [textItem_append, textItem_entry]
        intro p hp
        rcases List.mem_append.mp hp with hp | hp
        · obtain ⟨a, _, rfl⟩ := List.mem_map.mp hp
          simp
        · exact name_ne_text (hkeys p hp)
      have e2 : attributeList x (attributeItems attrib ++ table kids ++ textEntry (trimText text)) = attrib := by
        rw [attributeList_append, attributeList_append, attributeList_items, attributeList_none x (table kids) fun p hp => name_not_attribute (hkeys p hp)]
        cases trimText text with
        | none => simp [textEntry, attributeList]
        | some t => simp [textEntry, attributeList]
      have e3 : children x (attributeItems attrib ++ table kids ++ textEntry (trimText text)) = .ok (groupByName (tidyAll kids)) := by
        rw [List.append_assoc, children_skip]
        · rw [tidyAll_map, group_map tidy tidy_tag, table]
          refine children_names x _ _ _ ?_ _ ?_ ?_
          · cases trimText text <;> simp [textEntry, children]
          · intro n hm
            obtain ⟨k, hk, rfl⟩ := List.mem_map.mp (mem_first.mp hm)
            exact hn k hk
          · intro n hm
            obtain ⟨k, hkm, hkn⟩ := List.mem_map.mp (mem_first.mp hm)
            refine elements_several x n tidy (List.ne_nil_of_mem (a := k) (by simp [hkm, hkn])) ?_
            intro y hy
            obtain ⟨hy, hyn⟩ := List.mem_filter.mp hy
            have hyn : y.tag = n := by simpa using hyn
            rw [← hyn]
            exact ih y hy
        · intro p hp
          obtain ⟨a, _, rfl⟩ := List.mem_map.mp hp
          exact .inr (by simp [isAttribute])
      rw [element, e1, e2, e3]
      show Except.ok _ = _
      congr 2
      cases ht : trimText text with
      | none => rfl
      | some t => simp [nonEmpty, trim_some ht]

/-! ### names standing together -/

theorem elem_ind {P : Elem → Prop} (h : ∀ t x a ks, (∀ k ∈ ks, P k) → P (.mk t x a ks)) : ∀ e, P e
  | .mk t x a ks => h t x a ks fun k hk => by
    have := List.sizeOf_lt_of_mem hk
    exact elem_ind h k
termination_by e => sizeOf e
decreasing_by simp_wf; omega

theorem together_cons {x : Str} {l : List Str} : Together (x :: l) ↔ Together l ∧ (x ∈ l → l.head? = some x) := by
  constructor
  · intro h
    refine ⟨fun a b c n e => h (x :: a) b c n (by rw [e]; rfl), fun hx => ?_⟩
    obtain ⟨b, c, e⟩ := List.append_of_mem hx
    have h1 := h [] b c x (by rw [e]; rfl)
    cases b with
    | nil => rw [e]; rfl
    | cons y b => rw [e, h1 y (by simp)]; rfl
  · rintro ⟨h1, h2⟩ a b c n e
    cases a with
    | cons y a =>
      simp only [List.cons_append, List.cons.injEq] at e
      exact h1 a b c n e.2
    | nil =>
      simp only [List.nil_append, List.cons_append, List.cons.injEq] at e
      obtain ⟨e1, e2⟩ := e
      subst e1
      have h3 := h2 (by rw [e2]; simp)
      cases b with
      | nil => simp
      | cons y b =>
        rw [e2] at h3
        simp only [List.cons_append, List.head?_cons, Option.some.injEq] at h3
        subst h3
        intro m hm
        rcases List.mem_cons.mp hm with e | hm
        · exact e
        · exact h1 [] b c y (by rw [e2]; rfl) m hm

theorem together_nil : Together [] := by
  intro a b c n e
  simp at e

theorem together_append : ∀ {l r : List Str}, Together l → Together r → (∀ n ∈ l, n ∉ r) → Together (l ++ r)
  | [], _, _, hr, _ => hr
  | x :: l, r, hl, hr, hd => by
    obtain ⟨h1, h2⟩ := together_cons.mp hl
    rw [List.cons_append, together_cons]
    refine ⟨together_append h1 hr fun n hn => hd n (by simp [hn]), fun hx => ?_⟩
    rcases List.mem_append.mp hx with hx | hx
    · have := h2 hx
      cases l with
      | nil => simp at hx
      | cons y l => exact this
    · exact absurd hx (hd x (by simp))

theorem together_same {t : Str} : ∀ {l : List Str}, (∀ n ∈ l, n = t) → Together l
  | [], _ => together_nil
  | x :: l, h => by
    rw [together_cons]
    refine ⟨together_same fun n hn => h n (by simp [hn]), fun hx => ?_⟩
    cases l with
    | nil => simp at hx
    | cons y l => simp [h x (by simp), h y (by simp)]

theorem together_blocks (f : Str → List Str) : ∀ (ts : List Str), ts.Nodup → (∀ t ∈ ts, ∀ n ∈ f t, n = t) → Together (ts.flatMap f)
  | [], _, _ => by simpa using together_nil
  | t :: ts, hn, hf => by
    obtain ⟨h1, h2⟩ := List.nodup_cons.mp hn
    rw [List.flatMap_cons]
    refine together_append (together_same (hf t (by simp))) (together_blocks f ts h2 fun s hs => hf s (by simp [hs])) ?_
    intro n hn hn'
    obtain ⟨s, hs, hns⟩ := List.mem_flatMap.mp hn'
    have e1 := hf t (by simp) n hn
    have e2 := hf s (by simp [hs]) n hns
    rw [← e2, e1] at hs
    exact h1 hs

theorem group_tags (es : List Elem) : (groupByName es).map Elem.tag = (firstNames (es.map Elem.tag)).flatMap fun n => (es.filter fun e => e.tag = n).map Elem.tag := by
  rw [groupByName, List.map_flatMap]

theorem block_tags (es : List Elem) : ∀ t ∈ firstNames (es.map Elem.tag), (es.filter fun e => e.tag = t).map Elem.tag ≠ [] ∧
    ∀ n ∈ (es.filter fun e => e.tag = t).map Elem.tag, n = t := by
  intro t ht
  obtain ⟨k, hk, hkt⟩ := List.mem_map.mp (mem_first.mp ht)
  refine ⟨?_, ?_⟩
  · simp only [ne_eq, List.map_eq_nil_iff]
    exact List.ne_nil_of_mem (a := k) (by simp [hk, hkt])
  · intro n hn
    obtain ⟨y, hy, rfl⟩ := List.mem_map.mp hn
    simpa using (List.mem_filter.mp hy).2

theorem group_together (es : List Elem) : Together ((groupByName es).map Elem.tag) := by
  rw [group_tags]
  exact together_blocks _ _ (first_nodup _) fun t ht => (block_tags es t ht).2

theorem group_names (es : List Elem) : firstNames ((groupByName es).map Elem.tag) = firstNames (es.map Elem.tag) := by
  rw [group_tags]
  exact first_blocks _ _ (first_nodup _) (block_tags es)

theorem filter_blocks (f : Str → List Elem) {t : Str} : ∀ (ts : List Str), ts.Nodup → (∀ t ∈ ts, ∀ e ∈ f t, e.tag = t) → t ∈ ts →
    (ts.flatMap f).filter (fun e => e.tag = t) = f t
  | [], _, _, h => by simp at h
  | s :: ts, hn, hf, h => by
    obtain ⟨h1, h2⟩ := List.nodup_cons.mp hn
    rw [List.flatMap_cons, List.filter_append]
    by_cases e : s = t
    · subst e
      have a : (f s).filter (fun e => e.tag = s) = f s := List.filter_eq_self.mpr fun y hy => by simpa using hf s (by simp) y hy
      have b : (ts.flatMap f).filter (fun e => e.tag = s) = [] := by
        refine List.filter_eq_nil_iff.mpr fun y hy hys => ?_
        obtain ⟨r, hr, hy⟩ := List.mem_flatMap.mp hy
        have := hf r (by simp [hr]) y hy
        have hys : y.tag = s := by simpa using hys
        rw [← this, hys] at hr
        exact h1 hr
      rw [a, b, List.append_nil]
    · have a : (f s).filter (fun e => e.tag = t) = [] := by
        refine List.filter_eq_nil_iff.mpr fun y hy hys => ?_
        have := hf s (by simp) y hy
        have hys : y.tag = t := by simpa using hys
        exact e (this.symm.trans hys)
      rw [a, List.nil_append]
      exact filter_blocks f ts h2 (fun r hr => hf r (by simp [hr])) (by simpa [Ne.symm e] using h)

theorem group_filter (es : List Elem) {t : Str} (ht : t ∈ es.map Elem.tag) :
    (groupByName es).filter (fun e => e.tag = t) = es.filter fun e => e.tag = t := by
  rw [groupByName]
  refine filter_blocks (fun n => es.filter fun e => e.tag = n) _ (first_nodup _) ?_ (mem_first.mpr ht)
  intro t _ e he
  simpa using (List.mem_filter.mp he).2

theorem group_nil {es : List Elem} (h : groupByName es = []) : es = [] := by
  cases es with
  | nil => rfl
  | cons e es => simp [groupByName, firstNames] at h

theorem group_mem {es : List Elem} {e : Elem} : e ∈ groupByName es ↔ e ∈ es := by
  simp only [groupByName, List.mem_flatMap, List.mem_filter, decide_eq_true_eq]
  constructor
  · rintro ⟨_, _, h, _⟩; exact h
  · intro h
    exact ⟨e.tag, mem_first.mpr (List.mem_map.mpr ⟨e, h, rfl⟩), h, rfl⟩

theorem split_same {x : Str} : ∀ {es : List Elem}, Together (x :: es.map Elem.tag) →
    es = (es.filter fun e => e.tag = x) ++ es.filter fun e => e.tag ≠ x
  | [], _ => by simp
  | e :: es, h => by
    obtain ⟨h1, h2⟩ := together_cons.mp h
    by_cases hx : e.tag = x
    · have := split_same (x := x) (es := es) (by rw [List.map_cons, hx] at h1; exact h1)
      simp only [List.filter_cons, hx, decide_true, ↓reduceIte, ne_eq, not_true_eq_false, decide_false, Bool.false_eq_true, List.cons_append]
      congr 1
    · have hno : ∀ y ∈ e :: es, y.tag ≠ x := by
        intro y hy c
        have := h2 (List.mem_map.mpr ⟨y, hy, c⟩)
        simp at this
        exact hx this
      rw [List.filter_eq_nil_iff.mpr, List.nil_append, List.filter_eq_self.mpr]
      · intro y hy; simpa using hno y hy
      · intro y hy; simpa using hno y hy

theorem first_filter (x : Str) : ∀ (ns : List Str), (firstNames ns).filter (· ≠ x) = firstNames (ns.filter (· ≠ x))
  | [] => rfl
  | n :: ns => by
    have ih := first_filter x ns
    by_cases h : n = x
    · subst h
      simp only [firstNames, ne_eq, decide_not, List.filter_cons, decide_true, Bool.not_true, Bool.false_eq_true, ↓reduceIte, List.filter_filter, Bool.and_self] at ih ⊢
      exact ih
    · simp only [firstNames, ne_eq, decide_not, List.filter_cons, h, decide_false, Bool.not_false, ↓reduceIte] at ih ⊢
      rw [← ih, List.filter_filter, List.filter_filter]
      congr 1
      refine List.filter_congr fun y _ => ?_
      rw [Bool.and_comm]

theorem group_cons (e : Elem) (es : List Elem) : groupByName (e :: es) = e :: (es.filter fun y => y.tag = e.tag) ++ groupByName (es.filter fun y => y.tag ≠ e.tag) := by
  rw [groupByName, List.map_cons, firstNames, List.flatMap_cons, groupByName]
  have h1 : (es.filter fun y => y.tag ≠ e.tag).map Elem.tag = (es.map Elem.tag).filter (· ≠ e.tag) := by
    rw [List.filter_map]; rfl
  rw [h1, ← first_filter]
  congr 1
  · simp
  · have hc : ∀ n ∈ (firstNames (es.map Elem.tag)).filter (· ≠ e.tag), ((e :: es).filter fun y => y.tag = n) = (es.filter fun y => y.tag ≠ e.tag).filter fun y => y.tag = n := by
      intro n hn
      have hne : n ≠ e.tag := by simpa using (List.mem_filter.mp hn).2
      rw [List.filter_filter, List.filter_cons, if_neg (by simpa using Ne.symm hne)]
      refine List.filter_congr fun y _ => ?_
      by_cases c : y.tag = n
      · simp [c, hne]
      · simp [c]
    rw [List.flatMap_def, List.flatMap_def, List.map_congr_left hc]

theorem group_self : ∀ {es : List Elem}, Together (es.map Elem.tag) → groupByName es = es
  | [], _ => by simp [groupByName, firstNames]
  | e :: es, h => by
    have h0 := split_same h
    have h1 := (together_cons.mp h).1
    have h2 : Together ((es.filter fun y => y.tag ≠ e.tag).map Elem.tag) := by
      rw [h0, List.map_append] at h1
      generalize (es.filter fun y => y.tag = e.tag).map Elem.tag = l at h1
      induction l with
      | nil => exact h1
      | cons a l ih => exact ih (together_cons.mp h1).1
    rw [group_cons, group_self h2, List.cons_append, ← h0]
termination_by es => es.length
decreasing_by
  simp only [List.length_cons]
  exact Nat.lt_succ_of_le (List.length_filter_le _ _)

theorem trimmed_tag (e : Elem) : (trimmed e).tag = e.tag := by
  cases e; simp [trimmed, Elem.tag]

theorem map_tags (f : Elem → Elem) (hf : ∀ e, (f e).tag = e.tag) (es : List Elem) : (es.map f).map Elem.tag = es.map Elem.tag := by
  rw [List.map_map]
  exact List.map_congr_left fun e _ => hf e

/-- nothing moves exactly if elements of the same name stand together already -/
theorem tidy_trimmed (e : Elem) : tidy e = trimmed e ↔ TogetherAll e := by
  induction e using elem_ind with
  | _ t x a ks ih =>
    rw [tidy, trimmed, tidyAll_map, trimmedAll_map]
    constructor
    · intro h
      simp only [Elem.mk.injEq, true_and] at h
      have ht : Together (ks.map Elem.tag) := by
        have := group_together (ks.map tidy)
        rwa [h, map_tags trimmed trimmed_tag] at this
      rw [group_self (by rwa [map_tags tidy tidy_tag])] at h
      refine .mk ht fun k hk => (ih k hk).mp ?_
      exact (List.map_inj_left.mp h) k hk
    · intro h
      cases h with
      | mk ht hk =>
        rw [group_self (by rwa [map_tags tidy tidy_tag])]
        congr 1
        exact List.map_congr_left fun k hm => (ih k hm).mpr (hk k hm)

theorem trim_trim (text : Option Str) : trimText (trimText text) = trimText text := by
  simp only [trimText]
  by_cases h : strip (text.getD []) = []
  · have h0 : strip ([] : Str) = [] := rfl
    simp [h, h0]
  · simp [h, ToMpc80.strip_idem]

theorem wf_tidy {e : Elem} (h : WellFormed e) : WellFormed (tidy e) := by
  induction h with
  | mk ht ha hk ih =>
    rw [tidy, tidyAll_map]
    refine .mk ht ha fun k hm => ?_
    obtain ⟨y, hy, rfl⟩ := List.mem_map.mp (group_mem.mp hm)
    exact ih y hy

theorem table_group (kids : List Elem) : table (groupByName kids) = table kids := by
  rw [table, table, group_names]
  refine List.map_congr_left fun n hn => ?_
  rw [group_filter kids (mem_first.mp hn)]

theorem table_map (f : Elem → Elem) (hf : ∀ e, (f e).tag = e.tag) {kids : List Elem} (hv : ∀ k ∈ kids, value (f k) = value k) : table (kids.map f) = table kids := by
  rw [table, table, map_tags f hf]
  refine List.map_congr_left fun n hn => ?_
  rw [List.filter_map, List.map_map]
  have : (fun e => decide (e.tag = n)) ∘ f = fun e => decide (e.tag = n) := by funext e; simp [hf]
  rw [this]
  congr 2
  refine List.map_congr_left fun k hk => ?_
  exact hv k (List.mem_filter.mp hk).1

/-- tidying changes nothing in the JSON form -/
theorem value_tidy {e : Elem} (h : WellFormed e) : value (tidy e) = value e := by
  induction h with
  | @mk tag text attrib kids ht ha hk ih =>
    rw [tidy, tidyAll_map, value_eq (fun k hm => wf_tag (hk k hm)), value_eq, trim_trim, table_group, table_map tidy tidy_tag ih]
    · have : (groupByName (kids.map tidy) = []) ↔ kids = [] := by
        constructor
        · intro c; simpa using group_nil c
        · rintro rfl; simp [groupByName, firstNames]
      simp only [this]
    · intro k hm
      obtain ⟨y, hy, rfl⟩ := List.mem_map.mp (group_mem.mp hm)
      rw [tidy_tag]
      exact wf_tag (hk y hy)

theorem trimmed_tidy (e : Elem) : trimmed (tidy e) = tidy e := by
  induction e using elem_ind with
  | _ t x a ks ih =>
    rw [tidy, trimmed, tidyAll_map, trimmedAll_map, trim_trim]
    congr 1
    conv => rhs; rw [← List.map_id (groupByName (ks.map tidy))]
    refine List.map_congr_left fun k hk => ?_
    obtain ⟨y, hy, rfl⟩ := List.mem_map.mp (group_mem.mp hk)
    exact ih y hy

theorem together_tidy (e : Elem) : TogetherAll (tidy e) := by
  induction e using elem_ind with
  | _ t x a ks ih =>
    rw [tidy, tidyAll_map]
    refine .mk (group_together _) fun k hk => ?_
    obtain ⟨y, hy, rfl⟩ := List.mem_map.mp (group_mem.mp hk)
    exact ih y hy

theorem tidy_tidy (e : Elem) : tidy (tidy e) = tidy e := by
  rw [(tidy_trimmed (tidy e)).mpr (together_tidy e), trimmed_tidy]

theorem trim_bare {text : Option Str} {t : Str} (h : trimText text = some t) : Bare t := by
  refine ⟨trim_some h, ?_⟩
  simp only [trimText] at h
  split at h
  · simp at h
  · simp at h; subst h; exact ToMpc80.strip_idem _

theorem bare_trim {t : Str} (h : Bare t) : trimText (some t) = some t := by
  simp [trimText, h.1, h.2]

/-- the JSON form of a document is canonical -/
theorem value_canonical {e : Elem} (h : WellFormed e) : Canonical (value e) := by
  induction h with
  | @mk tag text attrib kids ht ha hk ih =>
    rw [value_eq fun k hm => wf_tag (hk k hm)]
    split
    · cases h : trimText text with
      | none => exact .null
      | some t => exact .text (trim_bare h)
    · next h0 =>
      have e : table kids = ((firstNames (kids.map Elem.tag)).map fun n => (n, (kids.filter fun e => e.tag = n).map value)).map (fun s => (s.1, several s.2)) := by
        rw [List.map_map]; rfl
      rw [e]
      refine .dict ?_ ha ?_ ?_ ?_ ?_
      · by_cases c : attrib = []
        · right
          intro c2
          apply h0
          refine ⟨c, ?_⟩
          cases kids with
          | nil => rfl
          | cons k l => simp [firstNames] at c2
        · exact .inl c
      · rw [List.map_map]
        show (List.map (fun n => n) _).Nodup
        simpa using first_nodup _
      · intro s hs
        obtain ⟨n, hn, rfl⟩ := List.mem_map.mp hs
        obtain ⟨k, hkm, rfl⟩ := List.mem_map.mp (mem_first.mp hn)
        refine ⟨wf_tag (hk k hkm), ?_⟩
        simp only [ne_eq, List.map_eq_nil_iff]
        exact List.ne_nil_of_mem (a := k) (by simp [hkm])
      · intro s hs v hv
        obtain ⟨n, hn, rfl⟩ := List.mem_map.mp hs
        obtain ⟨k, hkm, rfl⟩ := List.mem_map.mp hv
        exact ih k (List.mem_filter.mp hkm).1
      · intro t ht
        exact trim_bare ht

/-- entries for sub-elements, made from elements -/
theorem table_blocks : ∀ (subs : List (Str × List Elem)), (subs.map Prod.fst).Nodup → (∀ s ∈ subs, s.2 ≠ [] ∧ ∀ e ∈ s.2, e.tag = s.1) →
    firstNames ((subs.flatMap Prod.snd).map Elem.tag) = subs.map Prod.fst ∧ ∀ s ∈ subs, (subs.flatMap Prod.snd).filter (fun e => e.tag = s.1) = s.2 := by
  intro subs hn hs
  have look : ∃ f : Str → List Elem, ∀ s ∈ subs, f s.1 = s.2 := by
    clear hs
    induction subs with
    | nil => exact ⟨fun _ => [], by simp⟩
    | cons s subs ih =>
      obtain ⟨h1, h2⟩ := List.nodup_cons.mp hn
      obtain ⟨f, hf⟩ := ih h2
      refine ⟨fun n => if n = s.1 then s.2 else f n, fun r hr => ?_⟩
      rcases List.mem_cons.mp hr with rfl | hr
      · simp
      · have : r.1 ≠ s.1 := fun c => h1 (by rw [← c]; exact List.mem_map.mpr ⟨r, hr, rfl⟩)
        simp [this, hf r hr]
  obtain ⟨f, hf⟩ := look
  have e : subs.flatMap Prod.snd = (subs.map Prod.fst).flatMap f := by
    rw [List.flatMap_map, List.flatMap_def, List.flatMap_def, List.map_congr_left fun s h => (hf s h)]
  rw [e]
  constructor
  · rw [List.map_flatMap]
    refine first_blocks _ _ hn fun t ht => ?_
    obtain ⟨s, hm, rfl⟩ := List.mem_map.mp ht
    rw [hf s hm]
    refine ⟨by simpa using (hs s hm).1, fun n hn => ?_⟩
    obtain ⟨y, hy, rfl⟩ := List.mem_map.mp hn
    exact (hs s hm).2 y hy
  · intro s hm
    rw [← hf s hm]
    refine filter_blocks f _ hn ?_ (List.mem_map.mpr ⟨s, hm, rfl⟩)
    intro t ht y hy
    obtain ⟨r, hr, rfl⟩ := List.mem_map.mp ht
    rw [hf r hr] at hy
    exact (hs r hr).2 y hy

/-- every canonical value comes from a tidy element -/
theorem canonical_from {v : Val} (h : Canonical v) : ∀ key, XmlName key → ∃ e, WellFormed e ∧ e.tag = key ∧ value e = v ∧ tidy e = e := by
  induction h with
  | null =>
    intro key hk
    refine ⟨.mk key none [] [], .mk hk (by simp) (by simp), rfl, ?_, ?_⟩
    · rw [value_eq (by simp)]; simp [trimText, strip, lstrip, rstrip]
    · simp [tidy, tidyAll, groupByName, firstNames, trimText, strip, lstrip, rstrip]
  | @text t ht =>
    intro key hk
    refine ⟨.mk key (some t) [] [], .mk hk (by simp) (by simp), rfl, ?_, ?_⟩
    · rw [value_eq (by simp)]; simp [bare_trim ht]
    · simp [tidy, tidyAll, groupByName, firstNames, bare_trim ht]
  | @dict attrs subs text h0 ha hs hn hc ht ih =>
    intro key hk
    have hg : ∃ g : Str → Val → Elem, ∀ s ∈ subs, ∀ v ∈ s.2, WellFormed (g s.1 v) ∧ (g s.1 v).tag = s.1 ∧ value (g s.1 v) = v ∧ tidy (g s.1 v) = g s.1 v := by
      classical
      refine ⟨fun n v => if h : ∃ e, WellFormed e ∧ e.tag = n ∧ value e = v ∧ tidy e = e then h.choose else default, fun s hs v hv => ?_⟩
      have h := ih s hs v hv s.1 (hn s hs).1
      simp only [h, ↓reduceDIte]
      exact h.choose_spec
    obtain ⟨g, hg⟩ := hg
    obtain ⟨t1, t2⟩ := table_blocks (subs.map fun s => (s.1, s.2.map (g s.1))) (by rw [List.map_map]; exact hs) (by
      intro s hm
      obtain ⟨r, hr, rfl⟩ := List.mem_map.mp hm
      refine ⟨by simpa using (hn r hr).2, fun e he => ?_⟩
      obtain ⟨v, hv, rfl⟩ := List.mem_map.mp he
      exact (hg r hr v hv).2.1)
    generalize hkids : (subs.map fun s => (s.1, s.2.map (g s.1))).flatMap Prod.snd = kids at t1 t2
    have hmem : ∀ k ∈ kids, ∃ s ∈ subs, ∃ v ∈ s.2, k = g s.1 v := by
      intro k hk
      rw [← hkids] at hk
      obtain ⟨s, hs, hk⟩ := List.mem_flatMap.mp hk
      obtain ⟨r, hr, rfl⟩ := List.mem_map.mp hs
      obtain ⟨v, hv, rfl⟩ := List.mem_map.mp hk
      exact ⟨r, hr, v, hv, rfl⟩
    have hname : ∀ k ∈ kids, XmlName k.tag := by
      intro k hk
      obtain ⟨s, hs, v, hv, rfl⟩ := hmem k hk
      rw [(hg s hs v hv).2.1]
      exact (hn s hs).1
    have htab : table kids = subs.map fun s => (s.1, several s.2) := by
      rw [table, t1, List.map_map, List.map_map]
      refine List.map_congr_left fun s hm => ?_
      have := t2 (s.1, s.2.map (g s.1)) (List.mem_map.mpr ⟨s, hm, rfl⟩)
      simp only at this
      show (s.1, several ((kids.filter fun e => e.tag = s.1).map value)) = _
      rw [this, List.map_map]
      congr 2
      conv => rhs; rw [← List.map_id s.2]
      exact List.map_congr_left fun v hv => (hg s hm v hv).2.2.1
    have htext : trimText text = text := by
      cases text with
      | none => simp [trimText, strip, lstrip, rstrip]
      | some t => exact bare_trim (ht t rfl)
    refine ⟨.mk key text attrs kids, .mk hk ha ?_, rfl, ?_, ?_⟩
    · intro k hk
      obtain ⟨s, hs, v, hv, rfl⟩ := hmem k hk
      exact (hg s hs v hv).1
    · rw [value_eq hname, htext, htab, if_neg]
      · rfl
      · rintro ⟨c1, c2⟩
        rcases h0 with h0 | h0
        · exact h0 c1
        · rw [c2] at t1
          cases subs with
          | nil => exact h0 rfl
          | cons s l => simp [firstNames] at t1
    · rw [tidy, tidyAll_map, htext]
      have hid : kids.map tidy = kids := by
        conv => rhs; rw [← List.map_id kids]
        refine List.map_congr_left fun k hk => ?_
        obtain ⟨s, hs, v, hv, rfl⟩ := hmem k hk
        exact (hg s hs v hv).2.2.2
      rw [hid]
      congr 1
      rw [groupByName, t1, List.map_map, List.flatMap_map]
      rw [← hkids, List.flatMap_map, List.flatMap_def, List.flatMap_def]
      congr 1
      refine List.map_congr_left fun s hm => ?_
      have := t2 (s.1, s.2.map (g s.1)) (List.mem_map.mpr ⟨s, hm, rfl⟩)
      rw [← hkids, List.flatMap_map] at this
      exact this

end Verif.Json
