import Verif.Lemmas.BackColumns
import Verif.Props.Mpc80Optical
/-
  Lemmas for C39: second lines, observations and documents.
-/
namespace Verif.ToMpc80
open Verif Verif.ToPsv Verif.Mpc80 Verif.PackUtil Verif.Spec.Mpc80 Verif.Xml
open Verif.Spec hiding Item Group fileText Group.lines contextElem

theorem take_len {s : Str} {n : Nat} (h : s.length = n) : s.take n = s := by rw [← h, List.take_length]

theorem second_sat {o : Optical} {s : Spacecraft} (hs : s.Valid o) {time ra dec : Str} {d : Dict} (hd : Holds o s.values time ra dec d) :
    opticalSecond d (sharedOf o) = .ok (some (some ((s.normal o).line o.normal))) := by
  have p1 : dictGet d (c! "pos1") = some s.x.text := by rw [hd.place _ (by simp)]; rfl
  have p2 : dictGet d (c! "pos2") = some s.y.text := by rw [hd.place _ (by simp)]; rfl
  have p3 : dictGet d (c! "pos3") = some s.z.text := by rw [hd.place _ (by simp)]; rfl
  have hsys : dictGet d (c! "sys") = some (if s.au then c! "ICRF_AU" else c! "ICRF_KM") := by rw [hd.place _ (by simp)]; rfl
  obtain ⟨w1, w2⟩ := places_range s
  have hx := (coord_signed w1 w2 hs.x).2
  have hy := (coord_signed w1 w2 hs.y).2
  have hz := (coord_signed w1 w2 hs.z).2
  have lx := coord_length w1 w2 hs.x
  have ly := coord_length w1 w2 hs.y
  have lz := coord_length w1 w2 hs.z
  unfold opticalSecond
  rw [p1]
  simp only
  rw [item_of hsys, Sex.okBind]
  have hne : (if s.au then c! "ICRF_AU" else c! "ICRF_KM") ≠ c! "WGS84" := by cases s.au <;> decide
  have hor : (if s.au then c! "ICRF_AU" else c! "ICRF_KM") = c! "ICRF_AU" ∨ (if s.au then c! "ICRF_AU" else c! "ICRF_KM") = c! "ICRF_KM" := by cases s.au <;> decide
  rw [if_neg hne, if_pos hor]
  have hnd : (if (if s.au then c! "ICRF_AU" else c! "ICRF_KM") = c! "ICRF_AU" then (3 : Int) else 7) = ((s.places + 2 : Nat) : Int) := by
    unfold Spacecraft.places; cases s.au <;> decide
  simp only [hnd]
  rw [show (11 : Int) = ((11 : Nat) : Int) from rfl] at *
  rw [hx, Sex.okBind, item_of p2, Sex.okBind, hy, Sex.okBind, item_of p3, Sex.okBind, hz, Sex.okBind]
  rw [take_len lx, take_len ly, take_len lz]
  simp only [pure, Except.pure, sharedOf, Spacecraft.line, Spacecraft.normal, Optical.normal, Spacecraft.places, List.append_assoc, List.cons_append, List.nil_append]
  by_cases hau : s.au = true <;> simp [hau]

theorem fits_column {t : Str} (h : max 3 (t.takeWhile (· ≠ '.')).length + (t.dropWhile (· ≠ '.')).length ≤ 10) : pointColumn 3 8 t = pointColumn 3 7 t ++ [' '] ∧ (pointColumn 3 7 t).length = 10 := by
  generalize ha : t.takeWhile (· ≠ '.') = a at h
  generalize hb : t.dropWhile (· ≠ '.') = b at h
  unfold pointColumn
  rw [ha, hb, leftpad_eq, List.rightpad, List.rightpad]
  generalize he : List.replicate (3 - a.length) ' ' ++ a = l
  have hl : l.length = max 3 a.length := by rw [← he]; simp; omega
  constructor
  · have e : ∀ k n, l.length + b.length ≤ n → n ≤ l.length + k → (l ++ (b ++ List.replicate (k - b.length) ' ')).take n = (l ++ b) ++ List.replicate (n - (l.length + b.length)) ' ' := by
      intro k n h1 h2
      rw [← List.append_assoc, List.take_append, List.take_of_length_le (by simp; omega), List.take_replicate]
      congr 2
      simp; omega
    rw [e 8 _ (by omega) (by omega), e 7 _ (by omega) (by omega), List.append_assoc (l ++ b), ← List.replicate_succ']
    congr 2; omega
  · simp; omega

theorem trim_sublist (t : Str) : (trim t).Sublist t := by
  unfold trim
  have h1 := List.dropWhile_sublist (fun x : Char => decide (x = ' ')) (l := (t.dropWhile (fun x => decide (x = ' '))).reverse)
  have h2 := h1.reverse
  rw [List.reverse_reverse] at h2
  exact h2.trans (List.dropWhile_sublist _)

theorem second_rover {o : Optical} {r : Rover} (hr : r.Valid o) (f1 : Fits r.lon) (f2 : Fits r.lat) {time ra dec : Str} {d : Dict} (hd : Holds o r.values time ra dec d) :
    opticalSecond d (sharedOf o) = .ok (some (some ((r.normal o).line o.normal))) := by
  have g : ∀ k ∈ [c! "sys", c! "pos1", c! "pos2", c! "pos3"], dictGet d k = dictGet r.values k := hd.place
  have p1 : dictGet d (c! "pos1") = some (trim r.lon) := by
    rw [g _ (by simp)]; unfold Rover.values; simp [get_append, get_cons, get_val, opt, f1.1]
  have p2 : dictGet d (c! "pos2") = some (trim r.lat) := by
    rw [g _ (by simp)]; unfold Rover.values; simp [get_append, get_cons, get_val, opt, f2.1]
  have p3 : dictGet d (c! "pos3") = some (trim r.alt) := by
    rw [g _ (by simp)]; unfold Rover.values; simp [get_append, get_cons, get_val, opt, hr.alt.2.2]
  have p4 : dictGet d (c! "sys") = some (c! "WGS84") := by
    rw [g _ (by simp)]; unfold Rover.values; simp [get_append, get_cons, get_val]
  obtain ⟨u, x, y, a1, a2⟩ := point_column 3 8 (t := trim r.lon) (Nat.le_trans (List.Sublist.count_le _ (trim_sublist _)) f1.2.1)
  obtain ⟨u', x', y', b1, b2⟩ := point_column 3 8 (t := trim r.lat) (Nat.le_trans (List.Sublist.count_le _ (trim_sublist _)) f2.2.1)
  unfold opticalSecond
  rw [p1]
  simp only
  rw [item_of p4, Sex.okBind, if_pos rfl]
  rw [show (11 : Int) = ((3 + 8 : Nat) : Int) from rfl, show (4 : Int) = ((3 + 1 : Nat) : Int) from rfl, a1, Sex.okBind]
  simp only
  rw [item_of p2, Sex.okBind, b1, Sex.okBind]
  simp only
  rw [item_of p3, Sex.okBind]
  rw [show u.take 11 = pointColumn 3 8 (trim r.lon) from a2, show u'.take 11 = pointColumn 3 8 (trim r.lat) from b2, (fits_column f1.2.2).1, (fits_column f2.2.2).1]
  simp only [pure, Except.pure, sharedOf, Rover.line, Rover.normal, Optical.normal, rjust, leftpad_eq, List.append_assoc, List.cons_append, List.nil_append]
  rfl

/-! ### writing -/

/-- these lines are written, and nothing else happens -/
def Writes (x : W Unit) (ls : List Str) : Prop := ∀ s, x s = .ok () { s with out := s.out ++ ls }

theorem writes_print (l : Str) : Writes (print l) [l] := fun _ => rfl

theorem Writes.seq {x : W Unit} {f : Unit → W Unit} {a b : List Str} (h : Writes x a) (h' : Writes (f ()) b) : Writes (x >>= f) (a ++ b) := by
  intro s
  simp only [bind, EStateM.bind, h s]
  rw [h' _, List.append_assoc]

theorem writes_lift {α : Type} {x : Py α} {v : α} {f : α → W Unit} {a : List Str} (h : x = .ok v) (h' : Writes (f v) a) : Writes (lift x >>= f) a := by
  intro s
  subst h
  exact h' s

theorem writes_nil : Writes (pure ()) [] := by
  intro s
  simp [pure, EStateM.pure]

theorem writes_each {α : Type} {f : α → W Unit} : ∀ {l : List α} {g : α → List Str}, (∀ x ∈ l, Writes (f x) (g x)) → Writes (each f l) (l.flatMap g)
  | [], _, _ => writes_nil
  | x :: l, g, h => by
    rw [List.flatMap_cons]
    exact (h x (by simp)).seq (writes_each fun y hy => h y (by simp [hy]))

theorem writes_optical {op : Opts} {d : Dict} {p : Shared} {l : Str} {sec : Option (Option Str)} (h1 : opticalFirst op d = .ok (p, l)) (h2 : opticalSecond d p = .ok sec) :
    Writes (printOpticalLine op d) (l :: (match sec with | none => [] | some none => [l] | some (some x) => [x])) := by
  unfold printOpticalLine
  refine writes_lift h1 ?_
  refine (writes_print l).seq (b := match sec with | none => [] | some none => [l] | some (some x) => [x]) ?_
  refine writes_lift h2 ?_
  match sec with
  | none => exact writes_nil
  | some none => exact writes_print l
  | some (some x) => exact writes_print x

theorem place_good {b : Obs} (h : b.Valid) : Good b.place ∧ PlaceNames b.place := by
  cases b with
  | ground o => exact ⟨by intro x hx; simp [Obs.place] at hx, by simp [Obs.place, PlaceNames]⟩
  | spacecraft o s =>
    obtain ⟨_, _, hs⟩ := h
    obtain ⟨x1, x2⟩ := coord_text_strip s.x ⟨hs.x.2.1, hs.x.2.2.2⟩
    obtain ⟨y1, y2⟩ := coord_text_strip s.y ⟨hs.y.2.1, hs.y.2.2.2⟩
    obtain ⟨z1, z2⟩ := coord_text_strip s.z ⟨hs.z.2.1, hs.z.2.2.2⟩
    refine ⟨?_, List.Sublist.refl _⟩
    exact .cons (by cases s.au <;> decide) (by cases s.au <;> decide) (.cons (by decide) (by decide) (.cons x2 x1 (.cons y2 y1 (.one z2 z1))))
  | rover o r =>
    obtain ⟨_, _, _, hr⟩ := h
    refine ⟨?_, ?_⟩
    · exact (((Good.cons (by decide) (by decide) (.one (by decide) (by decide))).app (.val (trim_strip (number_plain hr.lon.2)))).app (.val (trim_strip (number_plain hr.lat.2)))).app
        (.val (trim_strip (number_plain hr.alt.2.1)))
    · unfold PlaceNames Obs.place Rover.values
      simp only [List.map_append]
      exact ((((List.Sublist.refl [c! "sys", c! "ctr"]).append (val_names _ _)).append (val_names _ _)).append (val_names _ _))

/-- an observation is written as its normal form -/
theorem writes_obs {b : Obs} (h : b.Valid) (hr : b.Restorable) {e : Elem} (he : b.Element e) (op : Opts) : Writes (printData op (e.tag, subDict e)) b.normal.lines := by
  obtain ⟨time, ra, dec, hrd, rfl⟩ := he
  have hf : b.first.Valid := by cases b <;> exact h.1
  have ht : (b.first.elem b.place time ra dec).tag = c! "optical" := rfl
  rw [dict_values hf (place_good h).1 (place_good h).2 hrd, ht]
  have hd := holds (o := b.first) (place_good h).2 (time := time) (ra := ra) (dec := dec)
  unfold printData
  rw [if_pos (Or.inl rfl)]
  simp only
  cases b with
  | ground o =>
    obtain ⟨_, h1, h2⟩ := h
    have hs : opticalSecond (o.values [] time ra dec) (sharedOf o) = .ok none := by
      unfold opticalSecond
      rw [show dictGet (o.values [] time ra dec) (c! "pos1") = none from (hd.place _ (by simp)).trans rfl]
    exact writes_optical (first_back hf hr hrd hd (code_ground hf h1 h2 hd) op) hs
  | spacecraft o s =>
    obtain ⟨_, h1, hs⟩ := h
    exact writes_optical (first_back hf hr hrd hd (code_sat h1 hd) op) (second_sat hs hd)
  | rover o r =>
    obtain ⟨_, h1, _, hs⟩ := h
    exact writes_optical (first_back hf hr.1 hrd hd (code_rover h1 hr.2.1.1 hd) op) (second_rover hs hr.2.1 hr.2.2 hd)

/-! ### header lines -/

theorem reg_leaf {n v : Str} (h : Plain v) : regularizeWhiteSpace (leafOf n v).text = trim v := by
  rw [← strip_trim h]
  unfold leafOf
  by_cases hv : v = []
  · rw [if_pos hv, hv]; rfl
  · rw [if_neg hv]; rfl

theorem comma_plain : ∀ {v : Str}, Plain v → ∀ w ∈ commaNames v, Plain w
  | [], _ => by intro w hw; simp [commaNames] at hw; subst hw; intro c hc; simp at hc
  | c :: v, h => by
    have ih := comma_plain (v := v) fun x hx => h x (by simp [hx])
    intro w hw
    unfold commaNames at hw
    cases hn : commaNames v with
    | nil => rw [hn] at hw; simp at hw; subst hw; intro c hc; simp at hc
    | cons a l =>
      rw [hn] at hw ih
      simp only at hw
      split at hw
      · rcases List.mem_cons.1 hw with rfl | hw
        · intro c hc; simp at hc
        · exact ih w hw
      · rcases List.mem_cons.1 hw with rfl | hw
        · intro x hx
          rcases List.mem_cons.1 hx with rfl | hx
          · exact h x (by simp)
          · exact ih a (by simp) x hx
        · exact ih w (by simp [hw])

theorem join_eq : ∀ l : List Str, contextItem.joinComma l = joinNames l
  | [] => rfl
  | [x] => rfl
  | x :: y :: l => by rw [contextItem.joinComma, joinNames, join_eq (y :: l)] <;> simp

theorem tag_node (t : Str) (k : List Elem) : (nodeOf t k).tag = t := rfl
theorem kids_node (t : Str) (k : List Elem) : (nodeOf t k).kids = k := rfl
theorem tag_leaf (n w : Str) : (leafOf n w).tag = n := rfl

theorem texts_leaf {n : Str} {l : List Str} (h : ∀ w ∈ l, Plain w) :
    (((l.map (leafOf n)).filter fun j => j.tag = n).map fun j => regularizeWhiteSpace j.text) = l.map trim := by
  rw [List.filter_eq_self.2 (by intro j hj; obtain ⟨w, _, rfl⟩ := List.mem_map.1 hj; simp [tag_leaf]), List.map_map]
  exact List.map_congr_left fun w hw => reg_leaf (h w hw)

theorem contextItem_names {tag key : Str} {l : List Str} (h : ∀ w ∈ l, Plain w) (hk : (tag = c! "observers" ∧ key = c! "OBS ") ∨ (tag = c! "measurers" ∧ key = c! "MEA ")) :
    contextItem (nodeOf tag (l.map (leafOf (c! "name")))) = [key ++ joinNames (l.map trim)] := by
  have e := texts_leaf (n := c! "name") h
  rcases hk with ⟨rfl, rfl⟩ | ⟨rfl, rfl⟩ <;> simp [contextItem, tag_node, kids_node, join_eq] <;> simpa using congrArg joinNames e

theorem header_back {k v : Str} (hv : Plain v) : (headerElem k v).toList.flatMap contextItem = if k ∈ contextWords then [k ++ [' '] ++ normalValue k v] else [] := by
  unfold headerElem
  by_cases h1 : k = c! "COD"
  · subst h1
    simp [contextWords, normalValue, contextItem, tag_node, kids_node, tag_leaf, reg_leaf hv]
  rw [if_neg h1]
  by_cases h2 : k = c! "CON"
  · subst h2
    rw [if_pos rfl]
    by_cases hc : ',' ∈ v
    · have e1 := reg_leaf (n := c! "name") (v := v.takeWhile (· ≠ ',')) (fun x hx => hv x ((List.takeWhile_sublist _).subset hx))
      have e2 := reg_leaf (n := c! "institution") (v := (v.dropWhile (· ≠ ',')).tail) (fun x hx => hv x ((List.dropWhile_sublist _).subset (List.mem_of_mem_tail hx)))
      simp only [ne_eq, decide_not] at e1 e2
      simp [contextWords, normalValue, contextItem, tag_node, kids_node, tag_leaf, join_eq, hc, e1, e2]
    · simp [contextWords, normalValue, contextItem, tag_node, kids_node, tag_leaf, join_eq, hc, reg_leaf hv, joinNames]
  rw [if_neg h2]
  by_cases h3 : k = c! "OBS"
  · subst h3
    rw [if_pos rfl, Option.toList_some, List.flatMap_singleton, contextItem_names (comma_plain hv) (Or.inl ⟨rfl, rfl⟩)]
    rfl
  rw [if_neg h3]
  by_cases h4 : k = c! "MEA"
  · subst h4
    rw [if_pos rfl, Option.toList_some, List.flatMap_singleton, contextItem_names (comma_plain hv) (Or.inr ⟨rfl, rfl⟩)]
    rfl
  rw [if_neg h4]
  by_cases h5 : k = c! "TEL"
  · subst h5
    simp [contextWords, normalValue, contextItem, tag_node, kids_node, tag_leaf, reg_leaf hv]
  rw [if_neg h5, if_neg (by simp [contextWords, h1, h2, h3, h4, h5])]
  rfl

/-- a header line -/
def headLine (h : Str × Str) : Str := h.1 ++ [' '] ++ h.2

theorem headers_back : ∀ {hs : List (Str × Str)} {seen seen' : List Str}, (∀ h ∈ hs, Plain h.2) → (∀ k ∈ contextWords, k ∈ seen ↔ k ∈ seen') →
    (headerElems seen hs).flatMap contextItem = (firstHeaders seen' hs).map headLine
  | [], _, _, _, _ => rfl
  | (k, v) :: hs, seen, seen', hp, he => by
    have hp' : ∀ h ∈ hs, Plain h.2 := fun h hh => hp h (by simp [hh])
    unfold headerElems firstHeaders
    by_cases hc : k ∈ contextWords
    · have hcom : k ≠ c! "COM" := by rintro rfl; revert hc; decide
      by_cases hs' : k ∈ seen
      · rw [if_pos (Or.inr hs'), if_neg (by simp [(he k hc).1 hs'])]
        exact headers_back hp' he
      · rw [if_neg (by simp [hcom, hs']), if_pos ⟨hc, fun h => hs' ((he k hc).2 h)⟩, List.flatMap_append, header_back (hp (k, v) (by simp)), if_pos hc, List.map_cons,
          headers_back hp' (seen' := k :: seen') (by intro x hx; simp [he x hx])]
        rfl
    · rw [if_neg (show ¬ (k ∈ contextWords ∧ k ∉ seen') from fun h => hc h.1)]
      split
      · exact headers_back hp' he
      · rw [List.flatMap_append, header_back (hp (k, v) (by simp)), if_neg hc, List.nil_append]
        exact headers_back hp' (by
          intro x hx
          rw [List.mem_cons, he x hx]
          constructor
          · rintro (rfl | h)
            · exact absurd hx hc
            · exact h
          · exact Or.inr)

theorem context_back {hs : List (Str × Str)} (hp : ∀ h ∈ hs, Plain h.2) : (contextElem hs).kids.flatMap contextItem = (normalHeaders hs).map headLine := by
  unfold contextElem normalHeaders
  rw [kids_node, List.flatMap_append, headers_back hp (fun _ _ => Iff.rfl), List.map_append]
  congr 1
  have hq : ∀ w ∈ commentLines hs, Plain w := by
    intro w hw
    obtain ⟨h, hh, rfl⟩ := List.mem_map.1 hw
    exact hp h (List.mem_of_mem_filter hh)
  split
  · rename_i e; rw [e]; rfl
  · have e := texts_leaf (n := c! "line") hq
    simp only [List.flatMap_cons, List.flatMap_nil, List.append_nil, contextItem, tag_node, kids_node, if_true]
    rw [e, List.map_map, List.map_map]
    rfl

/-! ### documents -/

theorem obsData_back {tabs : Master.Tables} {tag : Str} (ha : ∃ l, dictGet tabs.allowed (c! "obsData") = some l ∧ tag ∈ l) : ∀ {es : List Elem} {t : Option Str} (s : Out), (∀ e ∈ es, e.tag = tag) →
    (t = none ∨ t = some tag) → es ≠ [] ∨ t ≠ none →
    processObsData tabs t es s = .ok (some tag) { s with dataDicts := (if t = none then [] else s.dataDicts) ++ es.map fun e => (e.tag, subDict e) }
  | [], t, s, _, ht, hn => by
    have : t = some tag := by
      rcases ht with h | h
      · simp [h] at hn
      · exact h
    subst this
    simp [processObsData, pure, EStateM.pure]
  | e :: es, t, s, h, ht, _ => by
    obtain ⟨l, a1, a2⟩ := ha
    have he := h e (by simp)
    have ih := fun s => obsData_back ⟨l, a1, a2⟩ (es := es) (t := some tag) s (fun x hx => h x (by simp [hx])) (Or.inr rfl) (Or.inr (by simp))
    rcases ht with rfl | rfl
    · unfold processObsData
      simp only [bind, EStateM.bind, lift, item_of a1, he, a2, not_true, if_false]
      simp only [processDataElement, modify, modifyGet, MonadStateOf.modifyGet, EStateM.modifyGet]
      rw [ih]
      simp [he]
    · unfold processObsData
      simp only [he, ne_eq, not_true, if_false, bind, EStateM.bind]
      simp only [processDataElement, modify, modifyGet, MonadStateOf.modifyGet, EStateM.modifyGet]
      rw [ih]
      simp [he]

/-- the elements for observations that are written back -/
def dataTags : List Str := [c! "optical", c! "radar"]

/-- the tables name what they must -/
structure TabsOk (tabs : Master.Tables) : Prop where
  ades : ∃ l, dictGet tabs.allowed (c! "ades") = some l ∧ c! "obsBlock" ∈ l
  block : ∃ l, dictGet tabs.allowed (c! "obsBlock") = some l ∧ c! "obsContext" ∈ l ∧ c! "obsData" ∈ l
  data : ∀ tag ∈ dataTags, ∃ l, dictGet tabs.allowed (c! "obsData") = some l ∧ tag ∈ l

theorem ades_ok : TabsOk Master.adesTables := by
  constructor
  · exact ⟨_, rfl, by decide +kernel⟩
  · exact ⟨_, rfl, by decide +kernel, by decide +kernel⟩
  · intro tag h
    refine ⟨_, rfl, ?_⟩
    revert tag
    decide +kernel

theorem bindW {α β : Type} {m : W α} {f : α → W β} {s s' : Out} {a : α} (h : m s = .ok a s') : (m >>= f) s = f a s' := by
  simp [bind, EStateM.bind, h]

theorem liftW {α : Type} {x : Py α} {a : α} {s : Out} (h : x = .ok a) : lift x s = .ok a s := by rw [h]; rfl

theorem block_back {tabs : Master.Tables} (ht : TabsOk tabs) {op : Opts} {hs : List (Str × Str)} {es : List Elem} (hp : ∀ h ∈ hs, Plain h.2) (he : ∃ tag ∈ dataTags, ∀ e ∈ es, e.tag = tag) (hn : es ≠ []) (s : Out) :
    processObsBlock op tabs none (Block.mk hs es).elem.kids s =
      .ok () ⟨es.map fun e => (e.tag, subDict e), s.out ++ (if op.noHeader then [] else (normalHeaders hs).map headLine), s.msgs⟩ := by
  obtain ⟨l, b1, b2, b3⟩ := ht.block
  obtain ⟨tag, hg, he⟩ := he
  have hk : (Block.mk hs es).elem.kids = [contextElem hs, nodeOf (c! "obsData") es] := rfl
  have t1 : (contextElem hs).tag = c! "obsContext" := rfl
  have t2 : (nodeOf (c! "obsData") es).tag = c! "obsData" := rfl
  have hd : ∀ s : Out, processObsBlock op tabs none [nodeOf (c! "obsData") es] s = .ok () { s with dataDicts := es.map fun e => (e.tag, subDict e) } := by
    intro s
    unfold processObsBlock
    rw [bindW (liftW (item_of b1)), if_neg (by rw [t2]; exact fun h => h b3), if_neg (by rw [t2]; simp), if_pos t2, kids_node, bindW (obsData_back (ht.data tag hg) s he (Or.inl rfl) (Or.inl hn))]
    simp [processObsBlock, pure, EStateM.pure]
  rw [hk]
  unfold processObsBlock
  rw [bindW (liftW (item_of b1)), if_neg (by rw [t1]; exact fun h => h b2)]
  by_cases hh : op.noHeader = true
  · rw [if_neg (by simp [hh]), if_neg (by rw [t1]; decide), hd]
    simp [hh]
  · have hw : Writes (processObsContext (contextElem hs)) ((normalHeaders hs).map headLine) := by
      unfold processObsContext
      rw [context_back hp]
      have := writes_each (f := print) (l := (normalHeaders hs).map headLine) (g := fun x => [x]) fun x _ => writes_print x
      simpa using this
    rw [if_pos ⟨t1, by simpa using hh⟩, bindW (hw s), hd]
    simp [hh]

theorem printDicts_back {op : Opts} {s : Out} {L : List Str} (h : Writes (each (printData op) s.dataDicts) L) : printDataDicts op s = .ok () { s with out := s.out ++ L } := by
  simp only [printDataDicts, bind, EStateM.bind, get, getThe, MonadStateOf.get, EStateM.get]
  exact h s

/-- the lines of a block -/
def blockLines (op : Opts) (b : List (Str × Str) × List Elem × List Str) : List Str :=
  (if op.noHeader then [] else (normalHeaders b.1).map headLine) ++ b.2.2

theorem children_back {tabs : Master.Tables} (ht : TabsOk tabs) {op : Opts} : ∀ {bs : List (List (Str × Str) × List Elem × List Str)} {last : Option Str} {s : Out} {L0 : List Str},
    (∀ b ∈ bs, (∀ h ∈ b.1, Plain h.2) ∧ (∃ tag ∈ dataTags, ∀ e ∈ b.2.1, e.tag = tag) ∧ b.2.1 ≠ [] ∧ Writes (each (printData op) (b.2.1.map fun e => (e.tag, subDict e))) b.2.2) →
    Writes (each (printData op) s.dataDicts) L0 →
    ∃ s', (processChildren op tabs last (bs.map fun b => (Block.mk b.1 b.2.1).elem) >>= fun _ => printDataDicts op) s = .ok () s' ∧
      s'.out = s.out ++ L0 ++ bs.flatMap (blockLines op) ∧ s'.msgs = s.msgs
  | [], _, s, L0, _, h0 => by
    refine ⟨{ s with out := s.out ++ L0 }, ?_, by simp, rfl⟩
    simp only [List.map_nil, processChildren, pure_bind]
    exact printDicts_back h0
  | b :: bs, last, s, L0, h, h0 => by
    obtain ⟨l, a1, a2⟩ := ht.ades
    obtain ⟨b1, b2, b3, b4⟩ := h b (by simp)
    have t1 : (Block.mk b.1 b.2.1).elem.tag = c! "obsBlock" := rfl
    obtain ⟨s', k1, k2, k3⟩ := children_back ht (bs := bs) (last := some (c! "obsBlock"))
      (s := ⟨b.2.1.map fun e => (e.tag, subDict e), s.out ++ L0 ++ (if op.noHeader then [] else (normalHeaders b.1).map headLine), s.msgs⟩) (fun x hx => h x (by simp [hx])) b4
    refine ⟨s', ?_, ?_, k3⟩
    · rw [← k1]
      simp only [List.map_cons]
      rw [processChildren, bind_assoc, bindW (liftW (item_of a1)), if_neg (by rw [t1]; exact fun h => h a2), if_pos t1, bind_assoc, bindW (printDicts_back h0), bind_assoc, bindW (block_back ht b1 b2 b3 _)]
    · rw [k2]
      simp [blockLines, List.append_assoc]

theorem document_back {tabs : Master.Tables} (ht : TabsOk tabs) {op : Opts} {bs : List (List (Str × Str) × List Elem × List Str)}
    (h : ∀ b ∈ bs, (∀ h ∈ b.1, Plain h.2) ∧ (∃ tag ∈ dataTags, ∀ e ∈ b.2.1, e.tag = tag) ∧ b.2.1 ≠ [] ∧ Writes (each (printData op) (b.2.1.map fun e => (e.tag, subDict e))) b.2.2) :
    xmltompc80col op tabs (adesDoc (bs.map fun b => (Block.mk b.1 b.2.1).elem)) = ⟨bs.flatMap (blockLines op), [], none⟩ := by
  obtain ⟨s', h1, h2, h3⟩ := children_back ht (last := none) (s := ⟨[], [], []⟩) (L0 := []) h (writes_nil)
  have e : processAdesElement op tabs (adesDoc (bs.map fun b => (Block.mk b.1 b.2.1).elem)) ⟨[], [], []⟩ = .ok () s' := by
    unfold processAdesElement
    rw [if_neg (by simp [adesDoc, Elem.tag])]
    exact h1
  unfold xmltompc80col
  rw [e]
  simp only [h2, h3, List.nil_append]

end Verif.ToMpc80
