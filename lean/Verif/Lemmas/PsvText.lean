import Verif.Lemmas.Psv
import Verif.Lemmas.Split
/-!
  PSV lines as text: the classification of lines against its specification.
-/
namespace Verif.Psv
open Verif Verif.Xml Verif.Spec

theorem intercalate_splitChar (c : Char) : ∀ s : Str, List.intercalate [c] (splitChar c s) = s
  | [] => rfl
  | d :: s => by
    have ih := intercalate_splitChar c s
    rw [splitChar]
    split
    · rename_i h; subst h
      cases hs : splitChar d s with
      | nil => exact absurd hs (splitChar_ne_nil d s)
      | cons p ps => rw [hs] at ih; simp [List.intercalate, List.intersperse] at ih ⊢; simpa using ih
    · cases hs : splitChar c s with
      | nil => exact absurd hs (splitChar_ne_nil c s)
      | cons p ps =>
        rw [hs] at ih
        cases ps with
        | nil => simp [List.intercalate, List.intersperse] at ih ⊢; exact ih
        | cons q qs => simp [List.intercalate, List.intersperse] at ih ⊢; exact ih

theorem splitChar_intercalate (c : Char) : ∀ ps : List Str, ps ≠ [] → (∀ p ∈ ps, c ∉ p) → splitChar c (List.intercalate [c] ps) = ps
  | [], h, _ => absurd rfl h
  | [p], _, h => by simp [List.intercalate, List.intersperse]; exact splitChar_none (h p (by simp))
  | p :: q :: ps, _, h => by
    have ih := splitChar_intercalate c (q :: ps) (by simp) fun x hx => h x (by simp at hx ⊢; simp [hx])
    have e : List.intercalate [c] (p :: q :: ps) = p ++ c :: List.intercalate [c] (q :: ps) := by simp [List.intercalate, List.intersperse]
    rw [e, splitChar_append _ (h p (by simp)), ih]

theorem isCells_iff (text : Str) (cells : List Str) : IsCells text cells ↔ cells = (splitChar '|' text).map strip := by
  constructor
  · rintro ⟨ps, rfl, h1, h2, rfl⟩
    rw [splitChar_intercalate _ _ h1 h2]
  · rintro rfl
    exact ⟨_, intercalate_splitChar _ _, splitChar_ne_nil _ _, splitChar_pieces _ _, rfl⟩

theorem letter_iff (c : Char) : Letter c ↔ alpha_ c = true := by
  simp [Letter, alpha_, or_assoc]

theorem splitWs_flatten (s : Str) : (splitWs s).flatten = s.filter fun c => !isSpace c := by
  have : ∀ (s cur : Str), (splitWsAux cur s).flatten = cur ++ s.filter fun c => !isSpace c := by
    intro s
    induction s with
    | nil => intro cur; rw [splitWsAux]; cases cur <;> simp
    | cons c s ih =>
      intro cur
      rw [splitWsAux]
      by_cases h : isSpace c = true
      · simp only [h, if_true, List.filter_cons, Bool.not_true, Bool.false_eq_true, if_false]
        cases cur with
        | nil => simp [ih]
        | cons d cur => simp [ih]
      · simp only [h, Bool.false_eq_true, if_false, List.filter_cons, Bool.not_false, if_true]
        rw [ih]; simp
  simpa [splitWs] using this s []

theorem splitChar_two {c : Char} {s a b : Str} : splitChar c s = [a, b] ↔ s = a ++ c :: b ∧ c ∉ a ∧ c ∉ b := by
  constructor
  · intro h
    have e := intercalate_splitChar c s
    rw [h] at e
    have h1 := splitChar_pieces c s a (by simp [h])
    have h2 := splitChar_pieces c s b (by simp [h])
    exact ⟨by rw [← e]; simp [List.intercalate, List.intersperse], h1, h2⟩
  · rintro ⟨rfl, h1, h2⟩
    rw [splitChar_append _ h1, splitChar_none h2]

theorem lstrip_spaces {sp s : Str} (h : ∀ c ∈ sp, isSpace c = true) : lstrip (sp ++ s) = lstrip s := by
  induction sp with
  | nil => rfl
  | cons c sp ih =>
    rw [lstrip, List.cons_append, List.dropWhile_cons, if_pos (h c (by simp))]
    exact ih fun c hc => h c (by simp [hc])

theorem lstrip_of_head {s : Str} (h : ∀ c ∈ s.head?, isSpace c = false) : lstrip s = s := by
  cases s with
  | nil => rfl
  | cons c s => rw [lstrip, List.dropWhile_cons, if_neg (by simp [h c (by simp)])]

theorem lstrip_split (s : Str) : ∃ sp, (∀ c ∈ sp, isSpace c = true) ∧ s = sp ++ lstrip s ∧ ∀ c ∈ (lstrip s).head?, isSpace c = false := by
  refine ⟨s.takeWhile isSpace, ?_, (List.takeWhile_append_dropWhile).symm, ?_⟩
  · intro c hc
    exact List.all_eq_true.1 (List.all_takeWhile) c hc
  · intro c hc
    have := List.head?_dropWhile_not isSpace s
    rw [lstrip] at hc
    simp at hc
    rw [hc] at this
    simpa using this

theorem splitWs1_iff {s : Str} (hlast : ∀ c ∈ s.getLast?, isSpace c = false) (i : Item) : splitWs1 s = i.tag :: i.more.toList ↔ FirstWord s i := by
  obtain ⟨tag, more⟩ := i
  constructor
  · intro h
    obtain ⟨sp, hsp, e, hh⟩ := lstrip_split s
    unfold splitWs1 at h
    simp only at h
    split at h
    · simp at h
    rename_i hne
    have hne' : lstrip s ≠ [] := by simpa using hne
    obtain ⟨c, t, ht⟩ : ∃ c t, lstrip s = c :: t := by
      cases hl : lstrip s with
      | nil => exact absurd hl hne'
      | cons c t => exact ⟨c, t, rfl⟩
    have hc : isSpace c = false := hh c (by simp [ht])
    have htag : (lstrip s).takeWhile (fun c => !isSpace c) ≠ [] := by rw [ht, List.takeWhile_cons]; simp [hc]
    have hns : ∀ c ∈ (lstrip s).takeWhile (fun c => !isSpace c), isSpace c = false := by
      intro c hc
      have := List.all_eq_true.1 (List.all_takeWhile (p := fun c => !isSpace c) (l := lstrip s)) c hc
      simpa using this
    have hsplit := List.takeWhile_append_dropWhile (p := fun c => !isSpace c) (l := lstrip s)
    obtain ⟨sp', hsp', e', hh'⟩ := lstrip_split ((lstrip s).dropWhile (fun c => !isSpace c))
    split at h
    · rename_i hr
      have hr' : lstrip ((lstrip s).dropWhile fun c => !isSpace c) = [] := by simpa using hr
      simp only [List.cons.injEq] at h
      obtain ⟨h1, h2⟩ := h
      have hm : more = none := by
        cases more with
        | none => rfl
        | some r => simp at h2
      subst hm
      have hdrop : (lstrip s).dropWhile (fun c => !isSpace c) = [] := by
        rw [hr', List.append_nil] at e'
        have e2 : s = sp ++ (((lstrip s).takeWhile fun c => !isSpace c) ++ (lstrip s).dropWhile fun c => !isSpace c) := by rw [hsplit]; exact e
        generalize (lstrip s).dropWhile (fun c => !isSpace c) = dw at e' e2
        generalize (lstrip s).takeWhile (fun c => !isSpace c) = tw at e2
        subst e'
        apply Classical.byContradiction
        intro hn
        have hl : dw.getLast hn ∈ s.getLast? := by
          rw [e2, List.getLast?_append, List.getLast?_append, List.getLast?_eq_some_getLast hn]; rfl
        have h3 := hlast _ hl
        have h4 := hsp' _ (List.getLast_mem hn)
        rw [h3] at h4; simp at h4
      refine ⟨by simp only; rw [← h1]; exact htag, by simp only; rw [← h1]; exact hns, sp, hsp, ?_⟩
      simp only
      rw [← h1]
      rw [hdrop, List.append_nil] at hsplit
      rw [hsplit]; exact e
    · rename_i hr
      simp only [List.cons.injEq] at h
      obtain ⟨h1, h2⟩ := h
      obtain ⟨r, rfl⟩ : ∃ r, more = some r := by cases more with | none => simp at h2 | some r => exact ⟨r, rfl⟩
      simp at h2
      refine ⟨by simp only; rw [← h1]; exact htag, by simp only; rw [← h1]; exact hns, sp, hsp, ?_, ?_, sp', ?_, hsp', ?_⟩
      · rw [← h2]; simpa using hr
      · rw [← h2]; exact hh'
      · intro hn
        rw [hn, List.nil_append] at e'
        have h3 := hh'
        rw [← e'] at h3
        have h4 := List.head?_dropWhile_not (fun c => !isSpace c) (lstrip s)
        cases hd : (lstrip s).dropWhile (fun c => !isSpace c) with
        | nil => rw [hd] at hr; simp [lstrip] at hr
        | cons x y =>
          rw [hd] at h3 h4
          simp at h3 h4
          rw [h3] at h4; simp at h4
      · rw [← h1, ← h2, List.append_assoc, List.append_assoc, ← e', hsplit]; exact e
  · rintro ⟨h1, h2, sp, hsp, h3⟩
    simp only at h1 h2 h3 ⊢
    have hd : ∀ (r : Str), (∀ c ∈ r.head?, isSpace c = true) → (tag ++ r).takeWhile (fun c => !isSpace c) = tag ∧ (tag ++ r).dropWhile (fun c => !isSpace c) = r := by
      intro r hr
      have e1 : r.takeWhile (fun c => !isSpace c) = [] := by
        cases r with
        | nil => rfl
        | cons x r => rw [List.takeWhile_cons, if_neg (by simp [hr x (by simp)])]
      have e2 : r.dropWhile (fun c => !isSpace c) = r := by
        cases r with
        | nil => rfl
        | cons x r => rw [List.dropWhile_cons, if_neg (by simp [hr x (by simp)])]
      constructor
      · rw [List.takeWhile_append_of_pos (by intro c hc; simp [h2 c hc]), e1, List.append_nil]
      · rw [List.dropWhile_append_of_pos (by intro c hc; simp [h2 c hc]), e2]
    have hth : ∀ r : Str, ∀ c ∈ (tag ++ r).head?, isSpace c = false := by
      intro r c hc
      cases tag with
      | nil => exact absurd rfl h1
      | cons x t => simp at hc; subst hc; exact h2 _ (by simp)
    unfold splitWs1
    cases more with
    | none =>
      simp only at h3
      subst h3
      have e1 := hth []
      rw [List.append_nil] at e1
      obtain ⟨d1, d2⟩ := hd [] (by simp)
      rw [List.append_nil] at d1 d2
      simp only [lstrip_spaces hsp, lstrip_of_head e1, d1, d2]
      rw [if_neg (by simpa using h1)]
      simp [lstrip]
    | some r =>
      obtain ⟨h4, h5, sp', h6, h7, rfl⟩ := h3
      have e1 := hth (sp' ++ r)
      obtain ⟨d1, d2⟩ := hd (sp' ++ r) (by
        intro c hc
        cases sp' with
        | nil => exact absurd rfl h6
        | cons x sp' => simp at hc; subst hc; exact h7 _ (by simp))
      simp only [List.append_assoc, lstrip_spaces hsp, lstrip_of_head e1, d1, d2, lstrip_spaces h7, lstrip_of_head h5]
      rw [if_neg (by simp [h1]), if_neg (by simpa using h4)]
      rfl

/-! ### tables -/

/-- the tables are complete: every observation type of `ades` has its lists -/
structure Tab.WF (tab : Tab) : Prop where
  kinds : ∃ ks, PackUtil.dictGet tab.allowed (c! "ades") = some ks
  lists : ∀ k ∈ order tab (c! "ades"), (∃ a, PackUtil.dictGet tab.allowed k = some a) ∧ (∃ r, PackUtil.dictGet tab.required k = some r) ∧ k ≠ []

/-- the observation types of the tables -/
def typesOf (tab : Tab) : Types := ⟨order tab (c! "ades"), order tab, fun t => (PackUtil.dictGet tab.required t).getD []⟩

theorem headerTag_spec {tab : Tab} {h : List Str} : ∀ (l : List Str) (t0 : Option Str),
    (∀ k ∈ l, (∃ a, PackUtil.dictGet tab.allowed k = some a) ∧ (∃ r, PackUtil.dictGet tab.required k = some r) ∧ k ≠ []) →
    ∃ r, headerTag tab h l t0 = .ok r ∧
      ((∃ a t b, l = a ++ t :: b ∧ (typesOf tab).Suits h t ∧ (∀ t' ∈ b, ¬ (typesOf tab).Suits h t') ∧ r = some t) ∨
       ((∀ t ∈ l, ¬ (typesOf tab).Suits h t) ∧ r = t0))
  | [], t0, _ => ⟨t0, rfl, .inr ⟨by simp, rfl⟩⟩
  | k :: l, t0, hw => by
    obtain ⟨⟨a, ha⟩, ⟨rq, hr⟩, -⟩ := hw k (by simp)
    have hsuit : (typesOf tab).Suits h k ↔ (h.all (fun f => a.contains f) = true ∧ rq.all (fun f => h.contains f) = true) := by
      simp [Types.Suits, typesOf, order, ha, hr]
    have next : ∀ t1, headerTag tab h (k :: l) t0 = headerTag tab h l t1 → ((typesOf tab).Suits h k ∧ t1 = some k ∨ ¬ (typesOf tab).Suits h k ∧ t1 = t0) →
        ∃ r, headerTag tab h (k :: l) t0 = .ok r ∧
      ((∃ a t b, k :: l = a ++ t :: b ∧ (typesOf tab).Suits h t ∧ (∀ t' ∈ b, ¬ (typesOf tab).Suits h t') ∧ r = some t) ∨
       ((∀ t ∈ k :: l, ¬ (typesOf tab).Suits h t) ∧ r = t0)) := by
      intro t1 e hs
      obtain ⟨r, h1, h2⟩ := headerTag_spec l t1 fun x hx => hw x (by simp [hx])
      refine ⟨r, by rw [e]; exact h1, ?_⟩
      rcases h2 with ⟨a, t, b, rfl, h3, h4, h5⟩ | ⟨h3, h4⟩
      · exact .inl ⟨k :: a, t, b, rfl, h3, h4, h5⟩
      · rcases hs with ⟨hs, rfl⟩ | ⟨hs, rfl⟩
        · exact .inl ⟨[], k, l, rfl, hs, h3, h4⟩
        · refine .inr ⟨?_, h4⟩
          intro t ht
          simp at ht
          rcases ht with rfl | ht
          · exact hs
          · exact h3 t ht
    by_cases c1 : h.all (fun f => a.contains f) = true
    · by_cases c2 : rq.all (fun f => h.contains f) = true
      · exact next (some k) (by simp only [headerTag, getItem, ha, hr, bind, Except.bind, c1, c2, if_true]) (.inl ⟨hsuit.2 ⟨c1, c2⟩, rfl⟩)
      · exact next t0 (by simp only [headerTag, getItem, ha, hr, bind, Except.bind, c1, c2, if_true, Bool.false_eq_true, if_false]) (.inr ⟨fun hs => c2 (hsuit.1 hs).2, rfl⟩)
    · exact next t0 (by simp only [headerTag, getItem, ha, bind, Except.bind, c1, Bool.false_eq_true, if_false]) (.inr ⟨fun hs => c1 (hsuit.1 hs).1, rfl⟩)

theorem mem_head?_of {p : Char → Bool} {s : Str} (c : Char) (h : c ∈ (s.dropWhile p).head?) : p c = false := by
  have := List.head?_dropWhile_not p s
  simp at h
  rw [h] at this
  simpa using this

theorem strip_ends (s : Str) : (∀ c ∈ (strip s).head?, isSpace c = false) ∧ (∀ c ∈ (strip s).getLast?, isSpace c = false) := by
  constructor
  · intro c hc; exact mem_head?_of c hc
  · intro c hc
    have hc' : (strip s).getLast? = some c := hc
    have : (rstrip s).getLast? = some c := by
      obtain ⟨sp, -, e, -⟩ := lstrip_split (rstrip s)
      rw [e, List.getLast?_append]
      show (strip s).getLast?.or _ = _
      rw [hc']; rfl
    rw [rstrip, List.getLast?_reverse] at this
    exact mem_head?_of (s := s.reverse) c this

theorem firstChars_all (fields : List Str) : ((fields.flatMap fun x => x.take 1).all alpha_ = true) ↔ ∀ n ∈ fields, ∀ c ∈ n.head?, Letter c := by
  rw [List.all_eq_true]
  constructor
  · intro h n hn c hc
    rw [letter_iff]
    refine h c (List.mem_flatMap.2 ⟨n, hn, ?_⟩)
    cases n with
    | nil => simp at hc
    | cons d n => simpa using hc.symm
  · intro h c hc
    obtain ⟨n, hn, hc⟩ := List.mem_flatMap.1 hc
    rw [← letter_iff]
    refine h n hn c ?_
    cases n with
    | nil => simp at hc
    | cons d n => simp at hc; simp [hc]

theorem parse_blank {tab : Tab} {text : Str} (h : strip text = []) : parsePSVLine tab text = .ok none := by
  simp [parsePSVLine, h]

/-- a lone `#` or `!` -/
def Lone (p : LineType × List Str) : Prop := p.2 = [] ∧ (p.1 = .top ∨ p.1 = .second)

theorem splitWs1_cases (s : Str) : splitWs1 s = [] ∨ ∃ i : Item, splitWs1 s = i.tag :: i.more.toList := by
  unfold splitWs1
  simp only
  split
  · exact .inl rfl
  · split
    · exact .inr ⟨⟨_, none⟩, rfl⟩
    · exact .inr ⟨⟨_, some _⟩, rfl⟩

theorem typesOf_is {tab : Tab} (hw : Tab.WF tab) {h : List Str} : ∃ r, headerTag tab h (order tab (c! "ades")) none = .ok r ∧
    ((∃ t, (typesOf tab).Is h t ∧ r = some t ∧ t ≠ []) ∨ ((∀ t, ¬ (typesOf tab).Is h t) ∧ r = none)) := by
  obtain ⟨r, h1, h2⟩ := headerTag_spec (h := h) (order tab (c! "ades")) none hw.lists
  refine ⟨r, h1, ?_⟩
  rcases h2 with ⟨a, t, b, e, h3, h4, h5⟩ | ⟨h3, h4⟩
  · exact .inl ⟨t, ⟨a, b, e, h3, h4⟩, h5, (hw.lists t (by rw [e]; simp)).2.2⟩
  · exact .inr ⟨fun t ⟨a, b, e, h5, _⟩ => h3 t (by have : order tab (c! "ades") = a ++ t :: b := e; rw [this]; simp) h5, h4⟩

theorem Types.is_unique {ty : Types} {h : List Str} {t t' : Str} (h1 : ty.Is h t) (h2 : ty.Is h t') : t = t' := by
  obtain ⟨a, b, e, h3, h4⟩ := h1
  obtain ⟨a', b', e', h5, h6⟩ := h2
  rw [e] at e'
  rw [List.append_eq_append_iff] at e'
  rcases e' with ⟨c, rfl, h7⟩ | ⟨c, rfl, h7⟩
  · cases c with
    | nil => simp at h7; exact h7.1
    | cons x c => simp at h7; exact absurd h5 (h4 t' (by rw [h7.2]; simp))
  · cases c with
    | nil => simp at h7; exact h7.1.symm
    | cons x c => simp at h7; exact absurd h3 (h6 t (by rw [h7.2]; simp))

theorem getItem_ades {tab : Tab} (hw : Tab.WF tab) : getItem tab.allowed (c! "ades") = .ok (order tab (c! "ades")) := by
  obtain ⟨ks, hk⟩ := hw.kinds
  simp [getItem, order, hk]

theorem parse_sound {tab : Tab} (hw : Tab.WF tab) {text : Str} {p : LineType × List Str} (h : parsePSVLine tab text = .ok (some p)) :
    strip text ≠ [] ∧ (Lone p ∨ ∃ l, p = raw l ∧ LineIs (typesOf tab) text l) := by
  unfold parsePSVLine at h
  simp only at h
  split at h
  · simp at h
  rename_i c rest e
  have hends := strip_ends text
  have hlast : ∀ x ∈ rest.getLast?, isSpace x = false := by
    intro x hx
    refine hends.2 x ?_
    rw [e, List.getLast?_cons]
    cases hr : rest.getLast? with
    | none => rw [hr] at hx; simp at hx
    | some y => rw [hr] at hx; simpa using hx
  refine ⟨by rw [e]; simp, ?_⟩
  split at h
  · rename_i hc; subst hc
    simp at h; subst h
    rcases splitWs1_cases rest with h1 | ⟨i, h1⟩
    · exact .inl ⟨h1, .inl rfl⟩
    · exact .inr ⟨.top i, by rw [h1]; rfl, rest, e, (splitWs1_iff hlast i).1 h1⟩
  split at h
  · rename_i hc; subst hc
    simp at h; subst h
    rcases splitWs1_cases rest with h1 | ⟨i, h1⟩
    · exact .inl ⟨h1, .inr rfl⟩
    · exact .inr ⟨.second i, by rw [h1]; rfl, rest, e, (splitWs1_iff hlast i).1 h1⟩
  rename_i hc1 hc2
  have hd : strip text ≠ [] ∧ (strip text).head? ≠ some '#' ∧ (strip text).head? ≠ some '!' := by
    rw [e]; simp [hc1, hc2]
  right
  split at h
  · rename_i hall
    rw [getItem_ades hw] at h
    obtain ⟨r, h1, h2⟩ := typesOf_is hw (h := (splitChar '|' (strip text)).map strip)
    simp only [bind, Except.bind, h1] at h
    rcases h2 with ⟨t, h3, rfl, h4⟩ | ⟨_, rfl⟩
    · have : t.isEmpty = false := by cases t <;> simp_all
      simp [this, pure, Except.pure] at h
      exact ⟨.keyword _ t, h.symm, hd.1, hd.2.1, hd.2.2, (isCells_iff _ _).2 rfl, (firstChars_all _).1 hall, h3⟩
    · simp [raiseRT] at h
  · rename_i hall
    simp at h; subst h
    refine ⟨.data _, rfl, hd.1, hd.2.1, hd.2.2, (isCells_iff _ _).2 rfl, ?_⟩
    rw [firstChars_all] at hall
    apply Classical.byContradiction
    intro hn
    refine hall fun n hm c hc => ?_
    apply Classical.byContradiction
    exact fun hl => hn ⟨n, hm, c, hc, hl⟩

theorem parse_complete {tab : Tab} (hw : Tab.WF tab) {text : Str} {l : PLine} (h : LineIs (typesOf tab) text l) : parsePSVLine tab text = .ok (some (raw l)) := by
  have hends := strip_ends text
  have hlast : ∀ c rest, strip text = c :: rest → ∀ x ∈ rest.getLast?, isSpace x = false := by
    intro c rest e x hx
    refine hends.2 x ?_
    rw [e, List.getLast?_cons]
    cases hr : rest.getLast? with
    | none => rw [hr] at hx; simp at hx
    | some y => rw [hr] at hx; simpa using hx
  unfold parsePSVLine
  cases l with
  | top i =>
    obtain ⟨r, e, hf⟩ := h
    have := (splitWs1_iff (hlast _ _ e) i).2 hf
    simp [e, this, raw]
  | second i =>
    obtain ⟨r, e, hf⟩ := h
    have := (splitWs1_iff (hlast _ _ e) i).2 hf
    simp [e, this, raw]
  | keyword hd t =>
    obtain ⟨h1, h2, h3, h4, h5, h6⟩ := h
    rw [isCells_iff] at h4
    cases e : strip text with
    | nil => exact absurd e h1
    | cons c rest =>
      rw [e] at h2 h3
      simp at h2 h3
      simp only
      rw [if_neg h2, if_neg h3, ← e, ← h4, if_pos ((firstChars_all _).2 h5), getItem_ades hw]
      obtain ⟨r, h7, h8⟩ := typesOf_is hw (h := hd)
      rcases h8 with ⟨t', h9, rfl, h10⟩ | ⟨h9, _⟩
      · have := Types.is_unique h6 h9
        subst this
        have : t.isEmpty = false := by cases t <;> simp_all
        simp [h7, bind, Except.bind, this, pure, Except.pure, raw]
      · exact absurd h6 (h9 t)
  | data cells =>
    obtain ⟨h1, h2, h3, h4, h5⟩ := h
    rw [isCells_iff] at h4
    cases e : strip text with
    | nil => exact absurd e h1
    | cons c rest =>
      rw [e] at h2 h3
      simp at h2 h3
      simp only
      rw [if_neg h2, if_neg h3, ← e, ← h4, if_neg]
      · rfl
      · rw [firstChars_all]
        obtain ⟨n, hn, c, hc, hl⟩ := h5
        exact fun h => hl (h n hn c hc)

theorem lineIs_known {tab : Tab} (hw : Tab.WF tab) {text : Str} {l : PLine} (h : LineIs (typesOf tab) text l) : LineKnown tab l := by
  cases l with
  | keyword hd t =>
    obtain ⟨-, -, -, -, -, a, b, e, -⟩ := h
    have := hw.lists t (by have : order tab (c! "ades") = a ++ t :: b := e; rw [this]; simp)
    exact ⟨this.1, this.2.2⟩
  | _ => trivial

theorem lineIs_strip {ty : Types} {text : Str} {l : PLine} (h : LineIs ty text l) : strip text ≠ [] := by
  cases l with
  | top i => obtain ⟨r, e, -⟩ := h; rw [e]; simp
  | second i => obtain ⟨r, e, -⟩ := h; rw [e]; simp
  | keyword _ _ => exact h.1
  | data _ => exact h.1

/-! ### the version line -/

theorem version_strip {text v : Str} (h : VersionIs text v) : ∃ r, strip text = '#' :: r := by
  obtain ⟨a, b, rfl, -, -, h3, -⟩ := h
  obtain ⟨sp, hsp, e, hh⟩ := lstrip_split a
  have hf : (lstrip a).filter (fun c => !isSpace c) = c! "#version" := by
    rw [← h3, e, List.filter_append, lstrip_spaces hsp]
    have : sp.filter (fun c => !isSpace c) = [] := by rw [List.filter_eq_nil_iff]; intro c hc; simp [hsp c hc]
    rw [this, List.nil_append, lstrip_of_head hh]
  obtain ⟨x, rfl⟩ : ∃ x, a = sp ++ '#' :: x := by
    cases hl : lstrip a with
    | nil => rw [hl] at hf; simp at hf
    | cons y t =>
      rw [hl] at hf hh e
      have := hh y (by simp)
      simp [this] at hf
      exact ⟨t, by rw [← hf.1]; exact e⟩
  have hr : ∃ y, rstrip (sp ++ '#' :: x ++ '=' :: b) = sp ++ '#' :: y := by
    have : ∀ z : Str, ∃ y, rstrip (sp ++ '#' :: z) = sp ++ '#' :: y := by
      intro z
      unfold rstrip
      rw [List.reverse_append, List.reverse_cons, List.dropWhile_append, List.dropWhile_append]
      have e0 : List.dropWhile isSpace ['#'] = ['#'] := by decide
      cases hz : List.dropWhile isSpace z.reverse with
      | nil => simp [e0]
      | cons p q => simp
    rw [List.append_assoc, List.cons_append]
    exact this _
  obtain ⟨y, hy⟩ := hr
  refine ⟨y, ?_⟩
  rw [strip, hy, lstrip_spaces hsp, lstrip_of_head]
  intro c hc
  simp at hc; subst hc; rfl

theorem versionLine_iff {lx : Lxml} {g g' : Globals} {text : Str} :
    versionLine lx g text = .ok g' ↔ ∃ v s, VersionIs text v ∧ Stk.init lx (c! "ades") none [(c! "version", v)] = .ok s ∧ g' = { g with firstLine := false, stack := some s } := by
  constructor
  · intro h
    unfold versionLine at h
    split at h
    · rename_i a b e
      rw [splitChar_two] at e
      obtain ⟨e, h1, h2⟩ := e
      split at h
      · simp [raiseRT] at h
      · rename_i hv
        rw [bind_ok] at h
        obtain ⟨s, h3, h4⟩ := h
        simp [pure, Except.pure] at h4
        refine ⟨_, s, ⟨a, b, e, h1, h2, ?_, rfl⟩, ?_, h4.symm⟩
        · rw [← splitWs_flatten]; simpa using hv
        · rw [← splitWs_flatten]; exact h3
    · simp [raiseRT] at h
  · rintro ⟨v, s, ⟨a, b, e, h1, h2, h3, rfl⟩, h4, rfl⟩
    unfold versionLine
    rw [splitChar_two.2 ⟨e, h1, h2⟩]
    simp only
    rw [splitWs_flatten, splitWs_flatten, h4, if_neg (by simpa using h3)]
    rfl

end Verif.Psv
