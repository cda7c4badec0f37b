import Verif.Mpc80
/-
  Regular expressions in which every part has a fixed width: there is at most one match and its groups are column ranges.
-/
namespace Verif.Mpc80
open Verif

/-- `r` matches exactly the texts of `w` characters that satisfy `ok`, with the groups `caps` -/
def Det (r : Re) (w : Nat) (ok : Str → Prop) [DecidablePred ok] (caps : Str → Caps) : Prop :=
  ∀ s, run r s = if w ≤ s.length ∧ ok (s.take w) then [(s.take w, s.drop w, caps (s.take w))] else []

theorem Det.seq {a b : Re} {w1 w2 : Nat} {ok1 ok2 : Str → Prop} [DecidablePred ok1] [DecidablePred ok2] {c1 c2 : Str → Caps}
    (ha : Det a w1 ok1 c1) (hb : Det b w2 ok2 c2) :
    Det (.seq a b) (w1 + w2) (fun s => ok1 (s.take w1) ∧ ok2 (s.drop w1)) (fun s => c1 (s.take w1) ++ c2 (s.drop w1)) := by
  intro s
  simp only [run]
  rw [ha s]
  have e1 : (s.take (w1 + w2)).take w1 = s.take w1 := by rw [List.take_take]; congr 1; omega
  have e2 : (s.take (w1 + w2)).drop w1 = (s.drop w1).take w2 := by rw [List.drop_take]; congr 1; omega
  by_cases h1 : w1 ≤ s.length ∧ ok1 (s.take w1)
  · rw [if_pos h1]
    simp only [List.flatMap_cons, List.flatMap_nil, List.append_nil]
    rw [hb (s.drop w1), e1, e2]
    by_cases h2 : w2 ≤ (s.drop w1).length ∧ ok2 ((s.drop w1).take w2)
    · have h3 := h2.1; simp only [List.length_drop] at h3
      have h1' := h1.1
      rw [if_pos h2, if_pos ⟨by omega, h1.2, h2.2⟩]
      simp only [List.map_cons, List.map_nil, List.drop_drop]
      rw [← e1, ← e2, List.take_append_drop]
    · rw [if_neg h2, if_neg]
      · rfl
      · rintro ⟨h3, -, h4⟩
        exact h2 ⟨by simp only [List.length_drop]; omega, h4⟩
  · rw [if_neg h1, if_neg]
    · rfl
    · rintro ⟨h3, h4, -⟩
      rw [e1] at h4
      exact h1 ⟨by omega, h4⟩

theorem Det.congr {r : Re} {w w' : Nat} {ok ok' : Str → Prop} [DecidablePred ok] [DecidablePred ok'] {c c' : Str → Caps} (h : Det r w ok c)
    (hw : w = w') (ho : ∀ s : Str, s.length = w → (ok s ↔ ok' s)) (hc : ∀ s : Str, s.length = w → c s = c' s) : Det r w' ok' c' := by
  subst hw
  intro s
  rw [h s]
  by_cases hl : w ≤ s.length
  · have : (s.take w).length = w := by simp; omega
    simp only [ho _ this, hc _ this]
  · rw [if_neg (fun h => hl h.1), if_neg (fun h => hl h.1)]

theorem Det.grp {r : Re} {w : Nat} {ok : Str → Prop} [DecidablePred ok] {c : Str → Caps} (n : Nat) (h : Det r w ok c) :
    Det (.grp n r) w ok (fun s => (n, s) :: c s) := by
  intro s
  simp only [run, h s]
  split <;> simp

theorem det_cls (p : Char → Bool) : Det (.cls p) 1 (fun s => ∀ c ∈ s, p c) (fun _ => []) := by
  intro s
  cases s with
  | nil => simp [run]
  | cons c s => simp [run]

theorem spanLen_some (p : Char → Bool) : ∀ (w : Nat) (s : Str), w ≤ spanLen p (some w) s ↔ w ≤ s.length ∧ ∀ c ∈ s.take w, p c
  | 0, s => by simp
  | w + 1, [] => by simp [spanLen]
  | w + 1, c :: s => by
    simp only [spanLen]
    have := spanLen_some p w s
    by_cases h : p c
    · simp [h, this]
    · simp [h]

theorem spanLen_le (p : Char → Bool) : ∀ (w : Nat) (s : Str), spanLen p (some w) s ≤ w
  | 0, s => by simp [spanLen]
  | w + 1, [] => by simp [spanLen]
  | w + 1, c :: s => by
    simp only [spanLen]
    have := spanLen_le p w s
    split <;> omega

theorem downTo_gt {lo : Nat} : ∀ {n : Nat}, n < lo → downTo lo n = []
  | 0, h => by simp [downTo]; omega
  | n + 1, h => by simp [downTo]; omega

theorem downTo_self : ∀ {n : Nat}, downTo n n = [n]
  | 0 => by simp [downTo]
  | n + 1 => by simp [downTo, downTo_gt]

theorem det_times (w : Nat) (p : Char → Bool) : Det (times w p) w (fun s => ∀ c ∈ s, p c) (fun _ => []) := by
  intro s
  simp only [times, run]
  by_cases h : w ≤ s.length ∧ ∀ c ∈ s.take w, p c
  · have h1 := (spanLen_some p w s).2 h
    have h2 := spanLen_le p w s
    rw [if_pos h, show spanLen p (some w) s = w by omega, downTo_self]; rfl
  · have h1 : ¬ w ≤ spanLen p (some w) s := fun h1 => h ((spanLen_some p w s).1 h1)
    rw [if_neg h, downTo_gt (by omega)]; rfl

/-! ### layouts -/

/-- one character class, or a number of characters of a class -/
inductive Sub
  | one (p : Char → Bool)
  | many (w : Nat) (p : Char → Bool)

def Sub.re : Sub → Re
  | .one p => .cls p
  | .many w p => times w p
def Sub.width : Sub → Nat
  | .one _ => 1
  | .many w _ => w
def Sub.ok : Sub → Str → Prop
  | .one p, s => ∀ c ∈ s, p c
  | .many _ p, s => ∀ c ∈ s, p c
instance (x : Sub) : DecidablePred x.ok := by
  intro s; cases x <;> (simp only [Sub.ok]; infer_instance)

theorem Sub.det (x : Sub) : Det x.re x.width x.ok (fun _ => []) := by
  cases x with
  | one p => exact (det_cls p).congr rfl (fun _ _ => Iff.rfl) (fun _ _ => rfl)
  | many w p => exact (det_times w p).congr rfl (fun _ _ => Iff.rfl) (fun _ _ => rfl)

def subsWidth : List Sub → Nat
  | [] => 0
  | x :: l => x.width + subsWidth l
def subsOk : List Sub → Str → Prop
  | [], _ => True
  | x :: l, s => x.ok (s.take x.width) ∧ subsOk l (s.drop x.width)
def subsOk.dec : (l : List Sub) → (s : Str) → Decidable (subsOk l s)
  | [], _ => .isTrue trivial
  | x :: l, s => by
    have := subsOk.dec l (s.drop x.width)
    simp only [subsOk]; infer_instance
instance (l : List Sub) : DecidablePred (subsOk l) := subsOk.dec l

theorem subs_det : ∀ l : List Sub, Det (cat (l.map Sub.re)) (subsWidth l) (subsOk l) (fun _ => [])
  | [] => by intro s; simp [cat, run, subsWidth, subsOk]
  | [x] => by
    refine x.det.congr (by simp [subsWidth]) (fun s hs => ?_) (fun _ _ => rfl)
    simp only [subsOk, and_true]
    rw [List.take_of_length_le (by omega)]
  | x :: y :: l => by
    refine (x.det.seq (subs_det (y :: l))).congr rfl (fun s _ => Iff.rfl) (fun _ _ => rfl)

/-- a group or an uncaptured part -/
structure Field where
  grp : Option Nat
  subs : List Sub

def Field.re (f : Field) : Re :=
  match f.grp with
  | some n => .grp n (cat (f.subs.map Sub.re))
  | none => cat (f.subs.map Sub.re)
def Field.width (f : Field) : Nat := subsWidth f.subs
def Field.caps (f : Field) (s : Str) : Caps :=
  match f.grp with
  | some n => [(n, s)]
  | none => []

theorem Field.det (f : Field) : Det f.re f.width (subsOk f.subs) f.caps := by
  obtain ⟨g, l⟩ := f
  cases g with
  | none => exact subs_det l
  | some n => exact (subs_det l).grp n

abbrev Layout := List Field

def Layout.width : Layout → Nat
  | [] => 0
  | f :: l => f.width + Layout.width l
/-- every part of the text is as its field requires -/
def Layout.ok : Layout → Str → Prop
  | [], _ => True
  | f :: l, s => subsOk f.subs (s.take f.width) ∧ Layout.ok l (s.drop f.width)
def Layout.okDec : (l : Layout) → (s : Str) → Decidable (Layout.ok l s)
  | [], _ => .isTrue trivial
  | f :: l, s => by
    have := Layout.okDec l (s.drop f.width)
    simp only [Layout.ok]; infer_instance
instance (l : Layout) : DecidablePred l.ok := Layout.okDec l
/-- the groups are the column ranges -/
def Layout.caps : Layout → Str → Caps
  | [], _ => []
  | f :: l, s => f.caps (s.take f.width) ++ Layout.caps l (s.drop f.width)

theorem Layout.run_cat (t : Re) (ts : List Re) : ∀ (l : Layout) (s : Str), s.length = l.width →
    run (cat (l.map Field.re ++ t :: ts)) s = if l.ok s then (run (cat (t :: ts)) []).map fun k => (s ++ k.1, k.2.1, l.caps s ++ k.2.2) else []
  | [], s, h => by
    have : s = [] := List.length_eq_zero_iff.1 h
    subst this
    simp [Layout.ok, Layout.caps]
  | f :: l, s, h => by
    simp only [Layout.width] at h
    have hne : l.map Field.re ++ t :: ts ≠ [] := by simp
    obtain ⟨u, us, hu⟩ := List.exists_cons_of_ne_nil hne
    simp only [List.map_cons, List.cons_append, hu, cat, run]
    rw [f.det s, ← hu]
    have ih := Layout.run_cat t ts l (s.drop f.width) (by simp; omega)
    by_cases h1 : subsOk f.subs (s.take f.width)
    · rw [if_pos ⟨by omega, h1⟩]
      simp only [List.flatMap_cons, List.flatMap_nil, List.append_nil]
      rw [ih]
      by_cases h2 : Layout.ok l (s.drop f.width)
      · rw [if_pos h2, if_pos (show Layout.ok (f :: l) s from ⟨h1, h2⟩)]
        simp only [List.map_map, Function.comp_def, Layout.caps, List.append_assoc]
        simp only [← List.append_assoc, List.take_append_drop]
      · rw [if_neg h2, if_neg (show ¬ Layout.ok (f :: l) s from fun h => h2 h.2)]; rfl
    · rw [if_neg (fun h => h1 h.2), if_neg (show ¬ Layout.ok (f :: l) s from fun h => h1 h.1)]; rfl

/-- the tails of the line formats: the end, possibly after anything -/
theorem Layout.match_end (l : Layout) (s : Str) (h : s.length = l.width) :
    reMatch (cat (l.map Field.re ++ [.eos])) s = if l.ok s then some (l.caps s) else none := by
  unfold reMatch
  rw [Layout.run_cat _ _ l s h]
  split <;> simp [cat, run]

theorem Layout.match_any (l : Layout) (s : Str) (h : s.length = l.width) :
    reMatch (cat (l.map Field.re ++ [star anyCh, .eos])) s = if l.ok s then some (l.caps s) else none := by
  unfold reMatch
  rw [Layout.run_cat _ _ l s h]
  split <;> simp [cat, run, star, spanLen, downTo]

/-! ### the line formats -/

def common1L : Layout := [⟨some 1, [.one (fun c => ch ' ' c || alnum c || ch '~' c), .many 11 (fun c => alnum c || ch ' ' c)]⟩,
  ⟨some 2, [.one (oneOf [' ', '*', '+'])]⟩, ⟨some 3, [.one anyCh]⟩]
def common2L : Layout := [⟨some 5, [.many 4 isDec]⟩, ⟨some 6, [.one (fun c => ch ' ' c || rng 'a' 'e' c)]⟩, ⟨some 7, [.many 12 numCh]⟩]
def normalL : Layout := common1L ++ [⟨some 4, [.one (oneOf (c! "A PeCBTMcEOHNnSVXx"))]⟩] ++ common2L ++
  [⟨some 8, [.many 12 numCh]⟩, ⟨some 9, [.one (oneOf ['-', '+', ' ']), .many 11 numCh]⟩, ⟨some 10, [.many 9 anyCh]⟩, ⟨some 11, [.many 5 anyCh]⟩,
   ⟨some 12, [.many 1 anyCh]⟩, ⟨some 13, [.many 6 anyCh]⟩, ⟨some 14, [.many 3 anyCh]⟩]
def radar1L : Layout := common1L ++ [⟨some 4, [.one (ch 'R')]⟩] ++ common2L ++
  [⟨some 8, [.many 15 numCh]⟩, ⟨some 9, [.one (oneOf [' ', '+', '-']), .many 14 numCh]⟩, ⟨some 10, [.many 6 numCh]⟩, ⟨some 11, [.many 3 anyCh]⟩,
   ⟨some 12, [.many 6 anyCh]⟩, ⟨some 13, [.many 3 anyCh]⟩]
def radar2L : Layout := common1L ++ [⟨some 4, [.one (ch 'r')]⟩] ++ common2L ++
  [⟨some 8, [.one (oneOf ['S', 'C'])]⟩, ⟨some 9, [.many 14 numCh]⟩, ⟨some 10, [.many 15 numCh]⟩, ⟨some 11, [.many 6 numCh]⟩, ⟨some 12, [.many 3 anyCh]⟩,
   ⟨some 13, [.many 6 anyCh]⟩, ⟨some 14, [.many 3 anyCh]⟩]
def coordS : List Sub := [.one (oneOf ['+', '-']), .many 10 numCh]
def satL : Layout := common1L ++ [⟨some 4, [.one (ch 's')]⟩] ++ common2L ++
  [⟨some 8, [.one (oneOf ['1', '2'])]⟩, ⟨none, [.one anyCh]⟩, ⟨some 9, coordS⟩, ⟨none, [.one anyCh]⟩, ⟨some 10, coordS⟩, ⟨none, [.one anyCh]⟩, ⟨some 11, coordS⟩,
   ⟨none, [.many 2 (ch ' ')]⟩, ⟨some 12, [.one (ch ' '), .many 5 anyCh]⟩, ⟨some 13, [.many 3 anyCh]⟩]
def roverL : Layout := common1L ++ [⟨some 4, [.one (ch 'v')]⟩] ++ common2L ++
  [⟨none, [.one (ch '1')]⟩, ⟨none, [.one (ch ' ')]⟩, ⟨some 8, [.many 10 signedCh]⟩, ⟨none, [.one (ch ' ')]⟩, ⟨some 9, [.many 10 signedCh]⟩, ⟨none, [.one (ch ' ')]⟩,
   ⟨some 10, [.many 5 signedCh]⟩, ⟨none, [.many 10 (ch ' ')]⟩, ⟨some 11, [.many 6 anyCh]⟩, ⟨some 12, [.one (ch '2'), .one (ch '4'), .one (ch '7')]⟩]

theorem normal_match {s : Str} (h : s.length = 80) : reMatch normalLineRegex s = if normalL.ok s then some (normalL.caps s) else none :=
  Layout.match_end normalL s h
theorem radar1_match {s : Str} (h : s.length = 80) : reMatch radarFirstLineRegex s = if radar1L.ok s then some (radar1L.caps s) else none :=
  Layout.match_end radar1L s h
theorem radar2_match {s : Str} (h : s.length = 80) : reMatch radarSecondLineRegex s = if radar2L.ok s then some (radar2L.caps s) else none :=
  Layout.match_end radar2L s h
theorem sat_match {s : Str} (h : s.length = 80) : reMatch satelliteSecondLineRegex s = if satL.ok s then some (satL.caps s) else none :=
  Layout.match_any satL s h
theorem rover_match {s : Str} (h : s.length = 80) : reMatch roverSecondLineRegex s = if roverL.ok s then some (roverL.caps s) else none :=
  Layout.match_any roverL s h

/-! ### the columns -/

theorem normal_caps (s : Str) : normalL.caps s = [(1, slice s 0 12), (2, slice s 12 13), (3, slice s 13 14), (4, slice s 14 15), (5, slice s 15 19), (6, slice s 19 20),
    (7, slice s 20 32), (8, slice s 32 44), (9, slice s 44 56), (10, slice s 56 65), (11, slice s 65 70), (12, slice s 70 71), (13, slice s 71 77), (14, slice s 77 80)] := by
  simp [normalL, common1L, common2L, Layout.caps, Field.caps, Field.width, subsWidth, Sub.width, slice]
theorem radar1_caps (s : Str) : radar1L.caps s = [(1, slice s 0 12), (2, slice s 12 13), (3, slice s 13 14), (4, slice s 14 15), (5, slice s 15 19), (6, slice s 19 20),
    (7, slice s 20 32), (8, slice s 32 47), (9, slice s 47 62), (10, slice s 62 68), (11, slice s 68 71), (12, slice s 71 77), (13, slice s 77 80)] := by
  simp [radar1L, common1L, common2L, Layout.caps, Field.caps, Field.width, subsWidth, Sub.width, slice]
theorem radar2_caps (s : Str) : radar2L.caps s = [(1, slice s 0 12), (2, slice s 12 13), (3, slice s 13 14), (4, slice s 14 15), (5, slice s 15 19), (6, slice s 19 20),
    (7, slice s 20 32), (8, slice s 32 33), (9, slice s 33 47), (10, slice s 47 62), (11, slice s 62 68), (12, slice s 68 71), (13, slice s 71 77), (14, slice s 77 80)] := by
  simp [radar2L, common1L, common2L, Layout.caps, Field.caps, Field.width, subsWidth, Sub.width, slice]
theorem sat_caps (s : Str) : satL.caps s = [(1, slice s 0 12), (2, slice s 12 13), (3, slice s 13 14), (4, slice s 14 15), (5, slice s 15 19), (6, slice s 19 20),
    (7, slice s 20 32), (8, slice s 32 33), (9, slice s 34 45), (10, slice s 46 57), (11, slice s 58 69), (12, slice s 71 77), (13, slice s 77 80)] := by
  simp [satL, common1L, common2L, coordS, Layout.caps, Field.caps, Field.width, subsWidth, Sub.width, slice]
theorem rover_caps (s : Str) : roverL.caps s = [(1, slice s 0 12), (2, slice s 12 13), (3, slice s 13 14), (4, slice s 14 15), (5, slice s 15 19), (6, slice s 19 20),
    (7, slice s 20 32), (8, slice s 34 44), (9, slice s 45 55), (10, slice s 56 61), (11, slice s 71 77), (12, slice s 77 80)] := by
  simp [roverL, common1L, common2L, Layout.caps, Field.caps, Field.width, subsWidth, Sub.width, slice]

theorem slice_append (s : Str) {a b c : Nat} (h1 : a ≤ b) (h2 : b ≤ c) : slice s a b ++ slice s b c = slice s a c := by
  unfold slice
  have : s.drop b = (s.drop a).drop (b - a) := by rw [List.drop_drop]; congr 1; omega
  rw [this, show c - a = (b - a) + (c - b) by omega, List.take_add]

end Verif.Mpc80
