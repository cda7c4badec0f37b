import Verif.Spec.Mpc80Back
import Verif.Lemmas.Mpc80Second
import Verif.Lemmas.XmlToPsvRun
import Verif.XmlToMpc80
import Verif.Lemmas.SexBack
/-
  Lemmas for C39: the lines written for the elements of C38.
-/
namespace Verif.ToMpc80
open Verif Verif.ToPsv Verif.Mpc80 Verif.PackUtil Verif.Spec.Mpc80 Verif.Xml
open Verif.Spec hiding Item Group fileText Group.lines

/-! ### the dictionary of an element -/

/-- values as they stand in an element: not empty, no blanks around them -/
def Good (l : List (Str × Str)) : Prop := ∀ x ∈ l, x.2 ≠ [] ∧ strip x.2 = x.2

theorem Good.app {a b : List (Str × Str)} (h : Good a) (h' : Good b) : Good (a ++ b) := by
  intro x hx
  rcases List.mem_append.1 hx with hx | hx
  · exact h x hx
  · exact h' x hx
theorem Good.one {n t : Str} (h1 : t ≠ []) (h2 : strip t = t) : Good [(n, t)] := by
  intro x hx; simp at hx; subst hx; exact ⟨h1, h2⟩
theorem Good.cons {n t : Str} {l : List (Str × Str)} (h1 : t ≠ []) (h2 : strip t = t) (h : Good l) : Good ((n, t) :: l) := Good.app (a := [(n, t)]) (.one h1 h2) h
theorem Good.val {n t : Str} (h2 : strip t = t) : Good (val n t) := by
  unfold Spec.Mpc80.val
  split
  · intro x hx; simp at hx
  · rename_i h; exact .one h h2

theorem nospace_strip {t : Str} (h : ∀ c ∈ t, isSpace c = false) : strip t = t := strip_of_none h

theorem strip_idem (s : Str) : strip (strip s) = strip s := strip_of_ends (Psv.strip_ends s).1 (Psv.strip_ends s).2

theorem trim_strip {t : Str} (h : Plain t) : strip (trim t) = trim t := by rw [← strip_trim h, strip_idem]

theorem ref_strip {r : RefCols} (h : r.Valid) : strip r.text = r.text := by
  obtain ⟨t, _, e⟩ := unpackRef_eq h
  rw [← e, strip_idem]

theorem band_strip {o : Optical} (h : o.Valid) : strip (bandText o.mag o.band) = bandText o.mag o.band := by
  unfold bandText
  split
  · rfl
  · split
    · rfl
    · rename_i h1 h2
      exact nospace_strip (by simpa using h.band.resolve_left h2)

theorem disc_plain {o : Optical} (h : o.Valid) : Plain [o.disc] := plain_one (by
    have := h.disc
    simp at this
    rcases this with h | h | h
    · exact Or.inl h
    · exact Or.inr (by rw [h]; rfl)
    · exact Or.inr (by rw [h]; rfl))

theorem precText_strip (r : Sexagesimal) : strip (precText r) = precText r := by
  cases r <;> simp only [precText] <;> repeat' split
  all_goals rfl

theorem values_good {o : Optical} (h : o.Valid) {place : List (Str × Str)} (hp : Good place) {time ra dec : Str} (hr : o.Reading time ra dec) : Good (o.values place time ra dec) := by
  obtain ⟨d1, d2, d3⟩ := desig_strip h.desig
  obtain ⟨w, ms, _, _, _, ht⟩ := hr.time
  obtain ⟨K, hra, _⟩ := hr.ra
  obtain ⟨L, hdec, _⟩ := hr.dec
  have htime : strip time = time := nospace_strip (by rw [ht]; exact iso_nospace _ _ _ _ _)
  have hra' : strip ra = ra := nospace_strip (by rw [hra]; exact decimal_nospace _ _)
  have hdec' : strip dec = dec := nospace_strip (by
    rw [hdec]
    intro c hc
    rcases List.mem_append.1 hc with hc | hc
    · cases hs : o.south <;> rw [hs] at hc <;> simp at hc
      subst hc; rfl
    · exact decimal_nospace _ _ c hc)
  have n1 : time ≠ [] := by rw [ht]; simp [isoTime]
  have n2 : ra ≠ [] := by rw [hra]; simp [Spec.decimal]
  have n3 : dec ≠ [] := by rw [hdec]; simp [Spec.decimal]
  have n4 : o.stn ≠ [] := by intro e; have := h.stn.1; rw [e] at this; simp at this
  unfold Optical.values
  refine ((((((((((((((Good.val d1).app (.val d2)).app (.val (by rw [← d3, strip_idem]))).app (.cons mode_text.2 mode_text.1 (.one n4 (nospace_strip h.stn.2)))).app hp).app (.val ?_)).app
    (.cons n1 htime (.cons n2 hra' (.cons n3 hdec' (.one (cat_text _).2 (cat_text _).1))))).app (.val (trim_strip h.mag.2))).app (.val (band_strip h))).app (.val (ref_strip h.ref))).app
    (.val (trim_strip (disc_plain h)))).app (.val ?_)).app (.cons (by simp) rfl (.cons (dec_ne _) (nospace_strip (dec_nospace _)) (.cons (prec_ne _) (precText_strip _) (.one (prec_ne _) (precText_strip _)))))).app
    (.val ?_)).app (.val ?_)
  · split
    · rename_i hu
      have := h.note
      rw [if_pos hu.1] at this
      exact prog_text (this.resolve_left hu.2)
    · rfl
  · split <;> rfl
  · split
    · rfl
    · exact trim_strip (note_plain h)
  · split <;> rfl

/-- all names of values, in order -/
def valueNames : List Str :=
  [c! "permID", c! "provID", c! "trkSub", c! "mode", c! "stn", c! "sys", c! "ctr", c! "pos1", c! "pos2", c! "pos3", c! "prog", c! "obsTime", c! "ra", c! "dec", c! "astCat", c! "mag", c! "band", c! "ref",
   c! "disc", c! "subFrm", c! "subFmt", c! "precTime", c! "precRA", c! "precDec", c! "notes", c! "deprecated"]

theorem val_names (n t : Str) : ((val n t).map (·.1)).Sublist [n] := by
  unfold val; split <;> simp

def PlaceNames (place : List (Str × Str)) : Prop := (place.map (·.1)).Sublist [c! "sys", c! "ctr", c! "pos1", c! "pos2", c! "pos3"]

theorem values_sub {o : Optical} {place : List (Str × Str)} (hp : PlaceNames place) {time ra dec : Str} : ((o.values place time ra dec).map (·.1)).Sublist valueNames := by
  unfold Optical.values
  simp only [List.map_append]
  exact (((((((((((((((val_names _ _).append (val_names _ _)).append (val_names _ _)).append (List.Sublist.refl [c! "mode", c! "stn"])).append hp).append (val_names _ _)).append
    (List.Sublist.refl [c! "obsTime", c! "ra", c! "dec", c! "astCat"])).append (val_names _ _)).append (val_names _ _)).append (val_names _ _)).append (val_names _ _)).append (val_names _ _)).append
    (List.Sublist.refl [c! "subFmt", c! "precTime", c! "precRA", c! "precDec"])).append (val_names _ _)).append (val_names _ _))

theorem values_names {o : Optical} {place : List (Str × Str)} (hp : PlaceNames place) {time ra dec : Str} : ((o.values place time ra dec).map (·.1)).Nodup :=
  List.Nodup.sublist (values_sub hp) (by decide)

theorem dict_values {o : Optical} (h : o.Valid) {place : List (Str × Str)} (hp : Good place) (hn : PlaceNames place) {time ra dec : Str} (hr : o.Reading time ra dec) :
    ToPsv.subDict (o.elem place time ra dec) = o.values place time ra dec := by
  have hg := values_good h hp hr
  have hk : (o.elem place time ra dec).kids = (o.values place time ra dec).map fun x => leafOf x.1 x.2 := rfl
  have hl : ∀ x : Str × Str, x.2 ≠ [] → (leafOf x.1 x.2).text = some x.2 := fun x hx => by simp [leafOf, hx, Elem.text]
  have ht : ∀ x : Str × Str, (leafOf x.1 x.2).tag = x.1 := fun x => rfl
  have := ToPsv.subDict_aux (o.elem place time ra dec).kids [] (by
    rw [hk]
    intro k hk'
    obtain ⟨x, hx, rfl⟩ := List.mem_map.1 hk'
    exact ⟨x.2, hl x (hg x hx).1, hg x hx⟩) (by
    rw [hk]
    simpa [Function.comp_def, ht] using values_names hn (o := o) (time := time) (ra := ra) (dec := dec))
  rw [ToPsv.subDict, this, List.nil_append, ToPsv.pairs, hk, List.map_map]
  conv => rhs; rw [← List.map_id (o.values place time ra dec)]
  refine List.map_congr_left fun x hx => ?_
  simp [ht, hl x (hg x hx).1]

/-! ### looking up -/

theorem get_append (a b : List (Str × Str)) (k : Str) : dictGet (a ++ b) k = (dictGet b k).or (dictGet a k) := by
  unfold dictGet
  rw [List.reverse_append, List.find?_append]
  cases List.find? (fun x => x.1 == k) b.reverse <;> simp
theorem get_nil (k : Str) : dictGet ([] : List (Str × Str)) k = none := rfl
theorem get_cons (n t : Str) (l : List (Str × Str)) (k : Str) : dictGet ((n, t) :: l) k = (dictGet l k).or (if n = k then some t else none) := by
  rw [show (n, t) :: l = [(n, t)] ++ l from rfl, get_append]
  congr 1
  unfold dictGet
  by_cases h : n = k <;> simp [h]
/-- the value, if it is not empty -/
def opt (t : Str) : Option Str := if t = [] then none else some t

theorem get_val (n t k : Str) : dictGet (val n t) k = if n = k then opt t else none := by
  unfold val opt
  by_cases h : t = []
  · simp [h, get_nil]
  · simp [h, get_cons, get_nil]

theorem get_place {place : List (Str × Str)} (hn : PlaceNames place) {k : Str} (hk : k ∉ [c! "sys", c! "ctr", c! "pos1", c! "pos2", c! "pos3"]) : dictGet place k = none := by
  cases h : dictGet place k with
  | none => rfl
  | some v =>
    have := C33.dictGet_mem h
    exact absurd (hn.subset (List.mem_map.2 ⟨_, this, rfl⟩)) hk

/-- what the dictionary of an optical element holds -/
structure Holds (o : Optical) (place : List (Str × Str)) (time ra dec : Str) (d : Dict) : Prop where
  permID : dictGet d (c! "permID") = opt (o.desig.permText.getD [])
  provID : dictGet d (c! "provID") = opt (o.desig.provText.getD [])
  trkSub : dictGet d (c! "trkSub") = opt (o.desig.trkText.getD [])
  mode : dictGet d (c! "mode") = some (modeOf o.code)
  stn : dictGet d (c! "stn") = some o.stn
  place : ∀ k ∈ [c! "sys", c! "pos1", c! "pos2", c! "pos3"], dictGet d k = dictGet place k
  prog : dictGet d (c! "prog") = opt (if o.usesPrograms ∧ o.note ≠ ' ' then progText o.note else [])
  obsTime : dictGet d (c! "obsTime") = some time
  ra : dictGet d (c! "ra") = some ra
  dec : dictGet d (c! "dec") = some dec
  astCat : dictGet d (c! "astCat") = some (catName o.cat)
  mag : dictGet d (c! "mag") = opt (trim o.mag)
  band : dictGet d (c! "band") = opt (bandText o.mag o.band)
  ref : dictGet d (c! "ref") = opt o.ref.text
  disc : dictGet d (c! "disc") = opt (trim [o.disc])
  subFrm : dictGet d (c! "subFrm") = opt (if o.code = 'A' then c! "B1950.0" else [])
  precTime : dictGet d (c! "precTime") = some (Spec.dec (10 ^ (6 - o.date.digits)))
  precRA : dictGet d (c! "precRA") = some (precText o.ra)
  precDec : dictGet d (c! "precDec") = some (precText o.dec)
  notes : dictGet d (c! "notes") = opt (if o.usesPrograms then [] else trim [o.note])
  deprecated : dictGet d (c! "deprecated") = opt (if o.code = 'X' then c! "X" else [])
  artSat : dictGet d (c! "artSat") = none

theorem opt_eq (t : Str) : (if t ≠ [] then some t else none) = opt t := by unfold opt; split <;> simp_all

theorem holds {o : Optical} {place : List (Str × Str)} (hn : PlaceNames place) {time ra dec : Str} : Holds o place time ra dec (o.values place time ra dec) := by
  constructor
  case place =>
    intro k hk
    simp only [List.mem_cons, List.not_mem_nil, or_false] at hk
    unfold Optical.values
    simp only [get_append, get_cons, get_nil, get_val]
    rcases hk with rfl | rfl | rfl | rfl <;> simp
  all_goals
    unfold Optical.values
    simp (disch := decide) only [get_append, get_cons, get_nil, get_val, get_place hn]
    simp

end Verif.ToMpc80
