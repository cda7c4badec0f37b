import Verif.Lemmas.XmlToPsvTable
import Verif.Lemmas.XmlToPsvAligned
import Verif.Props.Tables
/-! The parts of the file written by xmltopsv. -/
namespace Verif.ToPsv
open Verif Verif.Xml Verif.Spec Verif.Psv Verif.Master

/-- no table of formats is empty -/
def Formats (tabs : Tables) : Prop := ∀ p ∈ tabs.psv, p.2 ≠ []

theorem formats_get {tabs : Tables} (hf : Formats tabs) {t : Str} {ps : List Str} {items : List HItem} (h : initialHeader tabs t = .ok (ps, items)) : ∃ f fs, getItem tabs.psv t = .ok (f :: fs) := by
  unfold initialHeader at h
  obtain ⟨fmts, h1, -⟩ := bind_ok.mp h
  have hg := h1
  unfold getItem at h1
  cases hd : PackUtil.dictGet tabs.psv t with
  | none => rw [hd] at h1; simp at h1
  | some x =>
    rw [hd] at h1
    simp at h1; subst h1
    have hm : (t, x) ∈ tabs.psv := C33.dictGet_mem hd
    have := hf _ hm
    cases x with
    | nil => simp at this
    | cons f fs => exact ⟨f, fs, hg⟩

/-- the formats of the observations of type `t` -/
def formatsOf (tabs : Tables) (t : Str) : List (Str × Int × Str × Int) := (PackUtil.dictGet tabs.psv t).getD []

theorem formatsOf_get {tabs : Tables} {t : Str} {f} (h : getItem tabs.psv t = .ok f) : formatsOf tabs t = f := by
  unfold getItem at h
  unfold formatsOf
  cases hd : PackUtil.dictGet tabs.psv t with
  | none => rw [hd] at h; simp at h
  | some x => rw [hd] at h; simp at h; subst h; rfl

/-- a key occurs once -/
theorem subDict_nodup (o : Elem) : ((subDict o).map (·.1)).Nodup := by
  have set : ∀ {d : List (Str × Str)} {k v : Str}, (d.map (·.1)).Nodup → ((dictSet d k v).map (·.1)).Nodup := by
    intro d k v h
    unfold dictSet
    split
    · rename_i ha
      have : (d.map fun p => if p.1 = k then (k, v) else p).map (·.1) = d.map (·.1) := by
        rw [List.map_map]
        refine List.map_congr_left fun p _ => ?_
        simp only [Function.comp]
        split
        · rename_i hp; simpa using hp.symm
        · rfl
      rw [this]; exact h
    · rename_i ha
      rw [List.map_append, List.nodup_append]
      refine ⟨h, by simp, ?_⟩
      intro a ha' b hb e
      simp at hb
      subst e; subst hb
      obtain ⟨p, hp, hk⟩ := List.mem_map.mp ha'
      exact ha (List.any_eq_true.mpr ⟨p, hp, by simpa using hk⟩)
  unfold subDict
  have : ∀ (kids : List Elem) (d : List (Str × Str)), (d.map (·.1)).Nodup →
      ((kids.foldl (fun d i => let (t, x) := getElementTagText i; if x.isEmpty then d else dictSet d t x) d).map (·.1)).Nodup := by
    intro kids
    induction kids with
    | nil => intro d h; exact h
    | cons k kids ih =>
      intro d h
      rw [List.foldl_cons]
      apply ih
      change ((if (regularizeWhiteSpace k.text).isEmpty then d else dictSet d k.tag (regularizeWhiteSpace k.text)).map (·.1)).Nodup
      split
      · exact h
      · exact set h
  exact this o.kids [] (by simp)

theorem value_mem {o : Elem} {p : Str × Str} (h : p ∈ subDict o) : value o p.1 = some p.2 := by
  rw [← value_eq]
  exact dictGet_of_mem (subDict_nodup o) h

variable {tabs : Tables} {vline : Str}

/-- the state: the file consists of the version and of `cs`; the observations `w` of type `t` are in `dataDicts` -/
structure Run (tabs : Tables) (vline : Str) (g : Out) (cs : List Chunk) (w : List Elem) (t : Str) : Prop where
  out : g.out = vline :: cs.flatMap Chunk.lines
  right : ∀ c ∈ cs, c.Right ∧ c.Neat (formatsOf tabs)
  dicts : g.dataDicts = w.map subDict
  info : w ≠ [] → tableInfo tabs t w = .ok (g.psvList, g.headerInfo) ∧ ∀ o ∈ w, o.tag = t

theorem run_print (hf : Formats tabs) {g g' : Out} {cs : List Chunk} {w : List Elem} {t : Str} (hr : Run tabs vline g cs w t) (h : printDataDicts g = .ok g') :
    ∃ cs', Run tabs vline g' cs' w t ∧ cs'.flatMap Chunk.obs = cs.flatMap Chunk.obs ++ w ∧ cs'.flatMap Chunk.contexts = cs.flatMap Chunk.contexts := by
  unfold printDataDicts at h
  split at h
  · rename_i he
    simp at h; subst h
    have : w = [] := by
      rw [hr.dicts] at he
      cases w with
      | nil => rfl
      | cons => simp at he
    exact ⟨cs, hr, by simp [this], rfl⟩
  · rename_i he
    have hw : w ≠ [] := by
      rintro rfl
      rw [hr.dicts] at he; simp at he
    obtain ⟨hl, h1, h2⟩ := bind_ok.mp h
    obtain ⟨rows, h3, h4⟩ := bind_ok.mp h2
    simp [pure, Except.pure] at h4
    subst h4
    obtain ⟨i1, i2⟩ := hr.info hw
    have hfm : ∃ f fs, getItem tabs.psv t = .ok (f :: fs) := by
      unfold tableInfo at i1
      obtain ⟨⟨ps, items⟩, j1, -⟩ := bind_ok.mp i1
      exact formats_get hf j1
    have ht := table_lined i1 hfm (table_holds i1 hfm) h1 (by rw [← hr.dicts]; exact h3)
    refine ⟨cs ++ [.table w hl rows], ⟨?_, ?_, hr.dicts, hr.info⟩, by simp [Chunk.obs], by simp [Chunk.contexts]⟩
    · simp [hr.out, Chunk.lines]
    · intro c hc
      rcases List.mem_append.mp hc with hc | hc
      · exact hr.right c hc
      · simp at hc; subst hc
        refine ⟨⟨hw, ⟨t, i2⟩, ht⟩, fun hfit => ?_⟩
        obtain ⟨f, fs, hg⟩ := hfm
        refine table_aligned i1 hg (by simp) (fun o ho p hp => ?_) h1 (by rw [← hr.dicts]; exact h3)
        have := hfit o ho p.1 p.2 (value_mem hp)
        rw [i2 o ho, formatsOf_get hg] at this
        exact this

theorem run_first {g g' : Out} {cs : List Chunk} {w : List Elem} {t : Str} {o : Elem} (hr : Run tabs vline g cs w t) (h : processDataElement tabs g true o = .ok g') :
    Run tabs vline g' cs [o] o.tag := by
  unfold processDataElement at h
  simp only [if_true, bind, Except.bind, pure, Except.pure] at h
  split at h
  · simp at h
  rename_i ps' hi
  split at h
  · simp at h
  rename_i info hinfo
  simp at h
  subst h
  obtain ⟨ps, items⟩ := ps'
  refine ⟨hr.out, hr.right, by simp, fun _ => ⟨?_, by simp⟩⟩
  unfold tableInfo
  simp only [bind, Except.bind, hi, List.foldlM_cons, List.foldlM_nil, pure, Except.pure]
  rw [hinfo]

theorem run_next {g g' : Out} {cs : List Chunk} {w : List Elem} {t : Str} {o : Elem} (hr : Run tabs vline g cs w t) (hw : w ≠ []) (ho : o.tag = t) (h : processDataElement tabs g false o = .ok g') :
    Run tabs vline g' cs (w ++ [o]) t := by
  unfold processDataElement at h
  simp only [Bool.false_eq_true, if_false, bind, Except.bind, pure, Except.pure] at h
  split at h
  · simp at h
  rename_i info hinfo
  simp at h
  subst h
  obtain ⟨i1, i2⟩ := hr.info hw
  refine ⟨hr.out, hr.right, by simp [hr.dicts], fun _ => ⟨?_, ?_⟩⟩
  · unfold tableInfo at *
    obtain ⟨⟨ps, items⟩, j1, j2⟩ := bind_ok.mp i1
    obtain ⟨inf, j3, j4⟩ := bind_ok.mp j2
    simp [pure, Except.pure] at j4
    obtain ⟨rfl, rfl⟩ := j4
    rw [j1]
    simp only [bind, Except.bind, List.foldlM_append, List.foldlM_cons, List.foldlM_nil, pure, Except.pure]
    rw [j3]
    simp only
    rw [hinfo]
  · intro x hx
    rcases List.mem_append.mp hx with hx | hx
    · exact i2 x hx
    · simp at hx; subst hx; exact ho

/-- inside an obsBlock whose observations so far are `cur` -/
def Inside (type : Option Str) (w cur : List Elem) (t : Str) : Prop := (type = none ∧ cur = []) ∨ (type = some t ∧ cur = w ∧ w ≠ [])

theorem run_obsData : ∀ {l : List Elem} {g : Out} {type : Option Str} {s : Out × Option Str} {cs : List Chunk} {w cur : List Elem} {t : Str},
    Run tabs vline g cs w t → Inside type w cur t → processObsData tabs (g, type) l = .ok s → ∃ w' t', Run tabs vline s.1 cs w' t' ∧ Inside s.2 w' (cur ++ l) t' ∧ (cur ++ l = [] → w' = w ∧ t' = t)
  | [], g, type, s, cs, w, cur, t, hr, hi, h => by
    simp [processObsData] at h; subst h
    exact ⟨w, t, hr, by simpa using hi, fun _ => ⟨rfl, rfl⟩⟩
  | o :: l, g, type, s, cs, w, cur, t, hr, hi, h => by
    rw [processObsData.eq_def] at h
    simp only at h
    rcases hi with ⟨rfl, rfl⟩ | ⟨rfl, rfl, hw⟩
    · simp only at h
      obtain ⟨al, h1, h2⟩ := bind_ok.mp h
      split at h2
      · simp [raiseRT, bind, Except.bind] at h2
      obtain ⟨g1, h4, h5⟩ := bind_ok.mp h2
      obtain ⟨w', t', a, b, c⟩ := run_obsData (run_first hr h4) (.inr ⟨rfl, rfl, by simp⟩) h5
      exact ⟨w', t', a, by simpa using b, by simp⟩
    · simp only at h
      split at h
      · simp [raiseRT, bind, Except.bind] at h
      rename_i ho
      obtain ⟨g1, h4, h5⟩ := bind_ok.mp h
      obtain ⟨w', t', a, b, c⟩ := run_obsData (run_next hr hw (by simpa using ho) h4) (.inr ⟨rfl, rfl, by simp⟩) h5
      exact ⟨w', t', a, by simpa using b, by simp⟩

/-- the observations among the children of an obsBlock -/
def dataOf (l : List Elem) : List Elem := (l.filter fun d => d.tag = c! "obsData").flatMap Elem.kids
def ctxsOf (l : List Elem) : List Elem := l.filter fun d => d.tag = c! "obsContext"

theorem contextLines_eq (e : Elem) : contextLines e = e.kids.flatMap fun i => contextText '#' i :: i.kids.map (contextText '!') := by
  have hr : ∀ t : Option Str, regularizeWhiteSpace t = strip (t.getD []) := by intro t; cases t <;> rfl
  unfold contextLines contextText
  congr 1
  funext i
  simp [hr]

theorem run_context {g : Out} {cs : List Chunk} {w : List Elem} {t : Str} (hr : Run tabs vline g cs w t) (e : Elem) :
    Run tabs vline { g with out := g.out ++ contextLines e } (cs ++ [.context e (contextLines e)]) w t := by
  refine ⟨by simp [hr.out, Chunk.lines], ?_, hr.dicts, hr.info⟩
  intro c hc
  rcases List.mem_append.mp hc with hc | hc
  · exact hr.right c hc
  · simp at hc; subst hc
    exact ⟨contextLines_eq e, trivial⟩

theorem run_obsBlock : ∀ {l : List Elem} {g : Out} {type : Option Str} {s : Out × Option Str} {cs : List Chunk} {w cur : List Elem} {t : Str},
    Run tabs vline g cs w t → Inside type w cur t → processObsBlock tabs (g, type) l = .ok s →
    ∃ cs' w' t', Run tabs vline s.1 cs' w' t' ∧ Inside s.2 w' (cur ++ dataOf l) t' ∧ cs'.flatMap Chunk.obs = cs.flatMap Chunk.obs ∧
      cs'.flatMap Chunk.contexts = cs.flatMap Chunk.contexts ++ ctxsOf l
  | [], g, type, s, cs, w, cur, t, hr, hi, h => by
    simp [processObsBlock] at h; subst h
    exact ⟨cs, w, t, hr, by simpa [dataOf] using hi, rfl, by simp [ctxsOf]⟩
  | child :: l, g, type, s, cs, w, cur, t, hr, hi, h => by
    rw [processObsBlock] at h
    obtain ⟨al, h1, h2⟩ := bind_ok.mp h
    split at h2
    · simp [raiseRT] at h2
    split at h2
    · rename_i hc
      obtain ⟨cs', w', t', a, b, c, d⟩ := run_obsBlock (run_context hr child) hi h2
      have e1 : dataOf (child :: l) = dataOf l := by simp [dataOf, hc]
      refine ⟨cs', w', t', a, by rw [e1]; exact b, by rw [c]; simp [Chunk.obs], ?_⟩
      rw [d]
      simp [ctxsOf, hc, Chunk.contexts]
    · rename_i hc
      have e2 : ctxsOf (child :: l) = ctxsOf l := by simp [ctxsOf, hc]
      split at h2
      · rename_i hd
        obtain ⟨s1, h3, h4⟩ := bind_ok.mp h2
        obtain ⟨w1, t1, a1, b1, -⟩ := run_obsData hr hi h3
        obtain ⟨cs', w', t', a, b, c, d⟩ := run_obsBlock a1 b1 h4
        have e1 : dataOf (child :: l) = child.kids ++ dataOf l := by simp [dataOf, hd]
        exact ⟨cs', w', t', a, by rw [e1, ← List.append_assoc]; exact b, c, by rw [d, e2]⟩
      · rename_i hd
        obtain ⟨cs', w', t', a, b, c, d⟩ := run_obsBlock hr hi h2
        have e1 : dataOf (child :: l) = dataOf l := by simp [dataOf, hd]
        exact ⟨cs', w', t', a, by rw [e1]; exact b, c, by rw [d, e2]⟩

/-- a block with observations, or an observation -/
def Filled (k : Elem) : Prop := observationsIn k ≠ []

theorem run_children (hf : Formats tabs) : ∀ {l : List Elem} {g g' : Out} {last : Option Str} {cs : List Chunk} {w ks : List Elem} {t : Str},
    Run tabs vline g cs w t → (∀ u, last = some u → u ≠ c! "obsBlock" → w ≠ [] ∧ u = t) → cs.flatMap Chunk.contexts = ks.flatMap contextsIn →
    ((∀ k ∈ ks, Filled k) → cs.flatMap Chunk.obs ++ w = ks.flatMap observationsIn ∧ (ks ≠ [] → w ≠ [])) → processChildren tabs g last l = .ok g' →
    ∃ cs' w' t', Run tabs vline g' cs' w' t' ∧ cs'.flatMap Chunk.contexts = (ks ++ l).flatMap contextsIn ∧
      ((∀ k ∈ ks ++ l, Filled k) → cs'.flatMap Chunk.obs ++ w' = (ks ++ l).flatMap observationsIn ∧ (ks ++ l ≠ [] → w' ≠ []))
  | [], g, g', last, cs, w, ks, t, hr, hl, hc, ho, h => by
    simp [processChildren] at h
    subst h
    exact ⟨cs, w, t, hr, by simpa using hc, by simpa using ho⟩
  | k :: l, g, g', last, cs, w, ks, t, hr, hl, hc, ho, h => by
    rw [processChildren] at h
    obtain ⟨al, h0, h1⟩ := bind_ok.mp h
    split at h1
    · simp [raiseRT] at h1
    have e : ks ++ k :: l = (ks ++ [k]) ++ l := by simp
    rw [e]
    split at h1
    · rename_i hk
      obtain ⟨g1, h2, h3⟩ := bind_ok.mp h1
      obtain ⟨s, h4, h5⟩ := bind_ok.mp h3
      obtain ⟨cs1, a1, a2, a3⟩ := run_print hf hr h2
      obtain ⟨cs2, w2, t2, b1, b2, b3, b4⟩ := run_obsBlock a1 (.inl ⟨rfl, rfl⟩) h4
      refine run_children hf b1 (fun u hu hn => by simp at hu; exact absurd hu.symm hn) ?_ ?_ h5
      · rw [b4, a3, hc]
        simp [contextsIn, hk, ctxsOf]
      · intro hfil
        have hk' : dataOf k.kids ≠ [] := by
          have := hfil k (by simp)
          simpa [Filled, observationsIn, hk, dataOf] using this
        rw [b3, a2, (ho fun x hx => hfil x (by simp [hx])).1]
        have : w2 = dataOf k.kids := by
          rcases b2 with ⟨-, b⟩ | ⟨-, b, -⟩
          · simp at b; exact absurd b hk'
          · simpa using b.symm
        rw [this]
        exact ⟨by simp [observationsIn, hk, dataOf], fun _ => hk'⟩
    · rename_i hk
      have hci : contextsIn k = [] := by simp [contextsIn, hk]
      have hoi : observationsIn k = [k] := by simp [observationsIn, hk]
      split at h1
      · obtain ⟨g1, h2, h3⟩ := bind_ok.mp h1
        obtain ⟨g2, h4, h5⟩ := bind_ok.mp h3
        obtain ⟨cs1, a1, a2, a3⟩ := run_print hf hr h2
        refine run_children hf (run_first a1 h4) (fun u hu hn => by simp at hu; exact ⟨by simp, hu.symm⟩) ?_ ?_ h5
        · rw [a3, hc]; simp [hci]
        · intro hfil
          rw [a2, (ho fun x hx => hfil x (by simp [hx])).1]
          simp [hoi]
      · rename_i hlast
        simp at hlast
        obtain ⟨g2, h4, h5⟩ := bind_ok.mp h1
        obtain ⟨i1, i2⟩ := hl k.tag hlast hk
        refine run_children hf (run_next hr i1 i2 h4) (fun u hu hn => by simp at hu; exact ⟨by simp, by rw [← hu]; exact i2⟩) ?_ ?_ h5
        · rw [hc]; simp [hci]
        · intro hfil
          rw [← List.append_assoc, (ho fun x hx => hfil x (by simp [hx])).1]
          simp [hoi]

theorem children_snoc {k : Elem} (hk : k.tag = c! "obsBlock") : ∀ {l : List Elem} {g : Out} {last : Option Str},
    processChildren tabs g last (l ++ [k]) = (processChildren tabs g last l >>= fun g => processChildren tabs g none [k])
  | [], g, last => by
    simp only [List.nil_append, processChildren, hk, if_true, bind, Except.bind]
  | c :: l, g, last => by
    have ih : ∀ g last, processChildren tabs g last (l ++ [k]) = (processChildren tabs g last l >>= fun g => processChildren tabs g none [k]) := fun g last => children_snoc hk
    rw [List.cons_append, processChildren, processChildren]
    simp only [ih, raiseRT]
    cases getItem tabs.allowed (c! "ades") with
    | error => rfl
    | ok al =>
      simp only [bind, Except.bind]
      split
      · rfl
      · split
        · cases printDataDicts g with
          | error => rfl
          | ok g1 =>
            simp only
            cases processObsBlock tabs (g1, none) c.kids <;> rfl
        · split
          · cases printDataDicts g with
            | error => rfl
            | ok g1 =>
              simp only
              cases processDataElement tabs g1 true c <;> rfl
          · cases processDataElement tabs g false c <;> rfl

/-- what printing adds depends on the data only -/
theorem print_adds {g g' : Out} (h : printDataDicts g = .ok g') : ∃ last, g'.out = g.out ++ last ∧ g'.dataDicts = g.dataDicts ∧ g'.headerInfo = g.headerInfo ∧ (g.dataDicts ≠ [] → last ≠ []) ∧
    ∀ x : Out, x.dataDicts = g.dataDicts → x.headerInfo = g.headerInfo → printDataDicts x = .ok { x with out := x.out ++ last } := by
  unfold printDataDicts at h
  split at h
  · rename_i he
    simp at h; subst h
    refine ⟨[], by simp, rfl, rfl, fun hn => absurd (by simpa using he) hn, fun x hx _ => ?_⟩
    unfold printDataDicts
    have he' : x.dataDicts.isEmpty = true := by rw [hx]; exact he
    rw [if_pos he']
    simp
  · rename_i he
    obtain ⟨hl, h1, h2⟩ := bind_ok.mp h
    obtain ⟨rows, h3, h4⟩ := bind_ok.mp h2
    simp [pure, Except.pure] at h4
    subst h4
    refine ⟨hl :: rows, rfl, rfl, rfl, by simp, fun x hx hy => ?_⟩
    unfold printDataDicts
    rw [hx, hy, if_neg he, h1, h3]
    rfl

end Verif.ToPsv
