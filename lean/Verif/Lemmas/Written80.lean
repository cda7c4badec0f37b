import Verif.Spec.Written80
import Verif.Lemmas.BackRun
/-
  Lemmas for C40: the structure of what is written in 80 columns.
-/
namespace Verif.ToMpc80
open Verif Verif.Xml Verif.PackUtil Verif.Spec

/-- the result of appending an outcome to a state -/
def res (s : Out) (r : Outcome) : EStateM.Result PyErr Out Unit :=
  match r.raised with
  | none => .ok () { s with out := s.out ++ r.lines, msgs := s.msgs ++ r.msgs }
  | some e => .error e { s with out := s.out ++ r.lines, msgs := s.msgs ++ r.msgs }

def Gives (x : W Unit) (r : Outcome) : Prop := ∀ s, x s = res s r

theorem joined_one (r : Outcome) : joined [r] = r := by
  cases r with | mk l m e => cases e <;> simp [joined]

theorem joined_append (a b : List Outcome) : joined (a ++ b) = joined [joined a, joined b] := by
  rw [show joined [joined a, joined b] = if (joined a).raised = none then ⟨(joined a).lines ++ (joined b).lines, (joined a).msgs ++ (joined b).msgs, (joined b).raised⟩ else joined a by
    rw [joined]; simp only [joined_one]]
  induction a with
  | nil => simp [joined]
  | cons r a ih =>
    rw [List.cons_append, joined, joined]
    by_cases h : r.raised = none
    · simp only [h, if_true, ih]
      by_cases h2 : (joined a).raised = none
      · simp [h2, List.append_assoc]
      · simp [h2]
    · simp [h]

theorem res_ok {s : Out} {r : Outcome} (h : r.raised = none) : res s r = .ok () { s with out := s.out ++ r.lines, msgs := s.msgs ++ r.msgs } := by
  unfold res; rw [h]

theorem res_err {s : Out} {r : Outcome} {e : PyErr} (h : r.raised = some e) : res s r = .error e { s with out := s.out ++ r.lines, msgs := s.msgs ++ r.msgs } := by
  unfold res; rw [h]

/-- one thing after the other -/
theorem bind_res {x : W Unit} {f : Unit → W Unit} {s : Out} {a b : Outcome} (h : x s = res s a) (h' : ∀ s', f () s' = res s' b) : (x >>= f) s = res s (joined [a, b]) := by
  rw [show joined [a, b] = if a.raised = none then ⟨a.lines ++ b.lines, a.msgs ++ b.msgs, b.raised⟩ else a by rw [joined]; simp only [joined_one]]
  cases ha : a.raised with
  | none =>
    rw [res_ok ha] at h
    rw [bindW h, h', if_pos rfl]
    unfold res
    cases b.raised <;> simp [List.append_assoc]
  | some e =>
    rw [res_err ha] at h
    simp only [reduceCtorEq, if_false]
    rw [res_err ha]
    simp [bind, EStateM.bind, h]

theorem Gives.seq {x : W Unit} {f : Unit → W Unit} {a b : Outcome} (h : Gives x a) (h' : Gives (f ()) b) : Gives (x >>= f) (joined [a, b]) :=
  fun s => bind_res (h s) h'

theorem gives_print (l : Str) : Gives (print l) ⟨[l], [], none⟩ := by
  intro s; simp [print, res, modify, modifyGet, MonadStateOf.modifyGet, EStateM.modifyGet]

theorem gives_nil : Gives (pure ()) ⟨[], [], none⟩ := by
  intro s; simp [res, pure, EStateM.pure]

theorem gives_lift {α : Type} {x : Py α} {f : α → W Unit} (h : ∀ v, x = .ok v → ∃ r, Gives (f v) r) : ∃ r, Gives (lift x >>= f) r := by
  cases hx : x with
  | ok v =>
    obtain ⟨r, hr⟩ := h v hx
    exact ⟨r, hr⟩
  | error e => exact ⟨⟨[], [], some e⟩, fun s => by simp [lift, bind, EStateM.bind, res]⟩

theorem gives_each {α : Type} {f : α → W Unit} {g : α → Outcome} : ∀ {l : List α}, (∀ x ∈ l, Gives (f x) (g x)) → Gives (each f l) (joined (l.map g))
  | [], _ => gives_nil
  | x :: l, h => by
    have := (h x (by simp)).seq (f := fun _ => each f l) (gives_each fun y hy => h y (by simp [hy]))
    rw [List.map_cons, show g x :: l.map g = [g x] ++ l.map g from rfl, joined_append, joined_one]
    exact this

theorem gives_data (o : Opts) (x : Str × Dict) : ∃ r, Gives (printData o x) r := by
  unfold printData
  split
  · unfold printOpticalLine
    refine gives_lift fun v hv => ?_
    obtain ⟨p, l⟩ := v
    have : ∃ r, Gives (lift (opticalSecond x.2 p) >>= fun second => match second with | none => pure () | some none => print l | some (some l2) => print l2) r :=
      gives_lift fun sec _ => by
        match sec with
        | none => exact ⟨_, gives_nil⟩
        | some none => exact ⟨_, gives_print l⟩
        | some (some l2) => exact ⟨_, gives_print l2⟩
    obtain ⟨r, hr⟩ := this
    exact ⟨_, (gives_print l).seq hr⟩
  · split
    · unfold printRadarLine
      refine gives_lift fun v hv => ?_
      obtain ⟨l1, sec⟩ := v
      obtain ⟨r, hr⟩ : ∃ r, Gives (lift sec >>= fun l2 => print l2) r := gives_lift fun l2 _ => ⟨_, gives_print l2⟩
      exact ⟨_, (gives_print l1).seq hr⟩
    · exact ⟨⟨[], [x.1], none⟩, fun s => by simp [res, modify, modifyGet, MonadStateOf.modifyGet, EStateM.modifyGet]⟩

/-- what printing one observation comes to -/
def recordOut (o : Opts) (e : Elem) : Outcome :=
  match printData o (e.tag, ToPsv.subDict e) ⟨[], [], []⟩ with
  | .ok _ s => ⟨s.out, s.msgs, none⟩
  | .error e s => ⟨s.out, s.msgs, some e⟩

theorem gives_record (o : Opts) (e : Elem) : Gives (printData o (e.tag, ToPsv.subDict e)) (recordOut o e) := by
  obtain ⟨r, hr⟩ := gives_data o (e.tag, ToPsv.subDict e)
  have : recordOut o e = r := by
    unfold recordOut
    rw [hr]
    obtain ⟨l, m, x⟩ := r
    cases x <;> simp [res]
  rw [this]; exact hr

theorem each_map' {α β : Type} {f : α → W Unit} {g : β → α} : ∀ l : List β, each f (l.map g) = each (fun x => f (g x)) l
  | [] => rfl
  | x :: l => by simp only [List.map_cons, each, each_map' l]

theorem gives_dicts {o : Opts} {s : Out} {es : List Elem} (h : s.dataDicts = es.map fun e => (e.tag, ToPsv.subDict e)) :
    printDataDicts o s = res s (joined (es.map (recordOut o))) := by
  unfold printDataDicts
  have : each (printData o) s.dataDicts s = res s (joined (es.map (recordOut o))) := by
    rw [h, each_map']
    exact gives_each (fun e _ => gives_record o e) s
  exact this

/-! ### headers -/

theorem comma_eq (l : List Str) : contextItem.joinComma l = List.intercalate (c! ", ") l := by
  induction l with
  | nil => rfl
  | cons x l ih =>
    cases l with
    | nil => simp [contextItem.joinComma, List.intercalate]
    | cons y l => rw [contextItem.joinComma, ih]; simp [List.intercalate]; intro h; cases h

theorem texts_one (i : Elem) (n : Str) : ((i.kids.filter fun j => j.tag = n).map fun j => regularizeWhiteSpace j.text) = texts i [n] := by
  have ht : ∀ j : Elem, regularizeWhiteSpace j.text = strip (j.text.getD []) := by
    intro j; cases j.text <;> rfl
  unfold texts
  simp only [ht, List.mem_singleton]

theorem texts_two (i : Elem) (n m : Str) : ((i.kids.filter fun j => j.tag = n ∨ j.tag = m).map fun j => regularizeWhiteSpace j.text) = texts i [n, m] := by
  have ht : ∀ j : Elem, regularizeWhiteSpace j.text = strip (j.text.getD []) := by
    intro j; cases j.text <;> rfl
  unfold texts
  simp only [ht, List.mem_cons, List.not_mem_nil, or_false]

theorem context_lines (e : Elem) : e.kids.flatMap contextItem = headerLines e := by
  unfold headerLines
  congr 1
  funext i
  unfold contextItem
  simp only [texts_one, texts_two, comma_eq]
  generalize i.tag = t
  by_cases h1 : t = c! "comment"
  · subst h1
    rw [if_pos rfl, show headerEach.filter (fun h => h.1 = c! "comment") = [(c! "comment", c! "line", c! "COM ")] by decide,
      show headerAll.filter (fun h => h.1 = c! "comment") = [] by decide]
    simp only [List.flatMap_cons, List.flatMap_nil, List.map_nil, List.append_nil]
  rw [if_neg h1]
  by_cases h2 : t = c! "observatory"
  · subst h2
    rw [if_pos rfl, show headerEach.filter (fun h => h.1 = c! "observatory") = [(c! "observatory", c! "mpcCode", c! "COD ")] by decide,
      show headerAll.filter (fun h => h.1 = c! "observatory") = [] by decide]
    simp only [List.flatMap_cons, List.flatMap_nil, List.map_nil, List.append_nil]
  rw [if_neg h2]
  by_cases h3 : t = c! "telescope"
  · subst h3
    rw [if_pos rfl, show headerEach.filter (fun h => h.1 = c! "telescope") = [(c! "telescope", c! "name", c! "TEL ")] by decide,
      show headerAll.filter (fun h => h.1 = c! "telescope") = [] by decide]
    simp only [List.flatMap_cons, List.flatMap_nil, List.map_nil, List.append_nil]
  rw [if_neg h3]
  by_cases h4 : t = c! "submitter"
  · subst h4
    rw [if_pos rfl, show headerEach.filter (fun h => h.1 = c! "submitter") = [] by decide,
      show headerAll.filter (fun h => h.1 = c! "submitter") = [(c! "submitter", [c! "name", c! "institution"], c! "CON ")] by decide]
    rfl
  rw [if_neg h4]
  by_cases h5 : t = c! "observers"
  · subst h5
    rw [if_pos rfl, show headerEach.filter (fun h => h.1 = c! "observers") = [] by decide,
      show headerAll.filter (fun h => h.1 = c! "observers") = [(c! "observers", [c! "name"], c! "OBS ")] by decide]
    rfl
  rw [if_neg h5]
  by_cases h6 : t = c! "measurers"
  · subst h6
    rw [if_pos rfl, show headerEach.filter (fun h => h.1 = c! "measurers") = [] by decide,
      show headerAll.filter (fun h => h.1 = c! "measurers") = [(c! "measurers", [c! "name"], c! "MEA ")] by decide]
    rfl
  rw [if_neg h6]
  have f1 : headerEach.filter (fun h => h.1 = t) = [] := by
    rw [List.filter_eq_nil_iff]
    intro x hx
    have : x.1 = c! "comment" ∨ x.1 = c! "observatory" ∨ x.1 = c! "telescope" := by
      have : ∀ x ∈ headerEach, x.1 = c! "comment" ∨ x.1 = c! "observatory" ∨ x.1 = c! "telescope" := by decide
      exact this x hx
    simp only [decide_eq_true_eq]
    rintro rfl
    rcases this with h | h | h
    · exact h1 h
    · exact h2 h
    · exact h3 h
  have f2 : headerAll.filter (fun h => h.1 = t) = [] := by
    rw [List.filter_eq_nil_iff]
    intro x hx
    have : x.1 = c! "submitter" ∨ x.1 = c! "observers" ∨ x.1 = c! "measurers" := by
      have : ∀ x ∈ headerAll, x.1 = c! "submitter" ∨ x.1 = c! "observers" ∨ x.1 = c! "measurers" := by decide
      exact this x hx
    simp only [decide_eq_true_eq]
    rintro rfl
    rcases this with h | h | h
    · exact h4 h
    · exact h5 h
    · exact h6 h
  rw [f1, f2]; rfl

theorem print_run (l : Str) (s : Out) : print l s = .ok () { s with out := s.out ++ [l] } := rfl

theorem gives_context (e : Elem) : Gives (processObsContext e) ⟨headerLines e, [], none⟩ := by
  unfold processObsContext
  rw [context_lines]
  generalize headerLines e = l
  intro s
  have : ∀ (l : List Str) (s : Out), each print l s = .ok () { s with out := s.out ++ l } := by
    intro l
    induction l with
    | nil => intro s; simp [each, pure, EStateM.pure]
    | cons x l ih =>
      intro s
      simp only [each]
      rw [bindW (print_run x s), ih]
      simp
  rw [this]; simp [res]

/-! ### blocks -/

/-- what the tables allow -/
structure Kinds (tabs : Master.Tables) : Prop where
  ades : ∃ l, dictGet tabs.allowed (c! "ades") = some l ∧ c! "obsBlock" ∈ l ∧ ∀ t ∈ rootKinds, t ∈ l
  block : ∃ l, dictGet tabs.allowed (c! "obsBlock") = some l ∧ c! "obsContext" ∈ l ∧ c! "obsData" ∈ l
  data : ∃ l, dictGet tabs.allowed (c! "obsData") = some l ∧ ∀ t ∈ blockKinds, t ∈ l

theorem ades_kinds : Kinds Master.adesTables :=
  ⟨⟨_, rfl, by decide +kernel, by decide +kernel⟩, ⟨_, rfl, by decide +kernel, by decide +kernel⟩, ⟨_, rfl, by decide +kernel⟩⟩

def dictOf (e : Elem) : Str × Dict := (e.tag, ToPsv.subDict e)

theorem elem_run (f : Bool) (e : Elem) (s : Out) : processDataElement f e s = .ok () { s with dataDicts := (if f then [] else s.dataDicts) ++ [dictOf e] } := rfl

/-- the observations of one `obsData` -/
theorem data_run {tabs : Master.Tables} (ht : Kinds tabs) {t : Str} (hk : t ∈ blockKinds) : ∀ (es : List Elem), (∀ e ∈ es, e.tag = t) →
    (∀ s : Out, processObsData tabs (some t) es s = .ok (some t) { s with dataDicts := s.dataDicts ++ es.map dictOf }) ∧
    ∀ s : Out, es ≠ [] → processObsData tabs none es s = .ok (some t) { s with dataDicts := es.map dictOf }
  | [], _ => ⟨fun s => by simp [processObsData, pure, EStateM.pure], fun s h => absurd rfl h⟩
  | e :: es, h => by
    obtain ⟨i1, -⟩ := data_run ht hk es fun x hx => h x (by simp [hx])
    obtain ⟨l, d1, d2⟩ := ht.data
    have he := h e (by simp)
    constructor
    · intro s
      unfold processObsData
      rw [if_neg (by simp [he]), bindW (elem_run false e s), i1]
      simp
    · intro s _
      unfold processObsData
      rw [bindW (liftW (item_of d1)), if_neg (by rw [he]; exact fun hx => hx (d2 t hk)), bindW (elem_run true e s), he, i1]
      simp

/-- the state of a block's walk: nothing seen, or observations of kind `t` -/
theorem block_run {tabs : Master.Tables} (ht : Kinds tabs) (o : Opts) {t : Str} (hk : t ∈ blockKinds) : ∀ (ks : List Elem),
    (∀ d ∈ ks, d.tag = c! "obsContext" ∨ d.tag = c! "obsData") → (∀ e ∈ (ks.filter fun d => d.tag = c! "obsData").flatMap Elem.kids, e.tag = t) →
    let hs := if o.noHeader then [] else (ks.filter fun d => d.tag = c! "obsContext").flatMap headerLines
    let es := (ks.filter fun d => d.tag = c! "obsData").flatMap Elem.kids
    (∀ s : Out, processObsBlock o tabs (some t) ks s = .ok () ⟨s.dataDicts ++ es.map dictOf, s.out ++ hs, s.msgs⟩) ∧
    ∀ s : Out, processObsBlock o tabs none ks s = .ok () ⟨if es = [] then s.dataDicts else es.map dictOf, s.out ++ hs, s.msgs⟩
  | [], _, _ => by
    constructor <;> intro s <;> simp [processObsBlock, pure, EStateM.pure]
  | d :: ks, h1, h2 => by
    obtain ⟨i1, i2⟩ := block_run ht o hk ks (fun x hx => h1 x (by simp [hx])) (fun e he => h2 e (by
      rw [List.mem_flatMap] at he ⊢
      obtain ⟨x, hx, hx2⟩ := he
      exact ⟨x, by rw [List.mem_filter] at hx ⊢; exact ⟨List.mem_cons_of_mem _ hx.1, hx.2⟩, hx2⟩))
    obtain ⟨l, b1, b2, b3⟩ := ht.block
    rcases h1 d (by simp) with hd | hd
    · have e1 : ((d :: ks).filter fun d => d.tag = c! "obsContext") = d :: ks.filter fun d => d.tag = c! "obsContext" := by
        rw [List.filter_cons_of_pos]; simpa using hd
      have e2 : ((d :: ks).filter fun d => d.tag = c! "obsData") = ks.filter fun d => d.tag = c! "obsData" := by
        rw [List.filter_cons_of_neg]; rw [hd]; decide
      simp only [e1, e2, List.flatMap_cons]
      have step : ∀ (x : Option Str) (s : Out), processObsBlock o tabs x (d :: ks) s = processObsBlock o tabs x ks { s with out := s.out ++ if o.noHeader then [] else headerLines d } := by
        intro x s
        rw [processObsBlock, bindW (liftW (item_of b1)), if_neg (by rw [hd]; exact fun hx => hx b2)]
        cases ho : o.noHeader with
        | false =>
          rw [if_pos ⟨hd, rfl⟩, bindW ((gives_context d s).trans (res_ok rfl))]
          simp
        | true =>
          rw [if_neg (by simp), if_neg (by rw [hd]; decide)]
          simp
      constructor
      · intro s
        rw [step, i1]
        cases o.noHeader <;> simp
      · intro s
        rw [step, i2]
        cases o.noHeader <;> simp
    · have e1 : ((d :: ks).filter fun d => d.tag = c! "obsContext") = ks.filter fun d => d.tag = c! "obsContext" := by
        rw [List.filter_cons_of_neg]; rw [hd]; decide
      have e2 : ((d :: ks).filter fun d => d.tag = c! "obsData") = d :: ks.filter fun d => d.tag = c! "obsData" := by
        rw [List.filter_cons_of_pos]; simpa using hd
      have hdk : ∀ e ∈ d.kids, e.tag = t := fun e he => h2 e (by rw [e2, List.flatMap_cons]; simp [he])
      obtain ⟨j1, j2⟩ := data_run ht hk d.kids hdk
      simp only [e1, e2, List.flatMap_cons]
      have step : ∀ (x y : Option Str) (s s' : Out), processObsData tabs x d.kids s = .ok y s' → processObsBlock o tabs x (d :: ks) s = processObsBlock o tabs y ks s' := by
        intro x y s s' hx
        rw [processObsBlock, bindW (liftW (item_of b1)), if_neg (by rw [hd]; exact fun hx => hx b3), if_neg (by rw [hd]; simp), if_pos hd, bindW hx]
      constructor
      · intro s
        rw [step _ _ _ _ (j1 s), i1]
        simp
      · intro s
        by_cases hk0 : d.kids = []
        · rw [step none none s s (by rw [hk0]; rfl), i2, hk0]
          simp
        · rw [step _ _ _ _ (j2 s hk0), i1]
          simp [hk0]

/-! ### documents -/

/-- a child of the root -/
def WellChild (c : Elem) : Prop := WellBlock c ∨ c.tag ∈ rootKinds

/-- what a child of the root comes to -/
def childOut (o : Opts) (rec : Elem → Outcome) (c : Elem) : List Outcome :=
  if c.tag = c! "obsBlock" then ⟨if o.noHeader then [] else (contextsOf c).flatMap headerLines, [], none⟩ :: (observationsOf c).map rec else [rec c]

/-- everything from here to the end of the run -/
def rest (o : Opts) (tabs : Master.Tables) (last : Option Str) (ks : List Elem) : W Unit := processChildren o tabs last ks >>= fun _ => printDataDicts o

def res' (s : Out) (ds : List (Str × Dict)) (r : Outcome) : EStateM.Result PyErr Out Unit := res { s with dataDicts := ds } r

theorem bind_res' {x : W Unit} {f : Unit → W Unit} {s : Out} {a b : Outcome} (h : x s = res s a)
    (h' : ∀ s', s'.dataDicts = s.dataDicts → ∃ ds, f () s' = res' s' ds b) : ∃ ds, (x >>= f) s = res' s ds (joined [a, b]) := by
  rw [show joined [a, b] = if a.raised = none then ⟨a.lines ++ b.lines, a.msgs ++ b.msgs, b.raised⟩ else a by rw [joined]; simp only [joined_one]]
  cases ha : a.raised with
  | none =>
    rw [res_ok ha] at h
    obtain ⟨ds, hf⟩ := h' { s with out := s.out ++ a.lines, msgs := s.msgs ++ a.msgs } rfl
    refine ⟨ds, ?_⟩
    rw [bindW h, hf, if_pos rfl]
    unfold res' res
    cases b.raised <;> simp [List.append_assoc]
  | some e =>
    rw [res_err ha] at h
    simp only [reduceCtorEq, if_false]
    refine ⟨s.dataDicts, ?_⟩
    rw [res', res_err ha]
    simp [bind, EStateM.bind, h]

theorem root_not_block {t : Str} (h : t ∈ rootKinds) : t ≠ c! "obsBlock" := by
  have : ∀ t ∈ rootKinds, t ≠ c! "obsBlock" := by decide
  exact this t h

theorem rest_run {tabs : Master.Tables} (ht : Kinds tabs) (o : Opts) : ∀ (ks : List Elem) (last : Option Str) (es : List Elem) (s : Out), (∀ c ∈ ks, WellChild c) →
    s.dataDicts = es.map dictOf → ∃ ds, rest o tabs last ks s = res' s ds (joined (es.map (recordOut o) ++ ks.flatMap (childOut o (recordOut o))))
  | [], last, es, s, _, hs => ⟨s.dataDicts, by
      simp only [rest, processChildren, pure_bind, List.flatMap_nil, List.append_nil]
      exact gives_dicts hs⟩
  | c :: ks, last, es, s, h, hs => by
    have hks : ∀ c ∈ ks, WellChild c := fun x hx => h x (by simp [hx])
    obtain ⟨l, a1, a2, a3⟩ := ht.ades
    by_cases hb : c.tag = c! "obsBlock"
    · rcases h c (by simp) with hw | hw
      swap
      · exact absurd hb (root_not_block hw)
      obtain ⟨t, t1, t2⟩ := hw.kind
      have hrun := (block_run ht o t1 c.kids hw.kids t2).2
      have e0 : rest o tabs last (c :: ks) s = (printDataDicts o >>= fun _ => (processObsBlock o tabs none c.kids >>= fun _ => rest o tabs (some (c! "obsBlock")) ks)) s := by
        unfold rest
        rw [processChildren]
        simp only [bind_assoc]
        rw [bindW (liftW (item_of a1)), if_neg (by rw [hb]; exact fun hx => hx a2), if_pos hb]
        simp only [bind_assoc]
      rw [e0, List.flatMap_cons, joined_append]
      refine bind_res' (gives_dicts hs) fun s' hs' => ?_
      obtain ⟨ds, hr⟩ := rest_run ht o ks (some (c! "obsBlock")) (observationsOf c)
        ⟨(observationsOf c).map dictOf, s'.out ++ (if o.noHeader then [] else (contextsOf c).flatMap headerLines), s'.msgs⟩ hks rfl
      refine ⟨ds, ?_⟩
      have hrun' : processObsBlock o tabs none c.kids s' = .ok () ⟨if observationsOf c = [] then s'.dataDicts else (observationsOf c).map dictOf,
        s'.out ++ (if o.noHeader then [] else (contextsOf c).flatMap headerLines), s'.msgs⟩ := hrun s'
      rw [if_neg hw.seen] at hrun'
      rw [bindW hrun']
      refine hr.trans ?_
      unfold childOut
      rw [if_pos hb, List.cons_append, joined]
      simp only [if_true, List.nil_append]
      unfold res' res
      cases (joined ((observationsOf c).map (recordOut o) ++ ks.flatMap (childOut o (recordOut o)))).raised <;> simp [List.append_assoc]
    · have hw : c.tag ∈ rootKinds := by
        rcases h c (by simp) with hw | hw
        · exact absurd hw.tag hb
        · exact hw
      have hc : childOut o (recordOut o) c = [recordOut o c] := by rw [childOut, if_neg hb]
      rw [List.flatMap_cons, hc]
      by_cases hl : last ≠ some c.tag
      · have e0 : rest o tabs last (c :: ks) s = (printDataDicts o >>= fun _ => (processDataElement true c >>= fun _ => rest o tabs (some c.tag) ks)) s := by
          unfold rest
          rw [processChildren]
          simp only [bind_assoc]
          rw [bindW (liftW (item_of a1)), if_neg (fun hx => hx (a3 _ hw)), if_neg hb, if_pos hl]
          simp only [bind_assoc]
        rw [e0, joined_append]
        refine bind_res' (gives_dicts hs) fun s' hs' => ?_
        obtain ⟨ds, hr⟩ := rest_run ht o ks (some c.tag) [c] { s' with dataDicts := [dictOf c] } hks rfl
        exact ⟨ds, by rw [bindW (elem_run true c s')]; exact hr⟩
      · have e0 : rest o tabs last (c :: ks) s = (processDataElement false c >>= fun _ => rest o tabs (some c.tag) ks) s := by
          unfold rest
          rw [processChildren]
          simp only [bind_assoc]
          rw [bindW (liftW (item_of a1)), if_neg (fun hx => hx (a3 _ hw)), if_neg hb, if_neg hl]
          simp only [bind_assoc]
        obtain ⟨ds, hr⟩ := rest_run ht o ks (some c.tag) (es ++ [c]) { s with dataDicts := s.dataDicts ++ [dictOf c] } hks (by simp [hs])
        refine ⟨ds, ?_⟩
        rw [e0, bindW (elem_run false c s)]
        refine hr.trans ?_
        simp [res', List.append_assoc]

theorem document_run {tabs : Master.Tables} (ht : Kinds tabs) (o : Opts) {root : Elem} (hr : root.tag = c! "ades") (h : ∀ c ∈ root.kids, WellChild c) :
    xmltompc80col o tabs root = joined (root.kids.flatMap (childOut o (recordOut o))) := by
  obtain ⟨ds, h1⟩ := rest_run ht o root.kids none [] ⟨[], [], []⟩ h rfl
  have e : processAdesElement o tabs root ⟨[], [], []⟩ = rest o tabs none root.kids ⟨[], [], []⟩ := by
    unfold processAdesElement
    rw [if_neg (fun hx => hx hr)]
    rfl
  unfold xmltompc80col
  rw [e, h1]
  simp only [List.map_nil, List.nil_append]
  generalize joined (root.kids.flatMap (childOut o (recordOut o))) = r
  obtain ⟨l, m, x⟩ := r
  cases x <;> simp [res', res]
end Verif.ToMpc80
