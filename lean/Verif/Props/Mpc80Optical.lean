import Verif.Lemmas.Mpc80Second
import Verif.Lemmas.PsvRun
/-
  C38: files of optical observations in the 80-column format.
-/
namespace Verif
open Verif.Mpc80 Verif.PackUtil Verif.Spec.Mpc80 Verif.Xml
open Verif.Spec hiding Item Group fileText Group.lines

/-! ### one observation -/

theorem kind_optical {o : Optical} (h : o.Valid) {item : Item} (hc : item.get? (c! "code") = some (.str [o.code])) (hV : o.code = 'V' → ∃ p, item.get? (c! "pos3") = some (.str p) ∧ strip p ≠ []) :
    kindOfItem item = some (.elem [o.code] false) := by
  unfold kindOfItem
  rw [str_ok.2 hc]
  by_cases hv : o.code = 'V'
  · obtain ⟨p, hp1, hp2⟩ := hV hv
    have : codeType [o.code] = some .rover := by rw [hv]; decide
    simp only [this, str_ok.2 hp1, hp2, if_false]
  · have : codeType [o.code] = some .optical ∨ codeType [o.code] = some .offset ∨ codeType [o.code] = some .occultation ∨ codeType [o.code] = some .satellite := by
      have hh := h.code
      revert hh hv
      generalize o.code = c
      have : ∀ c ∈ c! "A PeCBTMcEOHNnXSV", c ≠ 'V' →
        codeType [c] = some .optical ∨ codeType [c] = some .offset ∨ codeType [c] = some .occultation ∨ codeType [c] = some .satellite := by decide
      exact fun a b => this c b a
    rcases this with h | h | h | h <;> simp [h]

theorem leaf_cell (x t : Str) : leafOf x t = .mk x (normText (some t)) [] [] := by
  unfold leafOf normText
  split <;> simp_all

theorem elem_gives {lx : Lxml} {al : Allowed} (hn : Names lx) (ht : lx.Accepts (c! "optical") none []) {item : Item} {code : Str} (hcode : code ≠ c! "0") (hc : item.get? (c! "code") = some (.str code))
    (hk : kindOfItem item = some (.elem code false)) {cs : List Cell} (hw : work al lx item code false = .ok cs) : Gives lx al item [madeElem false cs] := by
  refine ⟨by rw [hc]; simpa using hcode, ?_⟩
  obtain ⟨s0, _, h1, h2, h3, h4⟩ := convertItems_eq (al := al) hn
  rw [h4]
  have r0 := kind_run (lx := lx) (al := al) hk (s := s0) (by simp [str_ok.2 hc])
  rw [flush_idle h3] at r0
  simp only at r0
  obtain ⟨s1, k1, k2, k3⟩ := elem_run (b := false) ht hw h1
  simp only [steps, step, r0]
  simp only [runC, k1, reduceCtorEq, if_false, k2.close]
  simp [closeAll, Frame.add, Frame.close, adesDoc]

theorem gives_optical {lx : Lxml} (hn : Names lx) (ht : lx.Accepts (c! "optical") none []) {o : Optical} (h : o.Valid) {pl : Option Place}
    (hV : o.code = 'V' → ∃ p, pl = some p ∧ strip p.pos3 ≠ []) {time ra dec : Str} (hr : o.Reading time ra dec)
    (ha : ∀ x ∈ o.values (placeVals pl) time ra dec, lx.Accepts x.1 (some x.2) []) :
    Gives lx Sample80.realAllowed (addPlace (lineItem o time ra dec) pl) [o.elem (placeVals pl) time ra dec] := by
  have hc : (addPlace (lineItem o time ra dec) pl).get? (c! "code") = some (.str [o.code]) := by
    rw [get_addPlace (by decide)]; exact (get_line h).1
  obtain ⟨ref, h1, h2⟩ := opticalItem_eq h (pl := pl) (time := time) (ra := ra) (dec := dec)
  have h3 := elements_eq h hr h1 (pl := pl)
  have hw : work Sample80.realAllowed lx (addPlace (lineItem o time ra dec) pl) [o.code] false =
      .ok ((o.values (placeVals pl) time ra dec).map fun i => ⟨i.1, normText (some i.2), [], []⟩) := by
    unfold work
    rw [if_neg (by simp), bindOk]
    exact ⟨_, h2, by rw [h3]; exact makeElementList_ok ha⟩
  have hcode : [o.code] ≠ c! "0" := by
    intro e
    have := h.code
    simp only [List.cons.injEq, and_true] at e
    rw [e] at this
    revert this; decide
  have := elem_gives hn ht hcode hc (kind_optical h hc ?_) hw
  · refine (?_ : [madeElem false _] = [o.elem (placeVals pl) time ra dec]) ▸ this
    simp only [madeElem, Optical.elem, nodeOf, tagOfKind, List.map_map, Function.comp_def, leaf_cell]
    simp
  · intro hv
    obtain ⟨p, rfl, hp⟩ := hV hv
    exact ⟨p.pos3, by simp [addPlace, get?_put], hp⟩

/-! ### reading the lines -/

/-- the lines are read as one item, whatever follows -/
def TakenAs (ls : List Str) (item : Item) : Prop :=
  ∀ (ns : List (Nat × Str)), ns.map (·.2) = ls.map (· ++ ['\n']) → ∀ (st : PState (List (Item × Nat))), st.oldCode = c! "None" → ∀ ge rest,
    ∃ st', st'.oldCode = c! "None" ∧ st'.user.map (·.1) = st.user.map (·.1) ++ [item] ∧ parseLoop logCallback ge st (ns ++ rest) = parseLoop logCallback ge st' rest

theorem not_blank {l : Str} {c : Char} (hc : c ∈ l) (hb : c ≠ ' ') (hn : '\n' ∉ l) : (reMatch blankRegex (l ++ ['\n']).dropLast).isSome = false := by
  rw [List.dropLast_concat, Bool.eq_false_iff]
  intro h
  obtain ⟨k, e | e⟩ := blank_match.1 h
  · rw [e] at hc; exact hb (List.mem_replicate.1 hc).2
  · rw [e] at hn; simp at hn

theorem parseLine_data {st : PState (List (Item × Nat))} {n : Nat} {l : Str} {item : Item} {c : Char} (hc : c ∈ l) (hb : c ≠ ' ') (hn : '\n' ∉ l) (hd : decode80ColumnDataLine l = .ok item) :
    parseLine logCallback st n (l ++ ['\n']) = if (body logCallback st n l item).2 = some .runtimeError then ({ (body logCallback st n l item).1 with out := (body logCallback st n l item).1.out ++ [.refused n] }, none)
      else body logCallback st n l item := by
  unfold parseLine
  rw [not_blank hc hb hn, List.dropLast_concat]
  simp only [hd, Bool.false_eq_true, if_false]

theorem taken_single {l : Str} {item : Item} {c x : Char} (hx : x ∈ l) (hb : x ≠ ' ') (hn : '\n' ∉ l) (hd : decode80ColumnDataLine l = .ok item)
    (hc : item.get? (c! "code") = some (.str [c])) (h1 : c ∉ c! "RSVrsv") : TakenAs [l] item := by
  intro ns hns st hold ge rest
  match ns, hns with
  | [(n, l')], hns =>
    simp at hns
    subst hns
    have a : ∀ t : Str, c ∉ t → inStr [c] t = false := by
      intro t ht
      rw [Bool.eq_false_iff]
      intro e; exact ht ((inStr_one _ _).1 e)
    simp only [List.mem_cons, List.not_mem_nil, or_false, not_or] at h1
    have hbody := body_single (cb := logCallback) (st := st) (n := n) (dl := l) (line := item) (c := c) hold hc (a _ (by simp [h1])) (a _ (by simp [h1])) (a _ (by simp [h1]))
    refine ⟨⟨c! "None", [], st.user ++ [(item, n)], st.out ++ idMsgs n l [c] ++ []⟩, rfl, by simp, ?_⟩
    simp only [List.cons_append, List.nil_append, parseLoop]
    rw [parseLine_data hx hb hn hd, hbody]
    simp only [logCallback, reduceCtorEq, if_false]

theorem taken_pair {l1 l2 : Str} {a b item : Item} {c d x y : Char} (hx : x ∈ l1) (hb : x ≠ ' ') (hn : '\n' ∉ l1) (hd : decode80ColumnDataLine l1 = .ok a)
    (hx2 : y ∈ l2) (hb2 : y ≠ ' ') (hn2 : '\n' ∉ l2) (hd2 : decode80ColumnDataLine l2 = .ok b)
    (hc : a.get? (c! "code") = some (.str [c])) (hc2 : b.get? (c! "code") = some (.str [d])) (h1 : [c] ∈ firstCodes) (h2 : [d] = lowerStr [c]) (hcomb : combine [c] a b = .ok item) :
    TakenAs [l1, l2] item := by
  intro ns hns st hold ge rest
  match ns, hns with
  | [(n, l1'), (m, l2')], hns =>
    simp at hns
    obtain ⟨rfl, rfl⟩ := hns
    have hcc : inStr [c] (c! "RSV") = true ∧ inStr [c] (c! "rsv") = false ∧ inStr [c] (c! "RrSsVv") = true := by
      simp [firstCodes] at h1
      rcases h1 with rfl | rfl | rfl <;> decide
    have b1 := body_first (cb := logCallback) (st := st) (n := n) (dl := l1) (line := a) (c := c) hold hc hcc.1 hcc.2.1 hcc.2.2
    have b2 := body_second (cb := logCallback) (n := m) (dl := l2) (st := ⟨[c], a, st.user, st.out ++ idMsgs n l1 [c]⟩) (line := b) (c := d) h1 hc2 h2
    simp only [hcomb] at b2
    refine ⟨⟨c! "None", [], st.user ++ [(item, m)], st.out ++ idMsgs n l1 [c] ++ idMsgs m l2 [d] ++ []⟩, rfl, by simp, ?_⟩
    simp only [List.cons_append, List.nil_append, parseLoop]
    rw [parseLine_data hx hb hn hd, b1]
    simp only [reduceCtorEq, if_false]
    rw [parseLine_data hx2 hb2 hn2 hd2, b2]
    simp only [logCallback, reduceCtorEq, if_false]

theorem taken_all : ∀ {us : List (List Str)} {items : List Item}, Spec.Each TakenAs us items → ∀ (ns : List (Nat × Str)), ns.map (·.2) = us.flatten.map (· ++ ['\n']) →
    ∀ (st : PState (List (Item × Nat))), st.oldCode = c! "None" → ∃ st', st'.user.map (·.1) = st.user.map (·.1) ++ items ∧ parseLoop logCallback none st ns = (st', none)
  | _, _, .nil, ns, hns, st, hold => by
    simp at hns
    subst hns
    exact ⟨st, by simp, rfl⟩
  | u :: us, i :: items, .cons h hs, ns, hns, st, hold => by
    rw [List.flatten_cons, List.map_append] at hns
    obtain ⟨n1, n2, rfl, e1, e2⟩ := List.map_eq_append_iff.1 hns
    obtain ⟨st1, k1, k2, k3⟩ := h n1 e1 st hold none n2
    obtain ⟨st2, l1, l2⟩ := taken_all hs n2 e2 st1 k1
    exact ⟨st2, by rw [l1, k2]; simp, by rw [k3, l2]⟩

/-! ### observations -/

theorem line_noBreak {o : Optical} (h : o.Valid) {b : Char} (hb : b = '\n' ∨ b = '\r') : b ∉ o.line := by
  have hnum : numCh b = false := by rcases hb with rfl | rfl <;> decide
  have hsp : isSpace b = true := by rcases hb with rfl | rfl <;> decide
  have hbl : b ≠ ' ' := by rcases hb with rfl | rfl <;> decide
  have plain : ∀ {t : Str}, Plain t → b ∉ t := fun ht hm => hbl (ht b hm hsp)
  have one : ∀ {c : Char}, c = ' ' ∨ isSpace c = false → b ≠ c := by
    rintro c (rfl | hc) rfl
    · exact hbl rfl
    · rw [hsp] at hc; simp at hc
  have hnote : o.note ≠ b := by
    have : noteFor o o.note := h.note
    exact noteFor_ne this hb
  have hcode : o.code ≠ b := by
    rintro rfl
    have := h.code
    rcases hb with e | e <;> rw [e] at this <;> revert this <;> decide
  have hd := head_noBreak (disc := o.disc) (code := o.code) h.desig h.noExt.1 h.noExt.2 h.date h.disc hb hnote hcode
  have hc : ∀ w r, b ∉ Spec.column w (Sexagesimal.text r) := fun w r hm => by
    have := column_chars (sex_text_chars r) _ hm; rw [hnum] at this; simp at this
  have hspare : b ∉ o.spare := by rcases hb with rfl | rfl; exact h.spare.2.1; exact h.spare.2.2
  have href : b ∉ o.ref.columns := by
    rcases hb with rfl | rfl
    · exact fun hm => ref_plain h.ref _ hm rfl
    · have hr := h.ref
      cases ho : o.ref with
      | other t => rw [ho] at hr; exact plain hr.2.2
      | page r =>
        have hdg : ∀ c ∈ digits10, c ≠ '\r' := by decide
        have hb' : ∀ k < 62, b62 k ≠ '\r' := by decide
        have hf : ∀ k n c, c ∈ fixed k n → c ≠ '\r' := fun k n c hc => hdg c (fixed_mem k n c hc)
        have h4 : ∀ n c, c ∈ b62x4 n → c ≠ '\r' := by
          intro n c hc
          simp only [b62x4, List.mem_cons, List.not_mem_nil, or_false] at hc
          rcases hc with rfl | rfl | rfl | rfl <;> exact hb' _ (Nat.mod_lt _ (by decide))
        have hl : ∀ k < 26, letter k ≠ '\r' := by decide
        rw [ho] at hr
        intro hm
        cases r with
        | mpc n =>
          simp only [RefCols.columns, Ref.columns] at hm
          split at hm
          · exact hf _ _ _ hm rfl
          · split at hm
            · simp only [List.mem_cons] at hm
              rcases hm with hm | hm
              · revert hm; decide
              · exact hf _ _ _ hm rfl
            · simp only [List.mem_cons] at hm
              rcases hm with hm | hm
              · revert hm; decide
              · exact h4 _ _ hm rfl
        | mps n =>
          simp only [RefCols.columns, Ref.columns] at hm
          split at hm
          · simp only [List.mem_cons] at hm
            rcases hm with hm | hm
            · exact hl _ (by omega) hm.symm
            · exact hf _ _ _ hm rfl
          · simp only [List.mem_cons] at hm
            rcases hm with hm | hm
            · revert hm; decide
            · exact h4 _ _ hm rfl
  unfold Optical.line
  simp only [List.append_assoc]
  rw [← List.append_assoc, ← List.append_assoc, List.mem_append, not_or]
  refine ⟨hd, ?_⟩
  simp only [List.mem_append, List.mem_cons, List.not_mem_nil, or_false, not_or]
  refine ⟨hc _ _, ?_, hspare, plain h.mag.2, ⟨one h.band, one h.cat⟩, href, fun hm => ?_⟩
  · rw [Sex.column_sign, List.mem_cons, not_or]
    exact ⟨by rcases hb with rfl | rfl <;> cases o.south <;> decide, hc _ _⟩
  · have := h.stn.2 _ hm; rw [hsp] at this; simp at this

/-- every data line has a character that is not blank: the point of the date -/
theorem point_mem {o : Optical} (disc note code : Char) (rest : Str) : '.' ∈ dataLine o.desig disc note code o.date rest := by
  simp [dataLine, ObsDate.column, List.rightpad]

theorem line_eq (o : Optical) : ∃ rest, o.line = dataLine o.desig o.disc o.note o.code o.date rest := by
  refine ⟨Spec.column 12 o.ra.text ++ Spec.column 12 ((if o.south then '-' else '+') :: o.dec.text) ++ o.spare ++ o.mag ++ [o.band, o.cat] ++ o.ref.columns ++ o.stn, ?_⟩
  simp only [Optical.line, dataLine, List.append_assoc]

/-- lxml accepts the names and texts of the elements for this observation -/
def Spec.Mpc80.Obs.Accepted (lx : Lxml) (b : Obs) : Prop := ∀ e, b.Element e → ∀ x ∈ e.kids, lx.Accepts x.tag x.text []

/-- C38: an observation that the format allows - one line, or two - is taken as one observation and converted to one `optical` element, whose values
    say what the columns say; time and angles are right up to the roundings stated -/
theorem C38_observation {lx : Lxml} (hn : Names lx) (ht : lx.Accepts (c! "optical") none []) {b : Obs} (h : b.Valid) (ha : b.Accepted lx) :
    ∃ item e, TakenAs b.lines item ∧ b.Element e ∧ Gives lx Sample80.realAllowed item [e] := by
  have acc : ∀ {o : Optical} {pl : Option Place} {time ra dec : Str}, (∀ x ∈ (o.elem (placeVals pl) time ra dec).kids, lx.Accepts x.tag x.text []) →
      ∀ x ∈ o.values (placeVals pl) time ra dec, lx.Accepts x.1 (some x.2) [] := by
    intro o pl time ra dec hh x hx
    have := hh (leafOf x.1 x.2) (List.mem_map.2 ⟨x, hx, rfl⟩)
    obtain ⟨a1, a2, a3⟩ := this
    refine ⟨a1, a2, ?_⟩
    intro t et hne
    injection et with et
    subst et
    exact a3 x.2 (by simp [leafOf, hne, Elem.text]) hne
  cases b with
  | ground o =>
    obtain ⟨ho, h1, h2⟩ := h
    obtain ⟨time, ra, dec, hc, hr⟩ := reading ho
    obtain ⟨rest, el⟩ := line_eq o
    refine ⟨lineItem o time ra dec, o.elem [] time ra dec, ?_, ⟨time, ra, dec, hr, rfl⟩, ?_⟩
    · refine taken_single (x := '.') (by rw [el]; exact point_mem _ _ _ _) (by decide) (line_noBreak ho (Or.inl rfl)) (decode_line ho hc) (get_line ho).1 ?_
      have : ∀ c ∈ c! "A PeCBTMcEOHNnXSV", c ≠ 'S' → c ≠ 'V' → c ∉ c! "RSVrsv" := by decide
      exact this _ ho.code h1 h2
    · exact gives_optical hn ht ho (pl := none) (fun e => absurd e h2) hr (acc (pl := none) (ha _ ⟨time, ra, dec, hr, rfl⟩))
  | spacecraft o s =>
    obtain ⟨ho, h1, hs⟩ := h
    obtain ⟨time, ra, dec, hc, hr⟩ := reading ho
    obtain ⟨rest, el⟩ := line_eq o
    have hv := sat_vals hs
    refine ⟨addPlace (lineItem o time ra dec) (some (satPlace s)), o.elem s.values time ra dec, ?_, ⟨time, ra, dec, hr, rfl⟩, ?_⟩
    · refine taken_pair (x := '.') (y := '.') (by rw [el]; exact point_mem _ _ _ _) (by decide) (line_noBreak ho (Or.inl rfl)) (decode_line ho hc)
        (by rw [sat_line]; exact point_mem _ _ _ _) (by decide) (sat_noBreak ho hs (Or.inl rfl)) (decode_sat ho hs hc) (get_line ho).1 (d := 's') ?_ (by rw [h1]; decide) (by rw [h1]; decide)
        (combine_sat ho h1 hs)
      have q := head_parts (disc := s.disc) (note := s.note) (code := 's') (rest := Spacecraft.rest o s) ho.desig ho.date
      rw [← sat_line] at q
      simp [secondItem, checked, satItem, commonItem, get?_put, get?_set, q.code]
    · have := gives_optical hn ht ho (pl := some (satPlace s)) (fun e => by rw [h1] at e; simp at e) hr (acc (by rw [hv]; exact ha _ ⟨time, ra, dec, hr, rfl⟩))
      rwa [hv] at this
  | rover o r =>
    obtain ⟨ho, h1, h2, hs⟩ := h
    obtain ⟨time, ra, dec, hc, hr⟩ := reading ho
    obtain ⟨rest, el⟩ := line_eq o
    have hv := rover_vals hs
    obtain ⟨c, hdec⟩ := decode_rover ho h2 hs hc
    refine ⟨addPlace (lineItem o time ra dec) (some (roverPlace r)), o.elem r.values time ra dec, ?_, ⟨time, ra, dec, hr, rfl⟩, ?_⟩
    · refine taken_pair (x := '.') (y := '.') (by rw [el]; exact point_mem _ _ _ _) (by decide) (line_noBreak ho (Or.inl rfl)) (decode_line ho hc)
        (by rw [rover_line]; exact point_mem _ _ _ _) (by decide) (rover_noBreak ho hs (Or.inl rfl)) hdec (get_line ho).1 (d := 'v') ?_ (by rw [h1]; decide) (by rw [h1]; decide)
        (combine_rover ho h1 hs)
      have q := head_parts (disc := r.disc) (note := r.note) (code := 'v') (rest := Rover.rest o r) ho.desig ho.date
      rw [← rover_line] at q
      simp [thirdItem, checked, roverItem, commonItem, get?_put, get?_set, q.code]
    · have := gives_optical hn ht ho (pl := some (roverPlace r)) (fun _ => ⟨_, rfl, by simp only [roverPlace]; rw [strip_trim (number_plain hs.alt.2.1)]; exact hs.alt.2.2⟩) hr
        (acc (by rw [hv]; exact ha _ ⟨time, ra, dec, hr, rfl⟩))
      rwa [hv] at this

/-! ### files -/

/-- a line that neither generator changes -/
def Kept (l : Str) : Prop := '\n' ∉ l ∧ '\r' ∉ l ∧ l.length ≤ 80 ∧ ((reMatch headerRegex (l ++ ['\n'])).isSome = true ∨ ∃ c, l[14]? = some c ∧ c ≠ 'R')

theorem kept_take {l : Str} (h : Kept l) : (l ++ ['\n']).take 81 = l ++ ['\n'] := List.take_of_length_le (by simp; have := h.2.2.1; omega)

theorem noSplit_kept : ∀ {ls : List Str}, (∀ l ∈ ls, Kept l) → ∀ n, (doNotSplitRadar n (ls.map (· ++ ['\n']))).map (·.2) = ls.map (· ++ ['\n'])
  | [], _, _ => rfl
  | l :: ls, h, n => by
    simp only [List.map_cons, doNotSplitRadar, kept_take (h l (by simp)), noSplit_kept (ls := ls) fun x hx => h x (by simp [hx])]

theorem split_kept : ∀ {ls : List Str}, (∀ l ∈ ls, Kept l) → ∀ n, (splitRadar n (ls.map (· ++ ['\n']))).1.map (·.2) = ls.map (· ++ ['\n']) ∧ (splitRadar n (ls.map (· ++ ['\n']))).2.1 = none
  | [], _, _ => ⟨rfl, rfl⟩
  | l :: ls, h, n => by
    obtain ⟨i1, i2⟩ := split_kept (ls := ls) (fun x hx => h x (by simp [hx])) (n + 1)
    have hl := h l (by simp)
    rw [List.map_cons, splitRadar]
    simp only [kept_take hl]
    by_cases hh : (reMatch headerRegex (l ++ ['\n'])).isSome = true
    · rw [if_pos hh]
      exact ⟨by simp [i1], i2⟩
    · rw [if_neg hh]
      obtain ⟨c, h1, h2⟩ := hl.2.2.2.resolve_left hh
      have : (l ++ ['\n'])[14]? = some c := by
        rw [List.getElem?_append_left (List.getElem?_eq_some_iff.1 h1).1]; exact h1
      simp only [parseRadarLine, this, ne_eq, h2, not_false_eq_true, if_true]
      exact ⟨by simp [i1], i2⟩

theorem generator_kept {ls : List Str} (h : ∀ l ∈ ls, Kept l) (nosplit : Bool) : ∃ ns, generator nosplit (ls.map (· ++ ['\n'])) = (ns, none) ∧ ns.map (·.2) = ls.map (· ++ ['\n']) := by
  cases nosplit with
  | true => exact ⟨_, rfl, noSplit_kept h 0⟩
  | false =>
    obtain ⟨h1, h2⟩ := split_kept h 1
    refine ⟨(splitRadar 1 (ls.map (· ++ ['\n']))).1, ?_, h1⟩
    simp only [generator, Bool.false_eq_true, if_false, h2]

theorem fileText_lines {ls : List Str} (h : ∀ l ∈ ls, Kept l) : Psv.fileLines (Psv.universalNewlines (fileText ls)) = ls.map (· ++ ['\n']) := by
  have hr : '\r' ∉ fileText ls := by
    unfold fileText
    simp only [List.mem_flatMap, List.mem_append, List.mem_singleton, not_exists, not_and, not_or]
    exact fun l hl => ⟨(h l hl).2.1, by decide⟩
  rw [Psv.universalNewlines_id hr]
  clear hr
  induction ls with
  | nil => rfl
  | cons l ls ih =>
    have e : fileText (l :: ls) = l ++ '\n' :: fileText ls := by simp [fileText]
    rw [e, Psv.fileLines_line (h l (by simp)).1, ih fun x hx => h x (by simp [hx])]
    rfl

theorem headerWords_eq : headerWords = headerKeys := rfl

theorem header_line {k v : Str} (hk : k ∈ headerWords) (hl : v.length ≤ 76) (hb : noBreak v) : Kept (k ++ [' '] ++ v) ∧ ∃ item, TakenAs [k ++ [' '] ++ v] item ∧ IsHeader item (k, v) := by
  have k3 : k.length = 3 ∧ '\n' ∉ k ∧ '\r' ∉ k ∧ ∃ c ∈ k, c ≠ ' ' := by
    have : ∀ k ∈ headerWords, k.length = 3 ∧ '\n' ∉ k ∧ '\r' ∉ k ∧ ∃ c ∈ k, c ≠ ' ' := by decide
    exact this k hk
  obtain ⟨l3, n1, n2, c, hc, hcb⟩ := k3
  have hn : '\n' ∉ k ++ [' '] ++ v := by simp [n1, hb.1]
  have hr : '\r' ∉ k ++ [' '] ++ v := by simp [n2, hb.2]
  have hlen : (k ++ [' '] ++ v).length ≤ 80 := by simp [l3]; omega
  have t3 : (k ++ [' '] ++ v).take 3 = k := by rw [List.append_assoc, ← l3, List.take_left]
  have g3 : (k ++ [' '] ++ v)[3]? = some ' ' := by rw [List.append_assoc, ← l3, List.getElem?_append_right (by omega)]; simp
  have d4 : (k ++ [' '] ++ v).drop 4 = v := by
    have : (k ++ [' ']).length = 4 := by simp [l3]
    rw [← this, List.drop_left]
  refine ⟨⟨hn, hr, hlen, Or.inl ?_⟩, ?_⟩
  · rw [header_match hn (Or.inr rfl), if_pos ⟨by rw [t3, ← headerWords_eq]; exact hk, g3⟩]; rfl
  · obtain ⟨item, h1, h2, h3, h4⟩ := C27_header (line := k ++ [' '] ++ v) hn hlen (by
      have e : cols (k ++ [' '] ++ v) 1 3 = k := by unfold cols; exact t3
      rw [e, ← headerWords_eq]; exact hk) (by
      have := g3
      have e : ((k ++ [' '] ++ v).drop 3).take 1 = [' '] := by
        rw [List.append_assoc, ← l3, List.drop_left]; rfl
      simpa [cols] using e)
    refine ⟨item, taken_single (x := c) (by simp [hc]) hcb hn h1 h4 (by decide), h4, ?_, ?_⟩
    · rw [h2]; unfold cols; exact congrArg (fun x => some (Val.str x)) t3
    · rw [h3, d4]

theorem kept_data {d : Designation} {disc note code : Char} {t : ObsDate} {rest : Str} (hd : d.Valid) (ht : t.Valid) (hr : rest.length = 48) (hc : code ≠ 'R')
    (h1 : '\n' ∉ dataLine d disc note code t rest) (h2 : '\r' ∉ dataLine d disc note code t rest) : Kept (dataLine d disc note code t rest) := by
  refine ⟨h1, h2, by rw [dataLine_length hd ht hr], Or.inr ⟨code, ?_, hc⟩⟩
  have l := columns_length hd
  simp only [dataLine, List.append_assoc]
  rw [List.getElem?_append_right (by omega), l]
  rfl

theorem kept_obs {b : Obs} (h : b.Valid) : ∀ l ∈ b.lines, Kept l := by
  have first : ∀ {o : Optical}, o.Valid → Kept o.line := by
    intro o ho
    obtain ⟨rest, el⟩ := line_eq o
    have h1 := line_noBreak ho (Or.inl rfl)
    have h2 := line_noBreak ho (Or.inr rfl)
    have hl := (parts ho).len
    rw [el] at h1 h2 hl ⊢
    refine kept_data ho.desig ho.date ?_ ?_ h1 h2
    · simp [dataLine, columns_length ho.desig, date_length ho.date] at hl; omega
    · intro e; have := ho.code; rw [e] at this; revert this; decide
  cases b with
  | ground o => intro l hl; simp [Obs.lines] at hl; subst hl; exact first h.1
  | spacecraft o s =>
    intro l hl
    simp [Obs.lines] at hl
    rcases hl with rfl | rfl
    · exact first h.1
    · have h1 := sat_noBreak h.1 h.2.2 (Or.inl rfl)
      have h2 := sat_noBreak h.1 h.2.2 (Or.inr rfl)
      rw [sat_line] at h1 h2 ⊢
      exact kept_data h.1.desig h.1.date (sat_parts h.1 h.2.2).len (by decide) h1 h2
  | rover o r =>
    intro l hl
    simp [Obs.lines] at hl
    rcases hl with rfl | rfl
    · exact first h.1
    · have h1 := rover_noBreak h.1 h.2.2.2 (Or.inl rfl)
      have h2 := rover_noBreak h.1 h.2.2.2 (Or.inr rfl)
      rw [rover_line] at h1 h2 ⊢
      exact kept_data h.1.desig h.1.date (rover_parts h.1 h.2.2.2).len (by decide) h1 h2

theorem kept_group {g : Group} (h : g.Valid) : ∀ l ∈ g.lines, Kept l := by
  intro l hl
  rw [Spec.Mpc80.Group.lines, List.mem_append, List.mem_map, List.mem_flatMap] at hl
  rcases hl with ⟨x, hx, rfl⟩ | ⟨b, hb, hl⟩
  · obtain ⟨h1, h2, h3⟩ := h.headers x hx
    exact (header_line h1 h2 h3).1
  · exact kept_obs (h.obs b hb) l hl

theorem each_of {α β : Type} {P : α → β → Prop} : ∀ {l : List α}, (∀ a ∈ l, ∃ b, P a b) → ∃ m, Spec.Each P l m
  | [], _ => ⟨[], .nil⟩
  | a :: l, h => by
    obtain ⟨b, hb⟩ := h a (by simp)
    obtain ⟨m, hm⟩ := each_of (l := l) fun x hx => h x (by simp [hx])
    exact ⟨b :: m, .cons hb hm⟩

theorem each_append {α β : Type} {P : α → β → Prop} : ∀ {l l' : List α} {m m' : List β}, Spec.Each P l m → Spec.Each P l' m' → Spec.Each P (l ++ l') (m ++ m')
  | _, _, _, _, .nil, h => h
  | _, _, _, _, .cons h1 h2, h => .cons h1 (each_append h2 h)

theorem each_flatMap {α β γ : Type} {P : α → β → Prop} {f : γ → List α} {g : γ → List β} : ∀ {l : List γ}, (∀ x ∈ l, Spec.Each P (f x) (g x)) → Spec.Each P (l.flatMap f) (l.flatMap g)
  | [], _ => .nil
  | x :: l, h => by
    rw [List.flatMap_cons, List.flatMap_cons]
    exact each_append (h x (by simp)) (each_flatMap fun y hy => h y (by simp [hy]))

/-- the lines of a group, item by item -/
def units (g : Group) : List (List Str) := g.headers.map (fun h => [h.1 ++ [' '] ++ h.2]) ++ g.obs.map Obs.lines

theorem units_flatten (g : Group) : (units g).flatten = g.lines := by
  simp only [units, Spec.Mpc80.Group.lines, List.flatten_append, List.flatMap_def]
  congr 1
  generalize g.headers = l
  induction l <;> simp_all

theorem head_items {l : List (Str × Str)} (h : ∀ x ∈ l, x.1 ∈ headerWords ∧ x.2.length ≤ 76 ∧ noBreak x.2) :
    ∃ items, Spec.Each TakenAs (l.map fun h => [h.1 ++ [' '] ++ h.2]) items ∧ Spec.Each IsHeader items l := by
  induction l with
  | nil => exact ⟨[], .nil, .nil⟩
  | cons x l ih =>
    obtain ⟨items, h1, h2⟩ := ih fun y hy => h y (by simp [hy])
    obtain ⟨a1, a2, a3⟩ := h x (by simp)
    obtain ⟨_, item, h3, h4⟩ := header_line a1 a2 a3
    exact ⟨item :: items, .cons h3 h1, .cons h4 h2⟩

theorem obs_items {lx : Lxml} (hn : Names lx) (ht : lx.Accepts (c! "optical") none []) {l : List Obs} (h : ∀ b ∈ l, b.Valid ∧ b.Accepted lx) :
    ∃ items es, Spec.Each TakenAs (l.map Obs.lines) items ∧ Spec.Each (Gives lx Sample80.realAllowed) items (es.map fun e => [e]) ∧ Spec.Each Obs.Element l es := by
  induction l with
  | nil => exact ⟨[], [], .nil, .nil, .nil⟩
  | cons b l ih =>
    obtain ⟨items, es, h1, h2, h3⟩ := ih fun y hy => h y (by simp [hy])
    obtain ⟨item, e, k1, k2, k3⟩ := C38_observation hn ht (h b (by simp)).1 (h b (by simp)).2
    exact ⟨item :: items, e :: es, .cons k1 h1, .cons k3 h2, .cons k2 h3⟩

theorem group_part {lx : Lxml} (hn : Names lx) (ht : lx.Accepts (c! "optical") none []) {g : Group} (h : g.Valid) (ha : ∀ b ∈ g.obs, b.Accepted lx) (hh : HeadersOk lx g.headers) :
    ∃ (p : Part) (es : List Elem), Spec.Each TakenAs (units g) p.items ∧ p.Ok lx Sample80.realAllowed ∧ p.dataItems ≠ [] ∧ p.elems.flatten ≠ [] ∧
      p.block = ⟨g.headers, es⟩ ∧ Spec.Each Obs.Element g.obs es := by
  obtain ⟨hs, a1, a2⟩ := head_items h.headers
  obtain ⟨ds, es, b1, b2, b3⟩ := obs_items hn ht (fun b hb => ⟨h.obs b hb, ha b hb⟩)
  have fl : (es.map fun e => [e]).flatten = es := by
    clear b2 b3
    induction es <;> simp_all
  have hne : es ≠ [] := by
    rintro rfl
    generalize hq : g.obs = l at b3
    generalize hq2 : ([] : List Elem) = m at b3
    cases b3 with
    | nil => exact h.seen hq
    | cons => simp at hq2
  refine ⟨⟨hs, ds, g.headers, es.map fun e => [e]⟩, es, each_append a1 b1, ⟨a2, b2, h.headed, hh⟩, ?_, ?_, ?_, b3⟩
  · rintro rfl
    generalize hq2 : ([] : List Item) = m at b2
    cases hes : es with
    | nil => exact hne hes
    | cons e es' =>
      rw [hes] at b2
      cases b2
      simp at hq2
  · simpa [fl] using hne
  · simp [Part.block, fl]

theorem groups_parts {lx : Lxml} (hn : Names lx) (ht : lx.Accepts (c! "optical") none []) : ∀ {gs : List Group},
    (∀ g ∈ gs, g.Valid ∧ (∀ b ∈ g.obs, b.Accepted lx) ∧ HeadersOk lx g.headers) →
    ∃ (ps : List Part) (ess : List (List Elem)), Spec.Each TakenAs (gs.flatMap units) (ps.flatMap Part.items) ∧
      (∀ p ∈ ps, p.Ok lx Sample80.realAllowed ∧ p.dataItems ≠ []) ∧ (∀ p ∈ ps, p.elems.flatten ≠ []) ∧
      ps.map (fun p => p.block.elem) = List.zipWith (fun g es => (Block.mk g.headers es).elem) gs ess ∧ Spec.Each (fun g es => Spec.Each Obs.Element g.obs es) gs ess
  | [], _ => ⟨[], [], .nil, by simp, by simp, rfl, .nil⟩
  | g :: gs, h => by
    obtain ⟨ps, ess, h1, h2, h3, h4, h5⟩ := groups_parts hn ht (gs := gs) fun x hx => h x (by simp [hx])
    obtain ⟨g1, g2, g3⟩ := h g (by simp)
    obtain ⟨p, es, k1, k2, k3, k4, k5, k6⟩ := group_part hn ht g1 g2 g3
    refine ⟨p :: ps, es :: ess, ?_, ?_, ?_, ?_, .cons k6 h5⟩
    · rw [List.flatMap_cons, List.flatMap_cons]; exact each_append k1 h1
    · intro q hq
      rcases List.mem_cons.1 hq with rfl | hq
      · exact ⟨k2, k3⟩
      · exact h2 q hq
    · intro q hq
      rcases List.mem_cons.1 hq with rfl | hq
      · exact k4
      · exact h3 q hq
    · simp [h4, k5]

/-- C38: a file made of header lines and observations that the format allows is converted, whether or not radar lines are to be split, to a document with
    one block per group, which has the context the header lines stand for, and one element per observation, in order, that says what its lines say. -/
theorem C38_file {lx : Lxml} (hn : Names lx) (ht : lx.Accepts (c! "optical") none []) {gs : List Group}
    (h : ∀ g ∈ gs, g.Valid ∧ (∀ b ∈ g.obs, b.Accepted lx) ∧ HeadersOk lx g.headers) (nosplit : Bool) :
    ∃ ess : List (List Elem), Spec.Each (fun g es => Spec.Each Obs.Element g.obs es) gs ess ∧
      (mpc80coltoxml lx Sample80.realAllowed nosplit (fileText (gs.flatMap Spec.Mpc80.Group.lines))).doc =
        some (adesDoc (List.zipWith (fun g es => (Block.mk g.headers es).elem) gs ess)) ∧
      (mpc80coltoxml lx Sample80.realAllowed nosplit (fileText (gs.flatMap Spec.Mpc80.Group.lines))).raised = none := by
  obtain ⟨ps, ess, h1, h2, h3, h4, h5⟩ := groups_parts hn ht h
  have hk : ∀ l ∈ gs.flatMap Spec.Mpc80.Group.lines, Kept l := by
    intro l hl
    obtain ⟨g, hg, hl⟩ := List.mem_flatMap.1 hl
    exact kept_group (h g hg).1 l hl
  obtain ⟨ns, n1, n2⟩ := generator_kept hk nosplit
  have hu : (gs.flatMap units).flatten = gs.flatMap Spec.Mpc80.Group.lines := by
    clear * -
    induction gs with
    | nil => rfl
    | cons g gs ih => rw [List.flatMap_cons, List.flatMap_cons, List.flatten_append, ih, units_flatten]
  obtain ⟨st, s1, s2⟩ := taken_all h1 ns (by rw [hu]; exact n2) ⟨c! "None", [], [], []⟩ rfl
  refine ⟨ess, h5, ?_⟩
  refine C37_file nosplit _ (st := st) ?_ ?_
  · rw [fileText_lines hk, n1]
    exact s2
  · rw [s1]
    have := C37_document hn h2 (fun p hp => h3 p (List.dropLast_subset _ hp))
    simpa [h4] using this

/-! ### designations the converter refuses -/

theorem columns_refused {l : Layout} {p : Char → Bool} {line : Str} {c : Char} (hc : c ∈ line.take 12) (hx : c = '_' ∨ c = '-') :
    ¬ Layout.ok (common1L ++ [⟨some 4, [.one p]⟩] ++ common2L ++ l) line := by
  intro h
  obtain ⟨h1, h2, _⟩ := (common_ok _ _ _).1 h
  have e : line.take 12 = slice line 0 1 ++ slice line 1 12 := by
    rw [slice_append _ (by omega) (by omega)]; simp [slice]
  rw [e, List.mem_append] at hc
  rcases hc with hc | hc
  · have := h1 c hc
    rcases hx with rfl | rfl <;> revert this <;> decide
  · have := h2 c hc
    rcases hx with rfl | rfl <;> revert this <;> decide

/-- C38, a defect: a data line with an underscore or a hyphen in columns 1-12 is refused, so that observations of objects with an extended provisional
    designation, and those with a hyphen in the tracklet name, cannot be converted, although both kinds of designation can be packed and unpacked. -/
theorem C38_refused {line : Str} (hl : line.length = 80) (hn : '\n' ∉ line) (hk : cols line 1 3 ∉ headerWords) {c : Char} (hc : c ∈ cols line 1 12) (hx : c = '_' ∨ c = '-') :
    decode80ColumnDataLine line = .error .runtimeError := by
  have hc' : c ∈ line.take 12 := by simpa [cols] using hc
  have hm := header_match (w := line) (t := []) hn (Or.inl rfl)
  rw [List.append_nil, if_neg (by rintro ⟨h, _⟩; exact hk (by simpa [cols, headerWords_eq] using h))] at hm
  unfold decode80ColumnDataLine
  rw [if_neg (by rintro rfl; simp at hl), if_neg (by omega), hm]
  simp only [if_neg (show ¬ line.length ≠ 80 by simp [hl])]
  have : decodeColumns line = raiseRT := by
    rw [decodeColumns_eq hl, if_neg (show ¬ normalL.ok line from columns_refused hc' hx), if_neg (show ¬ radar1L.ok line from columns_refused hc' hx),
      if_neg (show ¬ radar2L.ok line from columns_refused hc' hx), if_neg (show ¬ satL.ok line from columns_refused hc' hx), if_neg (show ¬ roverL.ok line from columns_refused hc' hx)]
  rw [this]; rfl

/-! ### a concrete file -/

namespace Sample80

def firstOptical : Optical :=
  { desig := .prov (.minor 2020 'Q' 'A' 4), disc := '*', note := ' ', code := 'C', date := ⟨2020, 8, 18, 6, 334890⟩, ra := .seconds 21 33 58 3 60, south := false,
    dec := .seconds 12 13 25 2 77, spare := c! "         ", mag := c! "22.58", band := 'w', cat := 'U', ref := .page (.mps 1229401), stn := c! "F51" }
def satOptical : Optical :=
  { desig := .prov (.minor 2020 'Q' 'A' 4), disc := ' ', note := ' ', code := 'S', date := ⟨2020, 8, 19, 6, 219883⟩, ra := .seconds 21 33 6 2 41, south := false,
    dec := .seconds 11 58 10 1 3, spare := c! "         ", mag := c! "22.2 ", band := 'V', cat := 'u', ref := .page (.mps 1229401), stn := c! "C51" }
def satCoords : Spacecraft :=
  { disc := ' ', note := ' ', au := false, x := ⟨false, 1234, 4, 5678⟩, y := ⟨true, 2345, 4, 6789⟩, z := ⟨false, 3456, 4, 7890⟩, ref := c! "     " }
def roverOptical : Optical := { satOptical with code := 'V', stn := c! "247", desig := .perm (.minor 433), south := true, ref := .other (c! "     "), mag := c! "     ", band := ' ' }
def roverCoords : Rover := { disc := ' ', note := ' ', lon := c! " 12.345678", lat := c! "-01.234567", alt := c! "  120", ref := c! "      " }

/-- the lines -/
theorem lines_are : firstOptical.line ++ ['\n'] = first ∧ satOptical.line ++ ['\n'] = satFirst ∧ satCoords.line satOptical ++ ['\n'] = satSecond ∧
    roverOptical.line = c! "00433         V2020 08 19.21988321 33 06.41 -11 58 10.3                u     247" ∧
    roverCoords.line roverOptical = c! "00433         v2020 08 19.2198831  12.345678 -01.234567   120                247" := by
  decide +kernel

theorem valid_first : firstOptical.Valid := by
  constructor
  · simp [firstOptical, Designation.Valid, Perm.Valid, Prov.Valid, halfMonths, orders]
  · decide
  · decide
  · decide +kernel
  · decide
  · simp [firstOptical, ObsDate.Valid, monthDays]
  · simp [firstOptical, ObsDate.late, unlucky]
  · simp [firstOptical, Sexagesimal.Valid]
  · simp [firstOptical, Sexagesimal.Valid]
  · exact ⟨by decide, by decide, by decide⟩
  · exact ⟨by decide, by unfold Plain; decide⟩
  · decide
  · decide
  · first | (simp [firstOptical, RefCols.Valid, Ref.Valid]; done) | exact ⟨by decide, by decide, by unfold Plain; decide⟩
  · exact ⟨by decide, by decide⟩
theorem valid_sat : satOptical.Valid := by
  constructor
  · simp [satOptical, Designation.Valid, Perm.Valid, Prov.Valid, halfMonths, orders]
  · decide
  · decide
  · decide +kernel
  · decide
  · simp [satOptical, ObsDate.Valid, monthDays]
  · simp [satOptical, ObsDate.late, unlucky]
  · simp [satOptical, Sexagesimal.Valid]
  · simp [satOptical, Sexagesimal.Valid]
  · exact ⟨by decide, by decide, by decide⟩
  · exact ⟨by decide, by unfold Plain; decide⟩
  · decide
  · decide
  · first | (simp [satOptical, RefCols.Valid, Ref.Valid]; done) | exact ⟨by decide, by decide, by unfold Plain; decide⟩
  · exact ⟨by decide, by decide⟩
theorem valid_rover : roverOptical.Valid := by
  constructor
  · simp [roverOptical, satOptical, Designation.Valid, Perm.Valid, Prov.Valid, halfMonths, orders]
  · decide
  · decide
  · decide +kernel
  · decide
  · simp [roverOptical, satOptical, ObsDate.Valid, monthDays]
  · simp [roverOptical, satOptical, ObsDate.late, unlucky]
  · simp [roverOptical, satOptical, Sexagesimal.Valid]
  · simp [roverOptical, satOptical, Sexagesimal.Valid]
  · exact ⟨by decide, by decide, by decide⟩
  · exact ⟨by decide, by unfold Plain; decide⟩
  · decide
  · decide
  · first | (simp [roverOptical, satOptical, RefCols.Valid, Ref.Valid]; done) | exact ⟨by decide, by decide, by unfold Plain; decide⟩
  · exact ⟨by decide, by decide⟩

theorem valid_ground : (Obs.ground firstOptical).Valid := ⟨valid_first, by decide, by decide⟩
theorem valid_space : (Obs.spacecraft satOptical satCoords).Valid := ⟨valid_sat, by decide, by
  constructor
  · decide
  · unfold noteFor; decide +kernel
  · simp [satCoords, Coord.Valid, Spacecraft.places]
  · simp [satCoords, Coord.Valid, Spacecraft.places]
  · simp [satCoords, Coord.Valid, Spacecraft.places]
  · exact ⟨by decide, by decide, by decide⟩⟩
theorem valid_roving : (Obs.rover roverOptical roverCoords).Valid := ⟨valid_rover, by decide, by decide, by
  constructor
  · decide
  · unfold noteFor; decide +kernel
  · exact ⟨by decide, by decide⟩
  · exact ⟨by decide, by decide⟩
  · exact ⟨by decide, by decide, by decide⟩
  · exact ⟨by decide, by decide, by decide⟩⟩

def group : Group := ⟨[(c! "COD", c! "F51"), (c! "OBS", c! "A. B, C. D"), (c! "COM", c! "hello")], [.ground firstOptical, .spacecraft satOptical satCoords, .rover roverOptical roverCoords]⟩

theorem valid_group : group.Valid := by
  constructor
  · simp [group]
  · simp [group, headerWords, noBreak]
  · simp [group]
  · simp [group, valid_ground, valid_space, valid_roving]

theorem any_accepts (tag : Str) (text : Option Str) : anyLxml.Accepts tag text [] := ⟨rfl, by simp, by simp [anyLxml]⟩

/-- a file with two groups meets the hypotheses -/
theorem two_groups (nosplit : Bool) : ∃ ess, Spec.Each (fun g es => Spec.Each Obs.Element g.obs es) [group, group] ess ∧
    (mpc80coltoxml anyLxml realAllowed nosplit (fileText ([group, group].flatMap Spec.Mpc80.Group.lines))).doc =
      some (adesDoc (List.zipWith (fun g es => (Block.mk g.headers es).elem) [group, group] ess)) := by
  obtain ⟨ess, h1, h2, _⟩ := C38_file any_names (any_accepts _ _) (gs := [group, group]) (by
    intro g hg
    have : g = group := by simpa using hg
    subst this
    exact ⟨valid_group, fun b _ e _ x _ => any_accepts _ _, fun x _ => ⟨any_accepts _ _, fun y _ => any_accepts _ _⟩⟩) nosplit
  exact ⟨ess, h1, h2⟩

/-- the whole converted -/
theorem converted : ∃ o : Outcome, mpc80coltoxml anyLxml realAllowed false (fileText group.lines) = o ∧ o.out = [] ∧ o.raised = none ∧
    o.doc.map (fun d => d.kids.map fun b => b.kids.map fun x => x.kids.map Elem.tag) =
      some [[[c! "observatory", c! "observers", c! "comment"], [c! "optical", c! "optical", c! "optical"]]] := ⟨_, rfl, by kernel_rfl, by kernel_rfl, by kernel_rfl⟩

/-- an extended designation, 2026 CZ6190, and a tracklet name with a hyphen: both can be unpacked, neither can be converted -/
theorem refused : decode80ColumnDataLine (c! "     _QC0aEM  C2026 02 18.33489021 33 58.060+12 13 25.77         22.58wU~44BVF51") = .error .runtimeError ∧
    decode80ColumnDataLine (c! "     AB-12    C2026 02 18.33489021 33 58.060+12 13 25.77         22.58wU~44BVF51") = .error .runtimeError :=
  ⟨C38_refused (c := '_') (by decide) (by decide) (by decide) (by decide) (Or.inl rfl), C38_refused (c := '-') (by decide) (by decide) (by decide) (by decide) (Or.inr rfl)⟩
theorem refused_unpack : unpackPackedID (c! "     _QC0aEM") = .ok ⟨none, some (c! "2026 CZ6190"), none⟩ ∧ unpackPackedID (c! "     AB-12  ") = .ok ⟨none, none, some (c! "AB-12")⟩ := by
  decide +kernel

end Sample80
end Verif
