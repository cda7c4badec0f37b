import Verif.Lemmas.JsonSchema
import Verif.Props.Convert
import Verif.Props.Schema
/-
  C46: XML to JSON and back (xmltojson, jsontoxml).

  `x : Corners` stands for the cases in which releases of xmltodict differ: the theorems hold for any choice.
-/
namespace Verif
open Verif.Xml Verif.Json Verif.Convert
open Verif.Spec hiding value

theorem unparse_one (x : Corners) (k : Str) {v : Val} (h : isList v = false) : unparse x [(k, v)] = (element x k v).map some := by
  cases v with
  | list l => simp [isList] at h
  | _ => simp only [unparse]; cases element x k _ <;> rfl

/-- C46: a document converted to JSON and back comes back with the white space around its texts removed and, at each level, sub-elements of the same
    name moved together; nothing else changes, and nothing is lost. -/
theorem C46_round (x : Corners) {root : Elem} (h : WellFormed root) : unparse x (parse root) = .ok (some (tidy root)) := by
  show unparse x [(root.tag, value root)] = _
  rw [unparse_one x _ (value_not_list root), element_value x h]
  rfl

/-- ... so nothing is moved exactly if, at each level, sub-elements of the same name stand together already. -/
theorem C46_unchanged (x : Corners) {root : Elem} (h : WellFormed root) : unparse x (parse root) = .ok (some (trimmed root)) ↔ TogetherAll root := by
  rw [C46_round x h, ← tidy_trimmed]
  simp

/-- Two documents have the same JSON form exactly if they differ only in what `tidy` removes. -/
theorem C46_same_json {r s : Elem} (hr : WellFormed r) (hs : WellFormed s) : parse r = parse s ↔ tidy r = tidy s := by
  let x : Corners := ⟨fun _ => [], fun _ => .ok none⟩
  constructor
  · intro h
    have h1 := C46_round x hr
    rw [h, C46_round x hs] at h1
    injection h1 with h1
    injection h1 with h1
    exact h1.symm
  · intro h
    show [(r.tag, value r)] = [(s.tag, value s)]
    rw [← value_tidy hr, ← value_tidy hs, h, ← tidy_tag r, ← tidy_tag s, h]

/-- A second round changes nothing any more, neither in the XML nor in the JSON. -/
theorem C46_second_round (x : Corners) {root : Elem} (h : WellFormed root) :
    parse (tidy root) = parse root ∧ unparse x (parse (tidy root)) = .ok (some (tidy root)) := by
  have h1 : parse (tidy root) = parse root := by
    rw [C46_same_json (wf_tidy h) h, tidy_tidy]
  exact ⟨h1, by rw [h1, C46_round x h]⟩

/-- The JSON documents that come back unchanged from the way to XML and back are exactly those with one root and a canonical value. -/
theorem C46_json_back (x : Corners) (d : Dict) :
    (∃ root, WellFormed root ∧ unparse x d = .ok (some root) ∧ parse root = d) ↔ ∃ k v, d = [(k, v)] ∧ XmlName k ∧ Canonical v := by
  constructor
  · rintro ⟨root, hw, _, rfl⟩
    exact ⟨root.tag, value root, rfl, wf_tag hw, value_canonical hw⟩
  · rintro ⟨k, v, rfl, hk, hv⟩
    obtain ⟨e, h1, h2, h3, h4⟩ := canonical_from hv k hk
    refine ⟨e, h1, ?_, ?_⟩
    · have := C46_round x h1
      rw [h4] at this
      rw [← this, ← h2, ← h3]
      rfl
    · rw [← h2, ← h3]; rfl

/-- What xmltojson writes always comes back unchanged. -/
theorem C46_written_json (x : Corners) {root : Elem} (h : WellFormed root) :
    ∃ r, WellFormed r ∧ unparse x (parse root) = .ok (some r) ∧ parse r = parse root :=
  ⟨tidy root, wf_tidy h, C46_round x h, (C46_second_round x h).1⟩

/-- JSON without exactly one root is refused with ValueError. -/
theorem C46_roots (x : Corners) (d : Dict) : (d.length ≠ 1 → unparse x d = .error .valueError) ∧
    ∀ k u v l, d = [(k, .list (u :: v :: l))] → unparse x d = .error .valueError := by
  constructor
  · intro h
    match d with
    | [] => rfl
    | [p] => simp at h
    | p :: q :: r => simp [unparse]
  · rintro k u v l rfl
    rfl

/-- A list of one root is taken as the root. -/
theorem C46_one_root (x : Corners) (k : Str) {v : Val} (h : ∀ l, v ≠ .list l) : unparse x [(k, .list [v])] = unparse x [(k, v)] := by
  cases v with
  | list l => exact absurd rfl (h l)
  | _ => rfl

/-- Attributes that are no texts are written as Python shows them: `True`, `False`, `None`, where an element would have `true`, `false` and nothing. -/
theorem C46_attribute_values (x : Corners) (k n : Str) (s : Str) :
    unparse x [(k, .dict [('@' :: n, .bool true)])] = .ok (some (.mk k none [(n, c! "True")] [])) ∧
    unparse x [(k, .dict [('@' :: n, .bool false)])] = .ok (some (.mk k none [(n, c! "False")] [])) ∧
    unparse x [(k, .dict [('@' :: n, .null)])] = .ok (some (.mk k none [(n, c! "None")] [])) ∧
    unparse x [(k, .dict [('@' :: n, .num s)])] = .ok (some (.mk k none [(n, s)] [])) ∧
    unparse x [(k, .bool true)] = .ok (some (.mk k (some (c! "true")) [] [])) ∧
    unparse x [(k, .bool false)] = .ok (some (.mk k (some (c! "false")) [] [])) ∧
    unparse x [(k, .null)] = .ok (some (.mk k none [] [])) := by
  have hn : ∀ v, unparse x [(k, .dict [('@' :: n, v)])] = .ok (some (.mk k none [(n, attributeText x v)] [])) := by
    intro v
    rw [unparse_one x k rfl, element]
    have e2 : children x [('@' :: n, v)] = .ok [] := by
      rw [children, if_pos (.inr (by simp [isAttribute])), children]
    have e3 : attributeList x [('@' :: n, v)] = [(n, attributeText x v)] := by simp [attributeList, isAttribute]
    have e4 : textItem x [('@' :: n, v)] none = .ok none := by rw [textItem, if_neg (by simp)]; rfl
    rw [e2, e3, e4]
    rfl
  refine ⟨hn _, hn _, hn _, hn _, ?_, ?_, ?_⟩ <;> rw [unparse_one x k rfl] <;> simp only [element] <;> rfl

/-- Numbers, booleans, empty texts and lists of one do not come back as such: 18.5 as "18.5", `true` as "true", "" as null, [v] as v. -/
theorem C46_not_canonical (x : Corners) {k n : Str} (hn : XmlName n) {s : Str} (hs : Bare s) :
    (∃ root, unparse x [(k, .dict [(n, .num s)])] = .ok (some root) ∧ parse root = [(k, .dict [(n, .text s)])]) ∧
    (∃ root, unparse x [(k, .dict [(n, .bool true)])] = .ok (some root) ∧ parse root = [(k, .dict [(n, .text (c! "true"))])]) ∧
    (∃ root, unparse x [(k, .dict [(n, .text [])])] = .ok (some root) ∧ parse root = [(k, .dict [(n, .null)])]) ∧
    (∃ root, unparse x [(k, .dict [(n, .list [.text s])])] = .ok (some root) ∧ parse root = [(k, .dict [(n, .text s)])]) := by
  have e1 : nonEmpty s = some s := by simp [nonEmpty, hs.1]
  have step : ∀ (v : Val) (text : Option Str), elements x n v = .ok [.mk n text [] []] →
      unparse x [(k, .dict [(n, v)])] = .ok (some (.mk k none [] [.mk n text [] []])) ∧
      parse (.mk k none [] [.mk n text [] []]) = [(k, .dict [(n, match trimText text with | none => .null | some t => .text t)])] := by
    intro v text he
    constructor
    · rw [unparse_one x k rfl, element]
      have e2 : children x [(n, v)] = .ok [.mk n text [] []] := by
        rw [children, if_neg (by simp [name_ne_text hn, name_not_attribute hn]), he, children]; rfl
      have e3 : attributeList x [(n, v)] = [] := attributeList_none x _ (by simpa using name_not_attribute hn)
      have e4 : textItem x [(n, v)] none = .ok none := by rw [textItem, if_neg (name_ne_text hn)]; rfl
      rw [e2, e3, e4]
      rfl
    · show [(k, value _)] = _
      rw [value_eq (by intro y hy; rw [List.mem_singleton.mp hy]; exact hn), if_neg (by simp), table]
      have : firstNames ([Elem.mk n text [] []].map Elem.tag) = [n] := rfl
      rw [this]
      simp only [attributeItems, List.map_nil, List.nil_append, List.map_cons, Elem.tag, List.filter_cons, decide_true, ↓reduceIte, List.filter_nil, several]
      rw [value_eq (by simp), if_pos (by simp)]
      rfl
  have ht : trimText (some s) = some s := bare_trim hs
  refine ⟨⟨_, (step (.num s) (some s) (by simp [elements, element, e1])).1, ?_⟩, ⟨_, (step (.bool true) (some (c! "true")) (by simp [elements, element])).1, ?_⟩,
    ⟨_, (step (.text []) none (by simp [elements, element, nonEmpty])).1, ?_⟩, ⟨_, (step (.list [.text s]) (some s) (by simp [elements, each, element, e1]; rfl)).1, ?_⟩⟩
  · rw [(step (.num s) (some s) (by simp [elements, element, e1])).2, ht]
  · rw [(step (.bool true) (some (c! "true")) (by simp [elements, element])).2]; rfl
  · rw [(step (.text []) none (by simp [elements, element, nonEmpty])).2]; rfl
  · rw [(step (.list [.text s]) (some s) (by simp [elements, each, element, e1]; rfl)).2, ht]

/-! ### ADES documents -/

/-- C46: a document valid for submission comes back unchanged but for the white space around its texts. -/
theorem C46_submit (x : Corners) (F : Facets) {root : Elem} (hw : WellFormed root) (ht : root.tag = c! "ades") (h : ValidDocument F (Master.schema .submit Master.adesmaster) root) :
    unparse x (parse root) = .ok (some (trimmed root)) := by
  rw [C46_unchanged x hw]
  obtain ⟨T, h1, h2⟩ := h
  have hT : lookup (Master.schema .submit Master.adesmaster).elements (c! "ades") = some (c! "ADESType") := by decide +kernel
  rw [ht, hT] at h1
  cases h1
  exact valid_together (f := 80) (P := fun T => T ≠ c! "LocalUseType") (xs := []) (by decide +kernel) h2 (by decide) (by intro n hn; simp at hn)

/-- Under the general schema that holds if there is no `localUse` element and the elements at the top level are sorted by their names. -/
theorem C46_general (x : Corners) (F : Facets) {root : Elem} (hw : WellFormed root) (ht : root.tag = c! "ades") (h : ValidDocument F (Master.schema .general Master.adesmaster) root)
    (hl : Without (c! "localUse") root) (htop : Together (root.kids.map Elem.tag)) : unparse x (parse root) = .ok (some (trimmed root)) := by
  rw [C46_unchanged x hw]
  obtain ⟨T, h1, h2⟩ := h
  have hT : lookup (Master.schema .general Master.adesmaster).elements (c! "ades") = some (c! "ADESType") := by decide +kernel
  rw [ht, hT] at h1
  cases h1
  cases h2 with
  | simple hn _ => exact .mk (by simpa using together_nil) (by simp)
  | @complex _ tag text attrib kids c w hc _ _ hm hk =>
    refine .mk htop ?_
    have hlow : Low [c! "localUse"] (.mk tag text attrib kids) := by
      intro n hn
      have : n = c! "localUse" := by simpa using hn
      rw [this]; exact hl
    have hav := letters_kids hk fun y hy => (hlow.kid hy).1
    have hcl : closedB (Master.schema .general Master.adesmaster) (fun T => T ≠ c! "LocalUseType" ∧ T ≠ c! "ADESType") [c! "localUse"] 80 = true := by decide +kernel
    -- the sub-elements of the root, each on its own
    have key : ∀ {w : List Letter'} {es : List Elem}, Valid F (Master.schema .general Master.adesmaster) (.kids w es) → (∀ y ∈ es, Low [c! "localUse"] y) →
        (∀ a ∈ w, ∃ n t, a = some (n, t) ∧ t ≠ c! "LocalUseType" ∧ t ≠ c! "ADESType") → ∀ y ∈ es, TogetherAll y := by
      intro w es
      induction es generalizing w with
      | nil => intro _ _ _ y hy; simp at hy
      | cons e es ih =>
        intro hv hlo hty y hy
        cases hv with
        | cons hn hv1 hv2 =>
          rcases List.mem_cons.mp hy with rfl | hy
          · obtain ⟨n', t', e1, e2, e3⟩ := hty (some (_, _)) (List.mem_cons_self)
            cases e1
            exact valid_together hcl hv1 (by simp [e2, e3]) (hlo _ (by simp))
          · exact ih hv2 (fun z hz => hlo z (by simp [hz])) (fun a ha => hty a (by simp [ha])) y hy
        | consAny _ _ =>
          obtain ⟨n', t', e1, _⟩ := hty none (List.mem_cons_self)
          cases e1
    refine key hk (fun y hy => (hlow.kid hy).2) ?_
    -- the content model of the root
    have hr : (lookup (Master.schema .general Master.adesmaster).complex (c! "ADESType")).all (fun c =>
        (kinds (Master.schema .general Master.adesmaster) (fun T => T ≠ c! "LocalUseType" ∧ T ≠ c! "ADESType") [c! "localUse"] true 80 (.seq c.content)).isSome) = true := by decide +kernel
    rw [hc] at hr
    obtain ⟨k, hk'⟩ := Option.isSome_iff_exists.mp (show Option.isSome _ = true from hr)
    obtain ⟨l, e, h3, _⟩ := kinds_sound _ _ _ _ _ _ _ hk' _ hm hav
    intro a ha
    rw [e] at ha
    obtain ⟨p, hp, rfl⟩ := List.mem_map.mp ha
    refine ⟨p.1, p.2, rfl, ?_⟩
    simpa using (h3 p hp).2

/-! ### files -/

/-- C46: with file names for everything, xmltojson and then jsontoxml leave the JSON form in the one file, the tidy document in the other, and touch no other
    file; `dump`, `load` are the JSON writer and reader, `ser` the XML writer. -/
theorem C46_files (x : Corners) (xml : Str → Py Elem) (dump : Dict → Str) (load : Str → Py Dict) (hd : ∀ d, load (dump d) = .ok d) (ser : Option Elem → Str)
    (w : World) {a b i j o t : Str} {root : Elem} (hf : Fresh w a b) (hi : w.files i = some t) (hx : xml t = .ok root) (hw : WellFormed root)
    (hj : j ≠ a ∧ j ≠ b ∧ i ≠ j) (ho : o ≠ a ∧ o ≠ b ∧ j ≠ o) :
    let w1 := (result (callWithFiles a b (xmlToJson xml dump).call (.name i) (.name j)) w).2
    result (callWithFiles a b (xmlToJson xml dump).call (.name i) (.name j)) w = (none, w.write j (dump (parse root))) ∧
    result (callWithFiles a b (jsonToXml x load ser).call (.name j) (.name o)) w1 = (none, w1.write o (ser (some (tidy root)))) := by
  have h1 : result (callWithFiles a b (xmlToJson xml dump).call (.name i) (.name j)) w = (none, w.write j (dump (parse root))) := by
    rw [C35_named _ w hf hj.1 hj.2.1 hi (fun _ => hj.2.2)]
    simp only [World.after, Conv.written, xmlToJson, hx]
  intro w1
  refine ⟨h1, ?_⟩
  have e : w1 = w.write j (dump (parse root)) := by simp only [w1, h1]
  have hf1 : Fresh w1 a b := by
    rw [e]
    exact ⟨by simp [World.write, Ne.symm hj.1, hf.noA], by simp [World.write, Ne.symm hj.2.1, hf.noB], hf.ne⟩
  have hj1 : w1.files j = some (dump (parse root)) := by rw [e]; simp [World.write]
  rw [C35_named _ w1 hf1 ho.1 ho.2.1 hj1 (fun _ => ho.2.2)]
  simp only [World.after, Conv.written, jsonToXml, hd, C46_round x hw]

/-- An input that cannot be read as XML or as JSON leaves an empty output file; so does JSON without exactly one root. -/
theorem C46_emptied (x : Corners) (xml : Str → Py Elem) (dump : Dict → Str) (load : Str → Py Dict) (ser : Option Elem → Str) (w : World) {a b i o t : Str}
    (hf : Fresh w a b) (hi : w.files i = some t) (ho : o ≠ a ∧ o ≠ b ∧ i ≠ o) :
    (∀ e, xml t = .error e → result (callWithFiles a b (xmlToJson xml dump).call (.name i) (.name o)) w = (some e, w.write o [])) ∧
    (∀ e, load t = .error e → result (callWithFiles a b (jsonToXml x load ser).call (.name i) (.name o)) w = (some e, w.write o [])) ∧
    (∀ d, load t = .ok d → d.length ≠ 1 → result (callWithFiles a b (jsonToXml x load ser).call (.name i) (.name o)) w = (some .valueError, w.write o [])) := by
  refine ⟨fun e h => ?_, fun e h => ?_, fun d h hl => ?_⟩
  · rw [C35_named _ w hf ho.1 ho.2.1 hi (fun _ => ho.2.2)]
    simp only [World.after, Conv.written, xmlToJson, h]
  · rw [C35_named _ w hf ho.1 ho.2.1 hi (fun _ => ho.2.2)]
    simp only [World.after, Conv.written, jsonToXml, h]
  · rw [C35_named _ w hf ho.1 ho.2.1 hi (fun _ => ho.2.2)]
    simp only [World.after, Conv.written, jsonToXml, h, (C46_roots x d).1 hl]

/-- A missing input is an OSError and changes nothing, whatever the output. -/
theorem C46_missing (x : Corners) (xml : Str → Py Elem) (dump : Dict → Str) (load : Str → Py Dict) (ser : Option Elem → Str) (w : World) {a b i o : Str}
    (hf : Fresh w a b) (hi : w.files i = none) (hia : i ≠ a) (hib : i ≠ b) (ho : o ≠ a ∧ o ≠ b ∧ i ≠ o) :
    result (callWithFiles a b (xmlToJson xml dump).call (.name i) (.name o)) w = (some .osError, w) ∧
    result (callWithFiles a b (jsonToXml x load ser).call (.name i) (.name o)) w = (some .osError, w) :=
  ⟨C35_missing _ w hf ho.1 ho.2.1 hia hib hi ho.2.2, C35_missing _ w hf ho.1 ho.2.1 hia hib hi ho.2.2⟩

/-- The same name twice destroys the file, for every reader that refuses an empty text (as the XML and JSON readers do). -/
theorem C46_same_name (x : Corners) (xml : Str → Py Elem) (dump : Dict → Str) (load : Str → Py Dict) (ser : Option Elem → Str) (w : World) {a b i t : Str} {e : PyErr}
    (hf : Fresh w a b) (hi : w.files i = some t) :
    (xml [] = .error e → result (callWithFiles a b (xmlToJson xml dump).call (.name i) (.name i)) w = (some e, w.write i [])) ∧
    (load [] = .error e → result (callWithFiles a b (jsonToXml x load ser).call (.name i) (.name i)) w = (some e, w.write i [])) := by
  obtain ⟨ia, ib⟩ := fresh_ne hf hi
  constructor
  · intro h
    rw [C35_same_name_lost _ w hf ia ib rfl (fun _ => ⟨t, hi⟩)]
    simp only [World.after, Conv.written, xmlToJson, h]
  · intro h
    rw [C35_same_name_lost _ w hf ia ib rfl (fun _ => ⟨t, hi⟩)]
    simp only [World.after, Conv.written, jsonToXml, h]

/-! ### concrete cases -/
namespace SampleJson

mutual
def wfB : Elem → Bool
  | .mk tag _ attrib kids => !tag.contains '#' && !tag.contains '@' && decide (attrib.map Prod.fst).Nodup && wfAllB kids
def wfAllB : List Elem → Bool
  | [] => true
  | e :: es => wfB e && wfAllB es
end

theorem wfAll : ∀ {es : List Elem}, wfAllB es = true → ∀ e ∈ es, wfB e = true
  | [], _ => by simp
  | a :: es, h => by
    rw [wfAllB, Bool.and_eq_true] at h
    intro e he
    rcases List.mem_cons.mp he with rfl | he
    · exact h.1
    · exact wfAll h.2 e he

theorem wf {e : Elem} (h : wfB e = true) : WellFormed e := by
  induction e using elem_ind with
  | _ t x a ks ih =>
    simp only [wfB, Bool.and_eq_true, Bool.not_eq_true', decide_eq_true_eq] at h
    refine .mk ⟨?_, ?_⟩ h.1.2 fun k hk => ih k hk (wfAll h.2 k hk)
    · simpa using h.1.1.1
    · simpa using h.1.1.2

/-- a document valid for submission meets the hypotheses of C46_submit -/
theorem sample_wf : WellFormed sampleDoc := wf (by decide +kernel)

example (x : Corners) : unparse x (parse sampleDoc) = .ok (some (trimmed sampleDoc)) := C46_submit x Check.lenient sample_wf rfl sampleDoc_valid

def opt (t : Str) : Elem := .mk (c! "optical") none [] [leaf (c! "permID") t, leaf (c! "mode") (c! "CCD"), leaf (c! "stn") (c! "568"),
    leaf (c! "obsTime") (c! "2016-08-29T12:23:34.12Z"), leaf (c! "ra") (c! "215.10254"), leaf (c! "dec") (c! "-12.547"), leaf (c! "astCat") (c! "Gaia3")]
def rad (t : Str) : Elem := .mk (c! "radar") none [] [leaf (c! "permID") t, leaf (c! "trx") (c! "253"), leaf (c! "rcv") (c! "253"), leaf (c! "obsTime") (c! "2016-08-29T12:23:34Z"),
    leaf (c! "delay") (c! "135.25"), leaf (c! "rmsDelay") (c! "1.5"), leaf (c! "com") (c! "1"), leaf (c! "frq") (c! "8560")]

/-- an optical observation, a radar observation, an optical observation -/
def mixed : Elem := .mk (c! "ades") none [(c! "version", c! "2022")] [opt (c! "433"), rad (c! "433"), opt (c! "434")]
def sorted : Elem := .mk (c! "ades") none [(c! "version", c! "2022")] [opt (c! "433"), opt (c! "434"), rad (c! "433")]

/-- C46_general needs its condition on the top level: this document is valid under the general schema and comes back in another order. -/
theorem C46_general_order (x : Corners) : ValidDocument Check.lenient (Master.schema .general Master.adesmaster) mixed ∧ WellFormed mixed ∧
    unparse x (parse mixed) = .ok (some sorted) ∧ trimmed mixed ≠ sorted := by
  have hw : WellFormed mixed := wf (by decide +kernel)
  refine ⟨⟨c! "ADESType", by decide +kernel, Check.validB_sound _ 80 _ _ (by decide +kernel)⟩, hw, ?_, ?_⟩
  · rw [C46_round x hw]; rfl
  · intro h
    have := congrArg (fun e => e.kids.map Elem.tag) h
    revert this
    decide

mutual
def withoutB (n : Str) : Elem → Bool
  | .mk _ _ _ kids => withoutAllB n kids
def withoutAllB (n : Str) : List Elem → Bool
  | [] => true
  | e :: es => decide (e.tag ≠ n) && withoutB n e && withoutAllB n es
end

theorem withoutAll {n : Str} : ∀ {es : List Elem}, withoutAllB n es = true → ∀ e ∈ es, e.tag ≠ n ∧ withoutB n e = true
  | [], _ => by simp
  | a :: es, h => by
    simp only [withoutAllB, Bool.and_eq_true, decide_eq_true_eq] at h
    intro e he
    rcases List.mem_cons.mp he with rfl | he
    · exact h.1
    · exact withoutAll h.2 e he

theorem without {n : Str} {e : Elem} (h : withoutB n e = true) : Without n e := by
  induction e using elem_ind with
  | _ t x a ks ih =>
    rw [withoutB] at h
    exact .mk (fun k hk => (withoutAll h k hk).1) fun k hk => ih k hk (withoutAll h k hk).2

/-- ... and the sorted one meets all its conditions. -/
theorem sorted_general (x : Corners) : unparse x (parse sorted) = .ok (some (trimmed sorted)) :=
  C46_general x Check.lenient (wf (by decide +kernel)) rfl ⟨c! "ADESType", by decide +kernel, Check.validB_sound _ 80 _ _ (by decide +kernel)⟩
    (without (by decide +kernel)) (together_append (l := [c! "optical", c! "optical"]) (together_same (t := c! "optical") (by decide)) (together_same (l := [c! "radar"]) (t := c! "radar") (by decide)) (by decide))

/-- a JSON document: attributes, a list of two, a text -/
def json : Dict := [(c! "a", .dict [(c! "@v", .text (c! "1")), (c! "b", .list [.null, .text (c! "x y")]), (c! "#text", .text (c! "t"))])]

theorem json_round (x : Corners) : ∃ root, WellFormed root ∧ unparse x json = .ok (some root) ∧ parse root = json := by
  refine (C46_json_back x json).mpr ⟨_, _, rfl, by unfold XmlName; decide, ?_⟩
  refine Canonical.dict (attrs := [(c! "v", c! "1")]) (subs := [(c! "b", [.null, .text (c! "x y")])]) (text := some (c! "t")) (by simp) (by simp) (by simp) ?_ ?_ ?_
  · intro s hs
    rw [List.mem_singleton.mp hs]
    exact ⟨by unfold XmlName; decide, by simp⟩
  · intro s hs v hv
    rw [List.mem_singleton.mp hs] at hv
    rcases List.mem_cons.mp hv with rfl | hv
    · exact .null
    · rw [List.mem_singleton.mp hv]
      exact .text (by unfold Bare; decide)
  · intro t ht
    cases ht
    unfold Bare; decide

end SampleJson
end Verif
