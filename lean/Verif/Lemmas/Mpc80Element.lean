import Verif.Lemmas.Mpc80Optical
/-
  The element made from an optical line.
-/
namespace Verif.Mpc80
open Verif Verif.PackUtil Verif.Spec.Mpc80 Verif.Spec Verif.Xml

/-! ### white space -/

theorem strip_nil : strip [] = [] := rfl

theorem dropWhile_space {t : Str} (h : Plain t) : t.dropWhile isSpace = t.dropWhile (· = ' ') := by
  induction t with
  | nil => rfl
  | cons c t ih =>
    have ih := ih (fun d hd => h d (by simp [hd]))
    by_cases hc : c = ' '
    · subst hc; simpa [List.dropWhile_cons, show isSpace ' ' = true from rfl] using ih
    · have : isSpace c = false := by
        cases hs : isSpace c with
        | false => rfl
        | true => exact absurd (h c (by simp) hs) hc
      simp [List.dropWhile_cons, hc, this]

theorem Plain.sub {s t : Str} (h : Plain t) (hs : ∀ c ∈ s, c ∈ t) : Plain s := fun c hc => h c (hs c hc)

theorem mem_of_dropWhile {p : Char → Bool} {t : Str} : ∀ c ∈ t.dropWhile p, c ∈ t := fun _ hc => (List.dropWhile_sublist p).subset hc

theorem strip_comm (t : Str) : strip t = rstrip (lstrip t) := by
  unfold strip lstrip rstrip
  induction t with
  | nil => rfl
  | cons c t ih =>
    by_cases hc : isSpace c = true
    · rw [List.dropWhile_cons_of_pos hc, ← ih]
      rw [List.reverse_cons, List.dropWhile_append]
      split
      · rename_i he
        rw [List.isEmpty_iff] at he
        simp [List.dropWhile_cons, hc, he]
      · rename_i he
        simp [List.dropWhile_cons, hc]
    · have hc' : isSpace c = false := by simpa using hc
      rw [List.dropWhile_cons_of_neg hc]
      rw [List.reverse_cons, List.dropWhile_append]
      split
      · simp [List.dropWhile_cons, hc']
      · simp [List.dropWhile_cons, hc']

theorem strip_trim {t : Str} (h : Plain t) : strip t = trim t := by
  rw [strip_comm]
  unfold rstrip lstrip trim
  rw [dropWhile_space h]
  rw [dropWhile_space (Plain.sub h (fun c hc => mem_of_dropWhile c (List.mem_reverse.1 hc)))]

theorem head_of {a t : Str} (ha : a ≠ []) (h : ∀ c ∈ a, isSpace c = false) : ∀ c ∈ (a ++ t).head?, isSpace c = false := by
  cases a with
  | nil => exact absurd rfl ha
  | cons x a => simpa using h x (by simp)

theorem last_of {a t : Str} (ha : a ≠ []) (h : ∀ c ∈ a, isSpace c = false) : ∀ c ∈ (t ++ a).getLast?, isSpace c = false := by
  intro c hc
  rw [List.getLast?_append_of_ne_nil _ ha] at hc
  exact h c (List.mem_of_getLast? hc)

theorem strip_ends_id {a b m : Str} (ha : a ≠ []) (hb : b ≠ []) (h1 : ∀ c ∈ a, isSpace c = false) (h2 : ∀ c ∈ b, isSpace c = false) : strip (a ++ (m ++ b)) = a ++ (m ++ b) :=
  strip_of_ends (head_of ha h1) (by rw [← List.append_assoc]; exact last_of hb h2)

theorem dec_nospace (n : Nat) : ∀ c ∈ Spec.dec n, isSpace c = false := by
  intro c hc
  rw [dec_eq] at hc
  exact digit_not_space (natStr_mem n c hc)

theorem dec_ne (n : Nat) : Spec.dec n ≠ [] := by
  rw [dec_eq]; exact natStr_ne_nil n

theorem fixed_nospace (k n : Nat) : ∀ c ∈ Spec.fixed k n, isSpace c = false := fun c hc => digit_not_space (fixed_mem k n c hc)

theorem upper_nospace {c : Char} (h : c ∈ upperCase) : isSpace c = false := by
  have : upperCase.all (fun c => isSpace c == false) = true := by decide
  simpa using all_mem this h
theorem half_nospace {c : Char} (h : c ∈ halfMonths) : isSpace c = false := by
  have : halfMonths.all (fun c => isSpace c == false) = true := by decide
  simpa using all_mem this h
theorem order_nospace {c : Char} (h : c ∈ orders) : isSpace c = false := by
  have : orders.all (fun c => isSpace c == false) = true := by decide
  simpa using all_mem this h
theorem trk_nospace {c : Char} (h : c ∈ trkChars) : isSpace c = false := by
  have : trkChars.all (fun c => isSpace c == false) = true := by decide
  simpa using all_mem this h

theorem perm_strip {p : Perm} (h : p.Valid) : strip p.text = p.text := by
  cases p with
  | minor n => exact strip_of_none (dec_nospace n)
  | comet n ty =>
    refine strip_of_none ?_
    simp only [Perm.text, List.mem_append, List.mem_singleton]
    rintro c (hc | rfl)
    · exact dec_nospace n c hc
    · rcases h.2.2 with rfl | rfl <;> rfl
  | fragment n ty frag =>
    obtain ⟨_, _, h3, _, h5⟩ := h
    refine strip_of_none ?_
    simp only [Perm.text, List.mem_append, List.mem_cons, List.not_mem_nil, or_false]
    rintro c ((hc | rfl | rfl) | hc)
    · exact dec_nospace n c hc
    · rcases h3 with rfl | rfl <;> rfl
    · rfl
    · exact upper_nospace (h5 c hc)
  | satellite p n =>
    have := strip_ends_id (a := p.name) (m := [' ']) (b := Spec.dec n) (by cases p <;> simp [Planet.name]) (dec_ne n) (by cases p <;> decide) (dec_nospace n)
    simpa [Perm.text] using this

theorem count_nospace (n : Nat) : ∀ c ∈ count n, isSpace c = false := by
  unfold count
  split
  · simp
  · exact dec_nospace n

theorem prov_strip {q : Prov} (h : q.Valid) : strip q.text = q.text := by
  cases q with
  | minor y hf o k =>
    obtain ⟨_, _, h1, h2, _⟩ := h
    have := strip_ends_id (a := Spec.dec y) (m := [' ', hf]) (b := [o] ++ count k) (dec_ne y) (by simp) (dec_nospace y) (by
      simp only [List.mem_append, List.mem_singleton]
      rintro c (rfl | hc)
      · exact order_nospace h2
      · exact count_nospace k c hc)
    simpa [Prov.text] using this
  | survey n s =>
    have := strip_ends_id (a := Spec.fixed 4 n) (m := [' ', s.letter, '-']) (b := [s.digit]) (by
      intro e; have := congrArg List.length e; rw [fixed_length (by omega) (by have : n ≤ 9999 := h; omega)] at this; simp at this) (by simp) (fixed_nospace 4 n) (by cases s <;> decide)
    simpa [Prov.text] using this
  | comet ty y hf o num =>
    obtain ⟨h0, _, _, h1, h2, _⟩ := h
    have := strip_ends_id (a := [ty]) (m := '/' :: Spec.dec y ++ [' ']) (b := [hf] ++ o.toList ++ count num) (by simp) (by simp)
      (by simp at h0 ⊢; rcases h0 with rfl | rfl | rfl | rfl | rfl <;> decide) (by
      simp only [List.mem_append, List.mem_singleton, Option.mem_toList]
      rintro c ((rfl | hc) | hc)
      · exact half_nospace h1
      · exact upper_nospace (h2 c hc)
      · exact count_nospace num c hc)
    simpa [Prov.text] using this
  | fragment ty y hf num f =>
    obtain ⟨h0, _, _, h1, _, _, h2⟩ := h
    have := strip_ends_id (a := [ty]) (m := '/' :: Spec.dec y ++ [' ', hf] ++ count num ++ ['-']) (b := [f]) (by simp) (by simp)
      (by simp at h0 ⊢; rcases h0 with rfl | rfl | rfl | rfl <;> decide) (by simpa using upper_nospace h2)
    simpa [Prov.text] using this
  | satellite y p num =>
    have := strip_ends_id (a := ['S']) (m := '/' :: Spec.dec y ++ [' ', p.letter, ' ']) (b := Spec.dec num) (by simp) (dec_ne num) (by decide) (dec_nospace num)
    simpa [Prov.text] using this

/-! ### what is shown of a value -/

/-- the text of a value, if it is shown -/
def shown (v : Option Val) : Str :=
  match v with
  | some v => if v.truthy then strip v.text else []
  | none => []

theorem itemElements_eq (allowed : List Str) (item : Item) : itemElements allowed item = allowed.flatMap fun x => val x (shown (item.get? x)) := by
  unfold itemElements
  induction allowed with
  | nil => rfl
  | cons x l ih =>
    rw [List.flatMap_cons, ← ih, List.filterMap_cons]
    cases h : item.get? x with
    | none => simp [shown, val]
    | some v =>
      simp only [shown]
      by_cases h1 : v.truthy = true
      · by_cases h2 : strip v.text = []
        · simp [h1, h2, val]
        · simp [h1, h2, val]
      · simp [h1, val]

theorem shown_str (s : Str) : shown (some (.str s)) = strip s := by
  cases s <;> rfl

/-- the keys among the allowed ones with their values -/
def present (allowed : List Str) (item : Item) : List (Str × Val) := allowed.filterMap fun x => (item.get? x).map (x, ·)

theorem itemElements_present (allowed : List Str) (item : Item) : itemElements allowed item = (present allowed item).flatMap fun x => val x.1 (shown (some x.2)) := by
  rw [itemElements_eq, present]
  induction allowed with
  | nil => rfl
  | cons x l ih =>
    rw [List.flatMap_cons, ih, List.filterMap_cons]
    cases h : item.get? x with
    | none => simp [shown, val]
    | some v => simp

/-! ### optical elements -/

/-- position of the observatory -/
structure Place where
  sys : Str
  ctr : Str
  pos1 : Str
  pos2 : Str
  pos3 : Str

/-- an item with the position added -/
def addPlace (item : Item) : Option Place → Item
  | none => item
  | some p => ((((item.put (c! "sys") p.sys).put (c! "ctr") p.ctr).put (c! "pos1") p.pos1).put (c! "pos2") p.pos2).put (c! "pos3") p.pos3

/-- what `putMode` adds apart from the mode -/
def addCode (item : Item) (c : Char) : Item :=
  if c = 'X' then item.put (c! "deprecated") (c! "X") else if c = 'A' then item.put (c! "subFrm") (c! "B1950.0") else item

theorem putMode_eq {item : Item} {c : Char} (h : c ∈ c! "A PeCBTMcEOHNnXSV") : putMode item [c] = .ok ((addCode item c).put (c! "mode") (modeOf c)) := by
  simp at h
  rcases h with h | h | h | h | h | h | h | h | h | h | h | h | h | h | h | h | h <;> subst h <;> rfl

theorem putCat_eq {item : Item} {c : Char} (h : item.get? (c! "astCat") = some (.str [c])) : putCat item = .ok (item.put (c! "astCat") (catName c)) := by
  simp only [putCat, Item.str, h, bind, Except.bind, catName]
  cases dictGet catCodes c <;> rfl

def bandVal (mag : Str) (band : Char) : Val := if trim mag = [] then .none else if band = ' ' then .str (c! "UNK") else .str [band]

theorem putBand_eq {item : Item} {mag : Str} {b : Char} (h1 : item.get? (c! "mag") = some (.str mag)) (h2 : item.get? (c! "band") = some (.str [b])) (hm : Plain mag) (hl : mag ≠ [])
    (hb : b = ' ' ∨ isSpace b = false) : putBand item = .ok (item.set (c! "band") (bandVal mag b)) := by
  simp only [putBand, Item.str, h1, h2, bind, Except.bind, pure, Except.pure, strip_trim hm, bandVal]
  have e : strip [b] = [] ↔ b = ' ' := by
    constructor
    · intro h
      rcases hb with hb | hb
      · exact hb
      · rw [strip_of_none (by simpa using hb)] at h; simp at h
    · rintro rfl; rfl
  simp only [hl, ne_eq, not_false_eq_true, e, true_and]
  by_cases hb' : b = ' '
  · simp only [hb', if_true]
    by_cases ht : trim mag = [] <;> simp [ht, Item.put]
  · simp only [hb', if_false]
    by_cases ht : trim mag = [] <;> simp [ht, Item.put]

/-- what `putProg` does -/
def addProg (item : Item) (stn : Str) (c : Char) : Item :=
  if stn ∈ programCodeSites ∧ c ≠ ' ' then (item.put (c! "prog") (progText c)).put (c! "notes") (c! " ") else item

theorem packProgID_text {c : Char} (h : c ∈ programLetters) : packProgID [c] = .ok (progText c) := by
  have : programLetters.all (fun c => decide (packProgID [c] = .ok (progText c))) = true := by decide +kernel
  simpa using all_mem this h

theorem putProg_eq {item : Item} {stn : Str} {c : Char} (h1 : item.get? (c! "notes") = some (.str [c])) (h2 : item.get? (c! "stn") = some (.str stn))
    (hc : stn ∈ programCodeSites → c = ' ' ∨ c ∈ programLetters) : putProg item = .ok (addProg item stn c) := by
  simp only [putProg, Item.str, h1, h2, bind, Except.bind, addProg]
  by_cases hs : stn ∈ programCodeSites
  · by_cases hb : c = ' '
    · simp [hb, pure, Except.pure]
    · have : c ∈ programLetters := (hc hs).resolve_left hb
      simp [hb, hs, packProgID_text this, pure, Except.pure]
  · simp [hs, pure, Except.pure]

theorem unpackRef_eq {r : RefCols} (h : r.Valid) : ∃ t, unpackRef r.columns = .ok t ∧ strip t = r.text := by
  cases r with
  | page r =>
    refine ⟨r.text, C13_unpack h, ?_⟩
    cases r with
    | mpc n => exact strip_ends_id (a := c! "MPC") (m := c! "  ") (by simp) (dec_ne n) (by decide) (dec_nospace n)
    | mps n => exact strip_ends_id (a := c! "MPS") (m := c! "  ") (by simp) (dec_ne n) (by decide) (dec_nospace n)
  | other t =>
    obtain ⟨h1, h2, h3⟩ := h
    refine ⟨t, ?_, strip_trim h3⟩
    cases t with
    | nil => simp at h1
    | cons c t =>
      have := h2 c (by simp)
      have e : pageStarts = c! "0123456789" ++ c! "@#~" ++ lower26 := by decide
      rw [e] at this
      simp only [List.mem_append, not_or] at this
      obtain ⟨⟨a1, a2⟩, a3⟩ := this
      simp at a2
      have d1 : (c! "0123456789").contains c = false := by simpa using a1
      have d2 : lower26.contains c = false := by simpa using a3
      simp only [RefCols.columns, unpackRef, charAt, List.getElem?_cons_zero, bind, Except.bind, d1, d2, Bool.false_eq_true, if_false, if_neg a2.1, if_neg a2.2.1, if_neg a2.2.2,
        pure, Except.pure]

/-! ### the values -/

theorem prec_text {r : Sexagesimal} (h : r.Valid 3) : shown (some (.num (precOf r))) = precText r := by
  cases r with
  | seconds h' m s d f =>
    obtain ⟨_, _, _, h4, h5, _⟩ := h
    obtain rfl | rfl | rfl : d = 1 ∨ d = 2 ∨ d = 3 := by omega
    all_goals kernel_rfl
  | wholeSeconds h' m s => kernel_rfl
  | minutes h' m d f =>
    obtain ⟨_, _, h4, h5, _⟩ := h
    obtain rfl | rfl : d = 1 ∨ d = 2 := by omega
    all_goals kernel_rfl
  | wholeMinutes h' m => kernel_rfl

/-- the item after `opticalItem` -/
def finalItem (o : Optical) (pl : Option Place) (time ra dec ref : Str) : Item :=
  (addProg (((((addCode (addPlace (lineItem o time ra dec) pl) o.code).put (c! "mode") (modeOf o.code)).put (c! "astCat") (catName o.cat)).set (c! "band") (bandVal o.mag o.band))) o.stn o.note).put (c! "ref") ref

theorem get_addPlace {item : Item} {pl : Option Place} {k : Str} (h : k ∉ [c! "sys", c! "ctr", c! "pos1", c! "pos2", c! "pos3"]) : (addPlace item pl).get? k = item.get? k := by
  cases pl with
  | none => rfl
  | some p =>
    simp only [List.mem_cons, List.not_mem_nil, or_false, not_or] at h
    simp [addPlace, get?_put, Ne.symm h.1, Ne.symm h.2.1, Ne.symm h.2.2.1, Ne.symm h.2.2.2.1, Ne.symm h.2.2.2.2]

theorem get_addCode {item : Item} {c : Char} {k : Str} (h : k ≠ c! "deprecated") (h' : k ≠ c! "subFrm") : (addCode item c).get? k = item.get? k := by
  unfold addCode
  split
  · simp [get?_put, h.symm]
  · split
    · simp [get?_put, h'.symm]
    · rfl

theorem get_line {o : Optical} (h : o.Valid) {time ra dec : Str} :
    (lineItem o time ra dec).get? (c! "code") = some (.str [o.code]) ∧ (lineItem o time ra dec).get? (c! "astCat") = some (.str [o.cat]) ∧
    (lineItem o time ra dec).get? (c! "mag") = some (.str o.mag) ∧ (lineItem o time ra dec).get? (c! "band") = some (.str [o.band]) ∧
    (lineItem o time ra dec).get? (c! "notes") = some (.str [o.note]) ∧ (lineItem o time ra dec).get? (c! "stn") = some (.str o.stn) ∧
    (lineItem o time ra dec).get? (c! "packedref") = some (.str (o.cat :: o.ref.columns)) := by
  have p := parts h
  unfold lineItem checked
  refine ⟨?_, ?_, ?_, ?_, ?_, ?_, ?_⟩ <;>
  simp [normalItem, normalColumns, commonItem, get?_put, get?_set, p.code, p.mag, p.band, p.note, p.stn, p.cat]

theorem opticalItem_eq {o : Optical} (h : o.Valid) {pl : Option Place} {time ra dec : Str} :
    ∃ ref, strip ref = o.ref.text ∧ opticalItem (addPlace (lineItem o time ra dec) pl) [o.code] = .ok (finalItem o pl time ra dec ref) := by
  obtain ⟨ref, h1, h2⟩ := unpackRef_eq h.ref
  refine ⟨ref, h2, ?_⟩
  obtain ⟨g1, g2, g3, g4, g5, g6, g7⟩ := get_line h (time := time) (ra := ra) (dec := dec)
  unfold opticalItem
  rw [bindOk]
  refine ⟨_, putMode_eq h.code, ?_⟩
  rw [bindOk]
  refine ⟨_, putCat_eq (c := o.cat) ?_, ?_⟩
  · rw [get?_put, if_neg (by decide), get_addCode (by decide) (by decide), get_addPlace (by decide)]; exact g2
  rw [bindOk]
  refine ⟨_, putBand_eq (mag := o.mag) (b := o.band) ?_ ?_ h.mag.2 (by intro e; have := h.mag.1; rw [e] at this; simp at this) h.band, ?_⟩
  · rw [get?_put, if_neg (by decide), get?_put, if_neg (by decide), get_addCode (by decide) (by decide), get_addPlace (by decide)]; exact g3
  · rw [get?_put, if_neg (by decide), get?_put, if_neg (by decide), get_addCode (by decide) (by decide), get_addPlace (by decide)]; exact g4
  rw [bindOk]
  refine ⟨_, putProg_eq (stn := o.stn) (c := o.note) ?_ ?_ ?_, ?_⟩
  · rw [get?_set, if_neg (by decide), get?_put, if_neg (by decide), get?_put, if_neg (by decide), get_addCode (by decide) (by decide), get_addPlace (by decide)]; exact g5
  · rw [get?_set, if_neg (by decide), get?_put, if_neg (by decide), get?_put, if_neg (by decide), get_addCode (by decide) (by decide), get_addPlace (by decide)]; exact g6
  · intro hs
    have := h.note
    rwa [if_pos (show o.usesPrograms from hs)] at this
  rw [bindOk]
  refine ⟨o.cat :: o.ref.columns, ?_, ?_⟩
  · rw [str_ok]
    unfold addProg
    have key : (((((addCode (addPlace (lineItem o time ra dec) pl) o.code).put (c! "mode") (modeOf o.code)).put (c! "astCat") (catName o.cat)).set (c! "band") (bandVal o.mag o.band))).get? (c! "packedref") =
        some (.str (o.cat :: o.ref.columns)) := by
      rw [get?_set, if_neg (by decide), get?_put, if_neg (by decide), get?_put, if_neg (by decide), get_addCode (by decide) (by decide), get_addPlace (by decide)]; exact g7
    split
    · rw [get?_put, if_neg (by decide), get?_put, if_neg (by decide)]; exact key
    · exact key
  rw [List.drop_one, List.tail_cons, h1]
  rfl

/-- the position's values -/
def placeVals : Option Place → List (Str × Str)
  | none => []
  | some p => val (c! "sys") (strip p.sys) ++ val (c! "ctr") (strip p.ctr) ++ val (c! "pos1") (strip p.pos1) ++ val (c! "pos2") (strip p.pos2) ++ val (c! "pos3") (strip p.pos3)

theorem val_cons {x : Str} {t : Str} (h : t ≠ []) : val x t = [(x, t)] := by simp [val, h]

/-- the values of the final item among the allowed names -/
def presentVals (o : Optical) (pl : Option Place) (time ra dec ref : Str) : List (Str × Val) :=
  [(c! "permID", ofOpt o.desig.permText), (c! "provID", ofOpt o.desig.provText), (c! "trkSub", ofOpt (trkRead o.desig)), (c! "mode", .str (modeOf o.code)),
   (c! "stn", .str (slice o.line 77 80))] ++
  (match pl with
    | none => []
    | some p => [(c! "sys", .str p.sys), (c! "ctr", .str p.ctr), (c! "pos1", .str p.pos1), (c! "pos2", .str p.pos2), (c! "pos3", .str p.pos3)]) ++
  (if o.stn ∈ programCodeSites ∧ o.note ≠ ' ' then [(c! "prog", .str (progText o.note))] else []) ++
  [(c! "obsTime", .str time), (c! "ra", .str ra), (c! "dec", .str dec), (c! "astCat", .str (catName o.cat)), (c! "mag", .str (slice o.line 65 70)),
   (c! "band", bandVal o.mag o.band), (c! "ref", .str ref), (c! "disc", .str (slice o.line 12 13))] ++
  (if o.code = 'A' then [(c! "subFrm", .str (c! "B1950.0"))] else []) ++
  [(c! "subFmt", .str (c! "M92")), (c! "precTime", .num (.int (10 ^ (6 - o.date.digits)))), (c! "precRA", .num (precOf o.ra)), (c! "precDec", .num (precOf o.dec)),
   (c! "notes", .str (if o.stn ∈ programCodeSites ∧ o.note ≠ ' ' then c! " " else slice o.line 13 14))] ++
  (if o.code = 'X' then [(c! "deprecated", .str (c! "X"))] else [])

theorem present_final (o : Optical) (pl : Option Place) (time ra dec ref : Str) :
    present Sample80.realAllowed.optical (finalItem o pl time ra dec ref) = presentVals o pl time ra dec ref := by
  unfold finalItem presentVals addProg addCode
  generalize hA : modeOf o.code = md
  by_cases hp : o.stn ∈ programCodeSites ∧ o.note ≠ ' '
  · rw [if_pos hp, if_pos hp, if_pos hp]
    by_cases hx : o.code = 'X'
    · rw [if_pos hx, if_pos hx, if_neg (by rw [hx]; decide)]
      cases pl <;> kernel_rfl
    · rw [if_neg hx, if_neg hx]
      by_cases ha : o.code = 'A'
      · rw [if_pos ha, if_pos ha]
        cases pl <;> kernel_rfl
      · rw [if_neg ha, if_neg ha]
        cases pl <;> kernel_rfl
  · rw [if_neg hp, if_neg hp, if_neg hp]
    by_cases hx : o.code = 'X'
    · rw [if_pos hx, if_pos hx, if_neg (by rw [hx]; decide)]
      cases pl <;> kernel_rfl
    · rw [if_neg hx, if_neg hx]
      by_cases ha : o.code = 'A'
      · rw [if_pos ha, if_pos ha]
        cases pl <;> kernel_rfl
      · rw [if_neg ha, if_neg ha]
        cases pl <;> kernel_rfl

theorem shown_opt (t : Option Str) : shown (some (ofOpt t)) = strip (t.getD []) := by
  cases t with
  | none => rfl
  | some t => exact shown_str t

theorem band_shown {mag : Str} {b : Char} (hb : b = ' ' ∨ isSpace b = false) : shown (some (bandVal mag b)) = bandText mag b := by
  unfold bandVal bandText
  split
  · rfl
  · split
    · rfl
    · rename_i h
      rw [shown_str]
      exact strip_of_none (by simpa using hb.resolve_left h)

theorem plain_one {c : Char} (h : c = ' ' ∨ isSpace c = false) : Plain [c] := by
  intro d hd hs
  simp at hd
  subst hd
  rcases h with h | h
  · exact h
  · rw [h] at hs; simp at hs

theorem note_plain {o : Optical} (h : o.Valid) : Plain [o.note] := by
  apply plain_one
  have := h.note
  split at this
  · rcases this with h | h
    · exact Or.inl h
    · have q : programLetters.all (fun c => isSpace c == false) = true := by decide +kernel
      exact Or.inr (by simpa using all_mem q h)
  · have q : noteLetters.all (fun c => decide (c = ' ') || isSpace c == false) = true := by decide +kernel
    simpa using all_mem q this

theorem desig_strip {d : Designation} (h : d.Valid) : strip (d.permText.getD []) = d.permText.getD [] ∧ strip (d.provText.getD []) = d.provText.getD [] ∧
    strip ((trkRead d).getD []) = d.trkText.getD [] := by
  cases d with
  | perm p =>
    refine ⟨perm_strip h, rfl, ?_⟩
    cases p <;> rfl
  | prov q => exact ⟨rfl, prov_strip h, rfl⟩
  | both p q => exact ⟨perm_strip h.1, prov_strip h.2.1, rfl⟩
  | tracklet t => exact ⟨rfl, rfl, strip_of_none fun c hc => trk_nospace (h.2.2.1 c hc)⟩

/-- a text with no white space that is shown as it stands -/
theorem shown_text {t : Str} (h : ∀ c ∈ t, isSpace c = false) : shown (some (.str t)) = t := by rw [shown_str, strip_of_none h]

theorem decimal_nospace (n k : Nat) : ∀ c ∈ Spec.decimal n k, isSpace c = false := by
  simp only [Spec.decimal, List.mem_append, List.mem_singleton]
  rintro c ((hc | rfl) | hc)
  · exact dec_nospace _ c hc
  · rfl
  · exact fixed_nospace _ _ c hc

theorem iso_nospace (y m d w ms : Nat) : ∀ c ∈ isoTime y m d w ('.' :: fixed 3 ms ++ ['Z']), isSpace c = false := by
  simp only [isoTime, List.cons_append, List.mem_append, List.mem_singleton, List.mem_cons, List.not_mem_nil, or_false]
  intro c hc
  have hd := fun n h => dec_nospace n c h
  have hf := fun k n h => fixed_nospace k n c h
  rcases hc with ((((((((((hc | rfl) | hc) | rfl) | hc) | rfl) | hc) | rfl) | hc) | rfl) | hc) | rfl | hc | rfl
  all_goals first | exact hd _ hc | exact hf _ _ hc | rfl

theorem cat_text (c : Char) : strip (catName c) = catName c ∧ catName c ≠ [] := by
  unfold catName
  cases h : dictGet catCodes c with
  | none => exact ⟨rfl, by simp⟩
  | some v =>
    have hm : v ∈ catCodes.map (·.2) := by
      unfold dictGet at h
      rw [Option.map_eq_some_iff] at h
      obtain ⟨x, h1, h2⟩ := h
      have := List.mem_of_find?_eq_some h1
      exact List.mem_map.2 ⟨x, by simpa using this, h2⟩
    have q : (catCodes.map (·.2)).all (fun v => decide (strip v = v) && decide (v ≠ [])) = true := by decide +kernel
    simpa using List.all_eq_true.1 q v hm

theorem mode_text {c : Char} : strip (modeOf c) = modeOf c ∧ modeOf c ≠ [] := by
  let P : Str → Prop := fun t => strip t = t ∧ t ≠ []
  have hi : ∀ (q : Prop) [Decidable q] (a b : Str), P a → P b → P (if q then a else b) := by
    intro q _ a b ha hb
    split
    · exact ha
    · exact hb
  show P (modeOf c)
  unfold modeOf
  repeat (refine hi _ _ _ ⟨rfl, by simp⟩ ?_)
  exact ⟨rfl, by simp⟩

theorem prec_ne (r : Sexagesimal) : precText r ≠ [] := by
  cases r <;> simp only [precText] <;> repeat' split
  all_goals simp

theorem prog_text {c : Char} (h : c ∈ programLetters) : strip (progText c) = progText c := by
  have q : programLetters.all (fun c => decide (strip (progText c) = progText c)) = true := by decide +kernel
  simpa using all_mem q h

theorem elements_eq {o : Optical} (h : o.Valid) {pl : Option Place} {time ra dec ref : Str} (hr : o.Reading time ra dec) (href : strip ref = o.ref.text) :
    itemElements Sample80.realAllowed.optical (finalItem o pl time ra dec ref) = o.values (placeVals pl) time ra dec := by
  have p := parts h
  rw [itemElements_present, present_final]
  unfold presentVals Optical.values
  rw [p.stn, p.mag, p.disc, p.note]
  obtain ⟨d1, d2, d3⟩ := desig_strip h.desig
  obtain ⟨w, ms, _, _, _, ht⟩ := hr.time
  obtain ⟨K, hra, _⟩ := hr.ra
  obtain ⟨L, hdec, _⟩ := hr.dec
  have htime : shown (some (.str time)) = time := shown_text (by rw [ht]; exact iso_nospace _ _ _ _ _)
  have hra' : shown (some (.str ra)) = ra := shown_text (by rw [hra]; exact decimal_nospace _ _)
  have hdec' : shown (some (.str dec)) = dec := shown_text (by
    rw [hdec]
    intro c hc
    rcases List.mem_append.1 hc with hc | hc
    · cases hs : o.south <;> rw [hs] at hc <;> simp at hc
      subst hc; rfl
    · exact decimal_nospace _ _ c hc)
  have n1 : time ≠ [] := by rw [ht]; simp [isoTime]
  have n2 : ra ≠ [] := by rw [hra]; simp [Spec.decimal]
  have n3 : dec ≠ [] := by rw [hdec]; simp [Spec.decimal]
  have hstn : shown (some (.str o.stn)) = o.stn := shown_text h.stn.2
  have n4 : o.stn ≠ [] := by intro e; have := h.stn.1; rw [e] at this; simp at this
  have hdisc : Plain [o.disc] := plain_one (by
    have := h.disc
    simp at this
    rcases this with h | h | h
    · exact Or.inl h
    · exact Or.inr (by rw [h]; rfl)
    · exact Or.inr (by rw [h]; rfl))
  have hpt : shown (some (.num (.int (10 ^ (6 - o.date.digits))))) = Spec.dec (10 ^ (6 - o.date.digits)) := by
    have h0 : (10 ^ (6 - o.date.digits) : Nat) ≠ 0 := by positivity
    have e : intStr (10 ^ (6 - o.date.digits) : Int) = natStr (10 ^ (6 - o.date.digits)) := by
      rw [show (10 ^ (6 - o.date.digits) : Int) = ((10 ^ (6 - o.date.digits) : Nat) : Int) by push_cast; rfl]; rfl
    have e1 : (Val.num (.int (10 ^ (6 - o.date.digits)))).truthy = true := by simp [Val.truthy]
    simp only [shown]
    rw [if_pos e1, Val.text, e, ← dec_eq]
    exact strip_of_none (dec_nospace _)
  have hpl : List.flatMap (fun x => val x.1 (shown (some x.2))) (match pl with
      | none => ([] : List (Str × Val))
      | some p => [(c! "sys", Val.str p.sys), (c! "ctr", .str p.ctr), (c! "pos1", .str p.pos1), (c! "pos2", .str p.pos2), (c! "pos3", .str p.pos3)]) = placeVals pl := by
    cases pl with
    | none => rfl
    | some p => simp [placeVals, shown_str]
  rw [List.flatMap_append, List.flatMap_append, List.flatMap_append, List.flatMap_append, List.flatMap_append, List.flatMap_append, hpl]
  have hpv := prec_text (r := o.dec) (by
    have := h.dec
    cases hd : o.dec <;> rw [hd] at this <;> simp only [Sexagesimal.Valid] at this ⊢ <;> omega)
  have hmag : shown (some (.str o.mag)) = trim o.mag := by rw [shown_str, strip_trim h.mag.2]
  have hdisc' : shown (some (.str [o.disc])) = trim [o.disc] := by rw [shown_str, strip_trim hdisc]
  have hprog : List.flatMap (fun x => val x.1 (shown (some x.2))) (if o.stn ∈ programCodeSites ∧ o.note ≠ ' ' then [(c! "prog", Val.str (progText o.note))] else []) =
      val (c! "prog") (if o.usesPrograms ∧ o.note ≠ ' ' then progText o.note else []) := by
    by_cases hp : o.stn ∈ programCodeSites ∧ o.note ≠ ' '
    · rw [if_pos hp, if_pos (show o.usesPrograms ∧ o.note ≠ ' ' from hp)]
      have := h.note
      rw [if_pos (show o.usesPrograms from hp.1)] at this
      simp [shown_str, prog_text (this.resolve_left hp.2)]
    · rw [if_neg hp, if_neg (show ¬ (o.usesPrograms ∧ o.note ≠ ' ') from hp)]; rfl
  have hnote : shown (some (.str (if o.stn ∈ programCodeSites ∧ o.note ≠ ' ' then c! " " else [o.note]))) = if o.usesPrograms then [] else trim [o.note] := by
    rw [shown_str]
    by_cases hu : o.usesPrograms
    · rw [if_pos hu]
      by_cases hn : o.note = ' '
      · rw [hn]; simp; rfl
      · rw [if_pos ⟨hu, hn⟩]; rfl
    · rw [if_neg hu, if_neg (fun h => hu h.1), strip_trim (note_plain h)]
  have hfrm : List.flatMap (fun x => val x.1 (shown (some x.2))) (if o.code = 'A' then [(c! "subFrm", Val.str (c! "B1950.0"))] else []) =
      val (c! "subFrm") (if o.code = 'A' then c! "B1950.0" else []) := by
    split <;> rfl
  have hdep : List.flatMap (fun x => val x.1 (shown (some x.2))) (if o.code = 'X' then [(c! "deprecated", Val.str (c! "X"))] else []) =
      val (c! "deprecated") (if o.code = 'X' then c! "X" else []) := by
    split <;> rfl
  rw [hprog, hfrm, hdep]
  simp only [List.flatMap_cons, List.flatMap_nil, List.append_nil, shown_opt, d1, d2, d3, htime, hra', hdec', hstn, hmag, hdisc', hpt, band_shown h.band, hnote, hpv, prec_text h.ra]
  simp only [shown_str, href, cat_text, mode_text, val_cons (cat_text o.cat).2, val_cons (mode_text (c := o.code)).2, val_cons n1, val_cons n2, val_cons n3, val_cons n4,
    val_cons (prec_ne o.ra), val_cons (prec_ne o.dec), val_cons (dec_ne _), show strip (c! "M92") = c! "M92" from rfl, val_cons (show c! "M92" ≠ [] by simp)]
  simp only [List.append_assoc, List.cons_append, List.nil_append]

end Verif.Mpc80
