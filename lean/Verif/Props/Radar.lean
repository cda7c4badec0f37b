import Verif.Lemmas.Radar
import Verif.Lemmas.RadarSplit
/-
  C43: radar observations in the 80-column format.
-/
namespace Verif
open Verif.Mpc80 Verif.PackUtil Verif.Spec.Mpc80 Verif.Xml
open Verif.Spec hiding Item Group fileText Group.lines

/-! ### what is read from a file -/

/-- C43: when radar observations are not to be split, every line of the file is read, with its number, up to 80 characters -/
theorem C43_nosplit_lines (ls : List Str) : generator true ls = ((ls.zipIdx 1).map fun x => (x.2, cut x.1), none) := by
  simp [generator, noSplit_eq]

/-- C43: when they are to be split, a file made of such pieces is read piece by piece: two lines with both delay and Doppler shift are read twice, without the one and
    without the other, with the numbers they have in the file; reading ends with an error if the rest of the file begins with a line that is too short or with half of a
    radar observation. -/
theorem C43_split_lines {content : Str} {ps : List Piece} {rest : List Str} (e : Psv.fileLines (Psv.universalNewlines content) = ps.flatMap Piece.lines ++ rest)
    (hp : ∀ p ∈ ps, p.Ok) (hr : rest = [] ∨ Stop rest) :
    generator false (Psv.fileLines (Psv.universalNewlines content)) = (readFrom 1 ps, if rest = [] then none else some .runtimeError) := by
  have raw := fileLines_raw (Psv.universalNewlines content)
  rw [e] at raw ⊢
  obtain ⟨h1, h2, _⟩ := split_pieces ps 1 (rest := rest) (fun p h => ⟨hp p h, fun l hl => raw l (List.mem_append_left _ (List.mem_flatMap.2 ⟨p, h, hl⟩))⟩) (fun l hl => raw l (by simp [hl])) hr
  simp only [generator, Bool.false_eq_true, if_false, h1, h2]

/-- C43: the report at the end names the number of observations that were split, the number of lines of the file and the numbers of the first lines of these observations;
    there is none if nothing was split. -/
theorem C43_report (lx : Lxml) (al : Allowed) {content : Str} {ps : List Piece} (e : Psv.fileLines (Psv.universalNewlines content) = ps.flatMap Piece.lines) (hp : ∀ p ∈ ps, p.Ok)
    (hr : (mpc80coltoxml lx al false content).raised = none) :
    splitReport lx al false content = if twiceFrom 1 ps = [] then none else some ((twiceFrom 1 ps).length, (ps.flatMap Piece.lines).length, twiceFrom 1 ps) := by
  have raw := fileLines_raw (Psv.universalNewlines content)
  rw [e] at raw
  obtain ⟨_, _, h3⟩ := split_pieces ps 1 (rest := []) (fun p h => ⟨hp p h, fun l hl => raw l (List.mem_flatMap.2 ⟨p, h, hl⟩)⟩) (by simp) (Or.inl rfl)
  have h3 := h3 rfl
  rw [List.append_nil] at h3
  unfold splitReport
  simp only [hr, Option.isSome_none, Bool.or_self, Bool.false_eq_true, if_false, e, h3]

/-- C43: every file is of that form -/
theorem C43_split_covers (ls : List Str) : ∃ (ps : List Piece) (rest : List Str), ls = ps.flatMap Piece.lines ++ rest ∧ (∀ p ∈ ps, p.Ok) ∧ (rest = [] ∨ Stop rest) :=
  pieces_exist ls.length ls (Nat.le_refl _)

theorem loop_end {σ : Type} (cb : Callback σ) {e : PyErr} : ∀ (ns : List (Nat × Str)) (st : PState σ), (parseLoop cb (some e) st ns).2 ≠ none
  | [], st => by simp [parseLoop]
  | (n, l) :: ns, st => by
    unfold parseLoop
    split
    · exact loop_end cb ns _
    · simp

/-- C43, a defect: when radar observations are to be split, a line of fewer than 15 characters that is not a header line - an empty line, say -, or the first line of a radar
    observation without a second line, anywhere after complete pieces, means that no document is written and an exception is raised. -/
theorem C43_stopped (lx : Lxml) (al : Allowed) {content : Str} {ps : List Piece} {rest : List Str}
    (e : Psv.fileLines (Psv.universalNewlines content) = ps.flatMap Piece.lines ++ rest) (hp : ∀ p ∈ ps, p.Ok) (hr : Stop rest) :
    (mpc80coltoxml lx al false content).doc = none ∧ (mpc80coltoxml lx al false content).raised ≠ none := by
  have hg := C43_split_lines e hp (Or.inr hr)
  have hne : rest ≠ [] := by obtain ⟨l, r, rfl, _⟩ := hr; simp
  rw [if_neg hne] at hg
  have key : ∃ e out, attempt lx al (generator false (Psv.fileLines (Psv.universalNewlines content))) = (.error e, out) := by
    unfold attempt
    cases convertitPreamble lx with
    | error e => exact ⟨e, _, rfl⟩
    | ok s =>
      simp only
      have := loop_end (e := .runtimeError) (convertCallback lx al) (readFrom 1 ps) ⟨c! "None", [], s, []⟩
      rw [hg]
      unfold parseFile
      cases hx : parseLoop (convertCallback lx al) (some .runtimeError) ⟨c! "None", [], s, []⟩ (readFrom 1 ps) with
      | mk st er =>
        rw [hx] at this
        cases er with
        | none => exact absurd rfl this
        | some er => exact ⟨er, _, rfl⟩
  obtain ⟨er, out, k⟩ := key
  unfold mpc80coltoxml
  simp only [k]
  refine ⟨trivial, ?_⟩
  have := loop_end (e := .runtimeError) noCallback (readFrom 1 ps) ⟨c! "None", [], (), []⟩
  rw [hg]
  exact this

/-! ### one observation -/

theorem elem_gives_radar {lx : Lxml} {al : Allowed} (hn : Names lx) (ht : lx.Accepts (c! "radar") none []) {item : Item} {code : Str} (hcode : code ≠ c! "0") (hc : item.get? (c! "code") = some (.str code))
    (hk : kindOfItem item = some (.elem code true)) {cs : List Cell} (hw : work al lx item code true = .ok cs) : Gives lx al item [madeElem true cs] := by
  refine ⟨by rw [hc]; simpa using hcode, ?_⟩
  obtain ⟨s0, _, h1, h2, h3, h4⟩ := convertItems_eq (al := al) hn
  rw [h4]
  have r0 := kind_run (lx := lx) (al := al) hk (s := s0) (by simp [str_ok.2 hc])
  rw [flush_idle h3] at r0
  simp only at r0
  obtain ⟨s1, k1, k2, k3⟩ := elem_run (b := true) ht hw h1
  simp only [steps, step, r0]
  simp only [runC, k1, reduceCtorEq, if_false, k2.close]
  simp [closeAll, Frame.add, Frame.close, adesDoc]

/-- lxml accepts the names and texts of the elements for this observation -/
def Spec.Mpc80.Rec.Accepted (lx : Lxml) (b : Rec) : Prop := ∀ e, b.Element e → ∀ x ∈ e.kids, lx.Accepts x.tag x.text []

theorem gives_radar {lx : Lxml} (hn : Names lx) (ht : lx.Accepts (c! "radar") none []) {r : Radar} (h : r.Valid) {c : Char}
    (ha : (Rec.radar r).Accepted lx) : Gives lx Sample80.realAllowed (radarItem r c) [r.elem] := by
  have hc := (item_code h (c := c)).2.2
  have acc : ∀ x ∈ r.values r.time, lx.Accepts x.1 (some x.2) [] := by
    intro x hx
    have := ha r.elem rfl (leafOf x.1 x.2) (List.mem_map.2 ⟨x, hx, rfl⟩)
    obtain ⟨a1, a2, a3⟩ := this
    refine ⟨a1, a2, ?_⟩
    intro t et hne
    injection et with et
    subst et
    exact a3 x.2 (by simp [leafOf, hne, Elem.text]) hne
  have hw : work Sample80.realAllowed lx (radarItem r c) ['R'] true = .ok ((r.values r.time).map fun i => ⟨i.1, normText (some i.2), [], []⟩) := by
    unfold work
    rw [if_pos rfl, radar_elements h]
    exact makeElementList_ok acc
  have hk : kindOfItem (radarItem r c) = some (.elem ['R'] true) := by
    unfold kindOfItem
    rw [str_ok.2 hc]
    have : codeType ['R'] = some .radar := by decide
    simp only [this]
  have := elem_gives_radar hn ht (by decide) hc hk hw
  refine (?_ : [madeElem true _] = [r.elem]) ▸ this
  simp only [madeElem, Radar.elem, nodeOf, tagOfKind, List.map_map, Function.comp_def, leaf_cell]
  simp

theorem point_line (d : Designation) (disc note code : Char) (t : ObsDate) (rest : Str) : '.' ∈ dataLine d disc note code t rest := by
  simp [dataLine, ObsDate.column, List.rightpad]

/-- C43: the two lines of a radar observation that the format allows are taken as one observation and converted to one `radar` element, whose values say what the columns
    say: the decimal points where the format has them, the time to the whole second. -/
theorem C43_observation {lx : Lxml} (hn : Names lx) (ht : lx.Accepts (c! "radar") none []) {r : Radar} (h : r.Valid) (ha : (Rec.radar r).Accepted lx) :
    ∃ item, TakenAs r.lines item ∧ Gives lx Sample80.realAllowed item [r.elem] := by
  obtain ⟨c, h1⟩ := decode_radar1 h
  obtain ⟨d, h2⟩ := decode_radar2 h
  refine ⟨radarItem r c, ?_, gives_radar hn ht h ha⟩
  exact taken_pair (x := '.') (y := '.') (by rw [radar_first]; exact point_line _ _ _ _ _ _) (by decide) (radar1_noBreak h (Or.inl rfl)) h1
    (by rw [radar_second]; exact point_line _ _ _ _ _ _) (by decide) (radar2_noBreak h (Or.inl rfl)) h2 (item_code h).1 (item_code h).2.1 (by decide) (by decide) (combine_radars h)

/-! ### splitting -/

theorem blanked_mid {a b c : Str} {i j : Nat} (ha : a.length = i) (hb : b.length = j - i) (hj : i ≤ j) : blanked i j (a ++ b ++ c) = a ++ List.replicate (j - i) ' ' ++ c := by
  unfold blanked
  have e1 : (a ++ b ++ c).take i = a := by rw [List.append_assoc, ← ha, List.take_left]
  have e2 : (a ++ b ++ c).drop j = c := by
    have : (a ++ b).length = j := by simp; omega
    rw [← this, List.drop_left]
  rw [e1, e2]

theorem head_length {r : Radar} (h : r.Valid) (a b c : Char) : (r.desig.columns ++ [a, b, c] ++ r.date.column).length = 32 := by
  simp [columns_length h.desig, date_length h.date]

theorem delayPart_lines {r : Radar} (h : r.Valid) (t : Str) :
    blanked 47 61 (r.first ++ t) = r.delayPart.first ++ t ∧ blanked 47 61 (r.second ++ t) = r.delayPart.second ++ t := by
  constructor
  · have hl := head_length h r.disc r.note 'R'
    have l2 := doppler_length h
    have e : r.first ++ t = (r.desig.columns ++ [r.disc, r.note, 'R'] ++ r.date.column ++ r.delay) ++ r.doppler.take 14 ++ (r.doppler.drop 14 ++ r.frq ++ r.trx ++ r.ref ++ r.rcv ++ t) := by
      conv_lhs => unfold Radar.first; rw [← List.take_append_drop 14 r.doppler]
      simp only [List.append_assoc]
    rw [e, blanked_mid (by rw [List.length_append, hl, h.delay.1]) (by simp [l2]) (by omega)]
    simp only [Radar.first, Radar.delayPart, List.append_assoc]
  · have hl := head_length h r.disc2 r.note2 'r'
    have l2 := h.rmsDoppler.1
    have e : r.second ++ t = (r.desig.columns ++ [r.disc2, r.note2, 'r'] ++ r.date.column ++ [if r.com then 'C' else 'S'] ++ r.rmsDelay) ++ r.rmsDoppler.take 14 ++
        (r.rmsDoppler.drop 14 ++ r.frq2 ++ r.trx ++ r.ref2 ++ r.rcv ++ t) := by
      conv_lhs => unfold Radar.second; rw [← List.take_append_drop 14 r.rmsDoppler]
      simp only [List.append_assoc]
    rw [e, blanked_mid (by rw [List.length_append, List.length_append, hl, h.rmsDelay.1]; rfl) (by simp [l2]) (by omega)]
    simp only [Radar.second, Radar.delayPart, List.append_assoc]
    rfl

theorem dopplerPart_lines {r : Radar} (h : r.Valid) (t : Str) :
    blanked 34 47 (r.first ++ t) = r.dopplerPart.first ++ t ∧ blanked 34 47 (r.second ++ t) = r.dopplerPart.second ++ t := by
  constructor
  · have hl := head_length h r.disc r.note 'R'
    have l2 := h.delay.1
    have e : r.first ++ t = (r.desig.columns ++ [r.disc, r.note, 'R'] ++ r.date.column ++ r.delay.take 2) ++ r.delay.drop 2 ++ (r.doppler ++ r.frq ++ r.trx ++ r.ref ++ r.rcv ++ t) := by
      conv_lhs => unfold Radar.first; rw [← List.take_append_drop 2 r.delay]
      simp only [List.append_assoc]
    rw [e, blanked_mid (by rw [List.length_append, hl, List.length_take, l2]; rfl) (by simp [l2]) (by omega)]
    simp only [Radar.first, Radar.dopplerPart, List.append_assoc]
  · have hl := head_length h r.disc2 r.note2 'r'
    have l2 := h.rmsDelay.1
    have e : r.second ++ t = (r.desig.columns ++ [r.disc2, r.note2, 'r'] ++ r.date.column ++ [if r.com then 'C' else 'S'] ++ r.rmsDelay.take 1) ++ r.rmsDelay.drop 1 ++
        (r.rmsDoppler ++ r.frq2 ++ r.trx ++ r.ref2 ++ r.rcv ++ t) := by
      conv_lhs => unfold Radar.second; rw [← List.take_append_drop 1 r.rmsDelay]
      simp only [List.append_assoc]
    rw [e, blanked_mid (by rw [List.length_append, List.length_append, hl, List.length_take, l2]; rfl) (by simp [l2]) (by omega)]
    simp only [Radar.second, Radar.dopplerPart, List.append_assoc]
    rfl

theorem digits_part {w i : Nat} {t : Str} (h : Digits w t) : Digits w (t.take i ++ List.replicate (w - i) ' ') ∧ Digits w (List.replicate (min i w) ' ' ++ t.drop i) := by
  have hb : ' ' ∈ c! "0123456789 ." := by decide
  refine ⟨⟨by simp [h.1]; omega, ?_⟩, by simp [h.1]; omega, ?_⟩
  · intro c hc
    rcases List.mem_append.1 hc with hc | hc
    · exact h.2 c (List.mem_of_mem_take hc)
    · rw [(List.mem_replicate.1 hc).2]; exact hb
  · intro c hc
    rcases List.mem_append.1 hc with hc | hc
    · rw [(List.mem_replicate.1 hc).2]; exact hb
    · exact h.2 c (List.mem_of_mem_drop hc)

theorem delayPart_valid {r : Radar} (h : r.Valid) : r.delayPart.Valid := by
  refine { h with doppler := ⟨?_, ' ', by simp, by simp [Radar.delayPart, List.replicate]⟩, rmsDoppler := (digits_part (i := 14) h.rmsDoppler).2 }
  have := (digits_part (i := 13) h.doppler.1).2
  rw [List.drop_drop] at this
  exact this

theorem dopplerPart_valid {r : Radar} (h : r.Valid) : r.dopplerPart.Valid :=
  { h with delay := (digits_part (i := 2) h.delay).1, rmsDelay := (digits_part (i := 1) h.rmsDelay).1 }

theorem split_valid {r : Radar} (h : r.Valid) : ∀ x ∈ r.split, x.Valid := by
  intro x hx
  unfold Radar.split at hx
  split at hx
  · simp at hx
    rcases hx with rfl | rfl
    · exact delayPart_valid h
    · exact dopplerPart_valid h
  · simp at hx; subst hx; exact h

theorem both_used {r : Radar} (h : r.Valid) : (used 34 47 (r.first ++ ['\n']) ∧ used 47 61 (r.first ++ ['\n'])) ↔ r.both := by
  have q := radar1_cols h
  have c1 : slice r.first 34 47 = r.delay.drop 2 := by rw [← q.delay, drop_slice]
  have c2 : slice r.first 47 61 = r.doppler.take 14 := by rw [← q.doppler]; simp [slice, List.take_take]
  have key : ∀ i j, j ≤ 80 → (used i j (r.first ++ ['\n']) ↔ strip (slice r.first i j) ≠ []) := by
    intro i j hj
    rw [strip_used]
    unfold used slice
    have : (r.first ++ ['\n']).take j = r.first.take j := List.take_append_of_le_length (by rw [q.len]; exact hj)
    rw [this, List.drop_take]
  unfold Radar.both
  rw [key 34 47 (by omega), key 47 61 (by omega), c1, c2, strip_trim (Plain.sub (digits_plain h.delay) fun c hc => List.mem_of_mem_drop hc),
    strip_trim (Plain.sub (doppler_plain h) fun c hc => List.mem_of_mem_take hc)]

theorem cut_line {l : Str} (h : l.length ≤ 80) : cut (l ++ ['\n']) = l ++ ['\n'] := List.take_of_length_le (by simp; omega)

/-- the pieces of an observation -/
def Spec.Mpc80.Rec.pieces : Rec → List Piece
  | .optical b => b.lines.map fun l => .one (l ++ ['\n'])
  | .radar r => [.two (r.first ++ ['\n']) (r.second ++ ['\n'])]

theorem one_kept {l : Str} (h : Kept l) : (Piece.one (l ++ ['\n'])).Ok ∧ ∀ n, (Piece.one (l ++ ['\n'])).read n = [(n, l ++ ['\n'])] := by
  refine ⟨?_, fun n => by rw [Piece.read, cut_line h.2.2.1]⟩
  rcases h.2.2.2 with hh | ⟨c, h1, h2⟩
  · exact Or.inl ((headed_match ⟨l, ['\n'], rfl, h.1, Or.inr rfl⟩).1 hh)
  · exact Or.inr ⟨c, by rw [List.getElem?_append_left (List.getElem?_eq_some_iff.1 h1).1]; exact h1, h2⟩

theorem radar_piece {r : Radar} (h : r.Valid) : (Piece.two (r.first ++ ['\n']) (r.second ++ ['\n'])).Ok ∧
    ∀ n, ((Piece.two (r.first ++ ['\n']) (r.second ++ ['\n'])).read n).map (·.2) = (r.split.flatMap Radar.lines).map (· ++ ['\n']) := by
  have p := radar1_cols h
  have q := radar2_cols h
  have hn := radar1_noBreak h (Or.inl rfl)
  have g : ∀ {s : Str} {c : Char}, s.length = 80 → slice s 14 15 = [c] → (s ++ ['\n'])[14]? = some c := by
    intro s c hl hs
    rw [List.getElem?_append_left (by omega)]
    have : s[14]? = (slice s 14 15)[0]? := by simp [slice]
    rw [this, hs]; rfl
  refine ⟨⟨?_, g p.len p.code, g q.len q.code⟩, ?_⟩
  · intro hh
    have := (headed_match ⟨r.first, ['\n'], rfl, hn, Or.inr rfl⟩).2 hh
    have e := not_header (disc := r.disc) (note := r.note) (code := 'R') (t := r.date) (rest := radarRest1 r) h.desig h.noExt.1 h.noExt.2 (by rw [← radar_first]; exact hn)
    rw [← radar_first] at e
    have e2 := header_match (t := []) hn (Or.inl rfl)
    have e3 := header_match (t := ['\n']) hn (Or.inr rfl)
    rw [List.append_nil, e] at e2
    rw [e3, ← e2] at this
    simp at this
  · intro n
    rw [Piece.read, cut_line (by rw [p.len]), cut_line (by rw [q.len])]
    obtain ⟨d1, d2⟩ := delayPart_lines h ['\n']
    obtain ⟨d3, d4⟩ := dopplerPart_lines h ['\n']
    unfold Radar.split
    by_cases hb : r.both
    · rw [if_pos ((both_used h).2 hb), if_pos hb, d1, d2, d3, d4]; rfl
    · rw [if_neg (fun e => hb ((both_used h).1 e)), if_neg hb]; rfl

/-! ### files -/

theorem readFrom_lines : ∀ (ps : List Piece) (n : Nat) {f : Piece → List Str}, (∀ p ∈ ps, ∀ n, (p.read n).map (·.2) = f p) → (readFrom n ps).map (·.2) = ps.flatMap f
  | [], _, _, _ => rfl
  | p :: ps, n, f, h => by
    rw [readFrom, List.map_append, h p (by simp), readFrom_lines ps _ fun q hq => h q (by simp [hq])]
    rfl

/-- the lines that neither generator drops -/
structure Fine (l : Str) : Prop where
  nl : '\n' ∉ l
  cr : '\r' ∉ l
  len : l.length ≤ 80

theorem fileText_fine {ls : List Str} (h : ∀ l ∈ ls, Fine l) : Psv.fileLines (Psv.universalNewlines (fileText ls)) = ls.map (· ++ ['\n']) := by
  have hr : '\r' ∉ fileText ls := by
    unfold fileText
    simp only [List.mem_flatMap, List.mem_append, List.mem_singleton, not_exists, not_and, not_or]
    exact fun l hl => ⟨(h l hl).cr, by decide⟩
  rw [Psv.universalNewlines_id hr]
  clear hr
  induction ls with
  | nil => rfl
  | cons l ls ih =>
    have e : fileText (l :: ls) = l ++ '\n' :: fileText ls := by simp [fileText]
    rw [e, Psv.fileLines_line (h l (by simp)).nl, ih fun x hx => h x (by simp [hx])]
    rfl

theorem rec_fine {b : Rec} (h : b.Valid) : ∀ l ∈ b.lines, Fine l := by
  cases b with
  | optical b => exact fun l hl => let k := kept_obs h l hl; ⟨k.1, k.2.1, k.2.2.1⟩
  | radar r =>
    intro l hl
    simp [Rec.lines, Radar.lines] at hl
    rcases hl with rfl | rfl
    · exact ⟨radar1_noBreak h (Or.inl rfl), radar1_noBreak h (Or.inr rfl), by rw [(radar1_cols h).len]⟩
    · exact ⟨radar2_noBreak h (Or.inl rfl), radar2_noBreak h (Or.inr rfl), by rw [(radar2_cols h).len]⟩

theorem group_fine {g : RecGroup} (h : g.Valid) : ∀ l ∈ g.lines, Fine l := by
  intro l hl
  rw [RecGroup.lines, List.mem_append, List.mem_map, List.mem_flatMap] at hl
  rcases hl with ⟨x, hx, rfl⟩ | ⟨b, hb, hl⟩
  · obtain ⟨h1, h2, h3⟩ := h.headers x hx
    have k := (header_line h1 h2 h3).1
    exact ⟨k.1, k.2.1, k.2.2.1⟩
  · exact rec_fine (h.recs b hb) l hl

theorem rec_pieces {b : Rec} (h : b.Valid) : b.pieces.flatMap Piece.lines = b.lines.map (· ++ ['\n']) ∧ (∀ p ∈ b.pieces, p.Ok) ∧
    ∀ n, (readFrom n b.pieces).map (·.2) = (b.split.flatMap Rec.lines).map (· ++ ['\n']) := by
  cases b with
  | optical b =>
    refine ⟨?_, ?_, ?_⟩
    · simp only [Rec.pieces, Rec.lines, List.flatMap_map, Piece.lines]
      induction b.lines <;> simp_all
    · intro p hp
      simp only [Rec.pieces, List.mem_map] at hp
      obtain ⟨l, hl, rfl⟩ := hp
      exact (one_kept (kept_obs h l hl)).1
    · intro n
      rw [readFrom_lines _ n (f := Piece.lines)]
      · simp only [Rec.pieces, List.flatMap_map, Piece.lines, Rec.split, List.flatMap_cons, List.flatMap_nil, List.append_nil, Rec.lines]
        induction b.lines <;> simp_all
      · intro p hp n
        simp only [Rec.pieces, List.mem_map] at hp
        obtain ⟨l, hl, rfl⟩ := hp
        rw [(one_kept (kept_obs h l hl)).2 n]; rfl
  | radar r =>
    obtain ⟨h1, h2⟩ := radar_piece h
    refine ⟨rfl, by simpa [Rec.pieces] using h1, fun n => ?_⟩
    simp only [Rec.pieces, readFrom, List.append_nil, h2, Rec.split, List.flatMap_map]
    rfl

/-- the pieces of a group -/
def Spec.Mpc80.RecGroup.pieces (g : RecGroup) : List Piece := g.headers.map (fun h => .one (h.1 ++ [' '] ++ h.2 ++ ['\n'])) ++ g.recs.flatMap Rec.pieces

/-- the lines of a group as they are taken, item by item -/
def Spec.Mpc80.RecGroup.units (g : RecGroup) (nosplit : Bool) : List (List Str) := g.headers.map (fun h => [h.1 ++ [' '] ++ h.2]) ++ (g.taken nosplit).map Rec.lines

theorem readFrom_append : ∀ (ps qs : List Piece) (n : Nat), ∃ m, readFrom n (ps ++ qs) = readFrom n ps ++ readFrom m qs
  | [], qs, n => ⟨n, rfl⟩
  | p :: ps, qs, n => by
    obtain ⟨m, hm⟩ := readFrom_append ps qs (n + p.lines.length)
    exact ⟨m, by rw [List.cons_append, readFrom, readFrom, hm, List.append_assoc]⟩

theorem readFrom_flatMap {α : Type} {f : α → List Piece} {g : α → List Str} : ∀ {l : List α}, (∀ x ∈ l, ∀ n, (readFrom n (f x)).map (·.2) = g x) → ∀ n, (readFrom n (l.flatMap f)).map (·.2) = l.flatMap g
  | [], _, _ => rfl
  | x :: l, h, n => by
    obtain ⟨m, hm⟩ := readFrom_append (f x) (l.flatMap f) n
    rw [List.flatMap_cons, hm, List.map_append, h x (by simp), readFrom_flatMap (l := l) fun y hy => h y (by simp [hy])]
    rfl

theorem map_flatMap' {α : Type} {f : α → List Str} (g : Str → Str) (l : List α) : (l.flatMap f).map g = l.flatMap fun x => (f x).map g := by
  induction l <;> simp_all

theorem flatMap_cong {α β : Type} {f g : α → List β} {l : List α} (h : ∀ x ∈ l, f x = g x) : l.flatMap f = l.flatMap g := by
  induction l with
  | nil => rfl
  | cons a l ih => rw [List.flatMap_cons, List.flatMap_cons, h a (by simp), ih fun x hx => h x (by simp [hx])]

theorem flatMap_flatMap' {α β γ : Type} {f : α → List β} {g : β → List γ} (l : List α) : (l.flatMap f).flatMap g = l.flatMap fun x => (f x).flatMap g := by
  induction l with
  | nil => rfl
  | cons a l ih => rw [List.flatMap_cons, List.flatMap_append, ih, List.flatMap_cons]

theorem flatten_one (l : List (Str × Str)) : (l.map fun h => [h.1 ++ [' '] ++ h.2]).flatten = l.map fun h => h.1 ++ [' '] ++ h.2 := by induction l <;> simp_all

theorem units_true (g : RecGroup) : (g.units true).flatten = g.lines := by
  simp only [RecGroup.units, RecGroup.lines, RecGroup.taken, if_true, List.flatten_append, List.flatMap_def, flatten_one]

theorem group_pieces {g : RecGroup} (h : g.Valid) : g.pieces.flatMap Piece.lines = g.lines.map (· ++ ['\n']) ∧ (∀ p ∈ g.pieces, p.Ok) ∧
    ∀ n, (readFrom n g.pieces).map (·.2) = (g.units false).flatten.map (· ++ ['\n']) := by
  have hk : ∀ x ∈ g.headers, Kept (x.1 ++ [' '] ++ x.2) := fun x hx => (header_line (h.headers x hx).1 (h.headers x hx).2.1 (h.headers x hx).2.2).1
  have e1 : ∀ l : List (Str × Str), (l.map fun h => Piece.one (h.1 ++ [' '] ++ h.2 ++ ['\n'])).flatMap Piece.lines = (l.map fun h => h.1 ++ [' '] ++ h.2).map (· ++ ['\n']) := by
    intro l; induction l <;> simp_all [Piece.lines]
  refine ⟨?_, ?_, ?_⟩
  · rw [RecGroup.pieces, RecGroup.lines, List.flatMap_append, List.map_append, e1, flatMap_flatMap', map_flatMap']
    congr 1
    exact flatMap_cong fun b hb => (rec_pieces (h.recs b hb)).1
  · intro p hp
    rw [RecGroup.pieces, List.mem_append, List.mem_map, List.mem_flatMap] at hp
    rcases hp with ⟨x, hx, rfl⟩ | ⟨b, hb, hp⟩
    · exact (one_kept (hk x hx)).1
    · exact (rec_pieces (h.recs b hb)).2.1 p hp
  · intro n
    obtain ⟨m, hm⟩ := readFrom_append (g.headers.map fun h => Piece.one (h.1 ++ [' '] ++ h.2 ++ ['\n'])) (g.recs.flatMap Rec.pieces) n
    rw [RecGroup.pieces, hm, List.map_append, RecGroup.units, List.flatten_append, List.map_append]
    congr 1
    · rw [readFrom_lines _ n (f := Piece.lines), e1, flatten_one]
      intro p hp n
      obtain ⟨x, hx, rfl⟩ := List.mem_map.1 hp
      rw [(one_kept (hk x hx)).2 n]; rfl
    · rw [readFrom_flatMap (g := fun b => (b.split.flatMap Rec.lines).map (· ++ ['\n'])) fun b hb n => (rec_pieces (h.recs b hb)).2.2 n]
      simp only [RecGroup.taken, Bool.false_eq_true, if_false]
      rw [← List.flatMap_def, flatMap_flatMap', map_flatMap']

theorem taken_valid {g : RecGroup} (h : g.Valid) (nosplit : Bool) : ∀ b ∈ g.taken nosplit, b.Valid := by
  cases nosplit with
  | true => exact h.recs
  | false =>
    intro b hb
    simp only [RecGroup.taken, Bool.false_eq_true, if_false, List.mem_flatMap] at hb
    obtain ⟨a, ha, hb⟩ := hb
    have hv := h.recs a ha
    cases a with
    | optical o => simp [Rec.split] at hb; subst hb; exact hv
    | radar r =>
      simp only [Rec.split, List.mem_map] at hb
      obtain ⟨x, hx, rfl⟩ := hb
      exact split_valid hv x hx

theorem taken_ne {g : RecGroup} (h : g.Valid) (nosplit : Bool) : g.taken nosplit ≠ [] := by
  cases nosplit with
  | true => exact h.seen
  | false =>
    simp only [RecGroup.taken, Bool.false_eq_true, if_false]
    obtain ⟨b, hb⟩ := List.exists_mem_of_ne_nil _ h.seen
    have : b.split ≠ [] := by
      cases b with
      | optical o => simp [Rec.split]
      | radar r => simp only [Rec.split, Radar.split]; split <;> simp
    obtain ⟨x, hx⟩ := List.exists_mem_of_ne_nil _ this
    exact List.ne_nil_of_mem (List.mem_flatMap.2 ⟨b, hb, hx⟩)

theorem rec_items {lx : Lxml} (hn : Names lx) (ht : lx.Accepts (c! "optical") none []) (ht2 : lx.Accepts (c! "radar") none []) {l : List Rec} (h : ∀ b ∈ l, b.Valid ∧ b.Accepted lx) :
    ∃ items es, Spec.Each TakenAs (l.map Rec.lines) items ∧ Spec.Each (Gives lx Sample80.realAllowed) items (es.map fun e => [e]) ∧ Spec.Each Rec.Element l es := by
  induction l with
  | nil => exact ⟨[], [], .nil, .nil, .nil⟩
  | cons b l ih =>
    obtain ⟨items, es, h1, h2, h3⟩ := ih fun y hy => h y (by simp [hy])
    obtain ⟨hv, ha⟩ := h b (by simp)
    cases b with
    | optical o =>
      obtain ⟨item, e, k1, k2, k3⟩ := C38_observation hn ht (b := o) hv ha
      exact ⟨item :: items, e :: es, .cons k1 h1, .cons k3 h2, .cons k2 h3⟩
    | radar r =>
      obtain ⟨item, k1, k2⟩ := C43_observation hn ht2 (r := r) hv ha
      exact ⟨item :: items, r.elem :: es, .cons k1 h1, .cons k2 h2, .cons rfl h3⟩

theorem rec_part {lx : Lxml} (hn : Names lx) (ht : lx.Accepts (c! "optical") none []) (ht2 : lx.Accepts (c! "radar") none []) {g : RecGroup} (nosplit : Bool) (h : g.Valid)
    (ha : ∀ b ∈ g.taken nosplit, b.Accepted lx) (hh : HeadersOk lx g.headers) :
    ∃ (p : Part) (es : List Elem), Spec.Each TakenAs (g.units nosplit) p.items ∧ p.Ok lx Sample80.realAllowed ∧ p.dataItems ≠ [] ∧ p.elems.flatten ≠ [] ∧
      p.block = ⟨g.headers, es⟩ ∧ Spec.Each Rec.Element (g.taken nosplit) es := by
  obtain ⟨hs, a1, a2⟩ := head_items h.headers
  obtain ⟨ds, es, b1, b2, b3⟩ := rec_items hn ht ht2 (fun b hb => ⟨taken_valid h nosplit b hb, ha b hb⟩)
  have fl : (es.map fun e => [e]).flatten = es := by
    clear b2 b3
    induction es <;> simp_all
  have hne : es ≠ [] := by
    rintro rfl
    generalize hq : g.taken nosplit = l at b3
    generalize hq2 : ([] : List Elem) = m at b3
    cases b3 with
    | nil => exact taken_ne h nosplit hq
    | cons => simp at hq2
  refine ⟨⟨hs, ds, g.headers, es.map fun e => [e]⟩, es, each_append a1 b1, ⟨a2, b2, h.headed, hh⟩, ?_, ?_, ?_, b3⟩
  · rintro rfl
    generalize hq2 : ([] : List Item) = m at b2
    cases hes : es with
    | nil => exact hne hes
    | cons e es' =>
      rw [hes] at b2
      cases b2
      simp at hq2
  · simpa [fl] using hne
  · simp [Part.block, fl]

theorem rec_parts {lx : Lxml} (hn : Names lx) (ht : lx.Accepts (c! "optical") none []) (ht2 : lx.Accepts (c! "radar") none []) (nosplit : Bool) : ∀ {gs : List RecGroup},
    (∀ g ∈ gs, g.Valid ∧ (∀ b ∈ g.taken nosplit, b.Accepted lx) ∧ HeadersOk lx g.headers) →
    ∃ (ps : List Part) (ess : List (List Elem)), Spec.Each TakenAs (gs.flatMap (·.units nosplit)) (ps.flatMap Part.items) ∧
      (∀ p ∈ ps, p.Ok lx Sample80.realAllowed ∧ p.dataItems ≠ []) ∧ (∀ p ∈ ps, p.elems.flatten ≠ []) ∧
      ps.map (fun p => p.block.elem) = List.zipWith (fun g es => (Block.mk g.headers es).elem) gs ess ∧ Spec.Each (fun g es => Spec.Each Rec.Element (RecGroup.taken g nosplit) es) gs ess
  | [], _ => ⟨[], [], .nil, by simp, by simp, rfl, .nil⟩
  | g :: gs, h => by
    obtain ⟨ps, ess, h1, h2, h3, h4, h5⟩ := rec_parts hn ht ht2 nosplit (gs := gs) fun x hx => h x (by simp [hx])
    obtain ⟨g1, g2, g3⟩ := h g (by simp)
    obtain ⟨p, es, k1, k2, k3, k4, k5, k6⟩ := rec_part hn ht ht2 nosplit g1 g2 g3
    refine ⟨p :: ps, es :: ess, ?_, ?_, ?_, ?_, .cons k6 h5⟩
    · rw [List.flatMap_cons, List.flatMap_cons]; exact each_append k1 h1
    · intro q hq
      rcases List.mem_cons.1 hq with rfl | hq
      · exact ⟨k2, k3⟩
      · exact h2 q hq
    · intro q hq
      rcases List.mem_cons.1 hq with rfl | hq
      · exact k4
      · exact h3 q hq
    · simp [h4, k5]

/-- C43: a file made of header lines and of optical and radar observations that the format allows is converted to a document with one block per group, which has the context
    the header lines stand for, and one element per observation, in order, that says what its lines say; if radar observations are to be split, an observation of both
    delay and Doppler shift counts as two, one without columns 48-61 and one without columns 35-47. -/
theorem C43_file {lx : Lxml} (hn : Names lx) (ht : lx.Accepts (c! "optical") none []) (ht2 : lx.Accepts (c! "radar") none []) (nosplit : Bool) {gs : List RecGroup}
    (h : ∀ g ∈ gs, g.Valid ∧ (∀ b ∈ g.taken nosplit, b.Accepted lx) ∧ HeadersOk lx g.headers) :
    ∃ ess : List (List Elem), Spec.Each (fun g es => Spec.Each Rec.Element (RecGroup.taken g nosplit) es) gs ess ∧
      (mpc80coltoxml lx Sample80.realAllowed nosplit (fileText (gs.flatMap RecGroup.lines))).doc =
        some (adesDoc (List.zipWith (fun g es => (Block.mk g.headers es).elem) gs ess)) ∧
      (mpc80coltoxml lx Sample80.realAllowed nosplit (fileText (gs.flatMap RecGroup.lines))).raised = none := by
  obtain ⟨ps, ess, h1, h2, h3, h4, h5⟩ := rec_parts hn ht ht2 nosplit h
  have hf : ∀ l ∈ gs.flatMap RecGroup.lines, Fine l := by
    intro l hl
    obtain ⟨g, hg, hl⟩ := List.mem_flatMap.1 hl
    exact group_fine (h g hg).1 l hl
  have hgen : ∃ ns, generator nosplit ((gs.flatMap RecGroup.lines).map (· ++ ['\n'])) = (ns, none) ∧ ns.map (·.2) = (gs.flatMap (·.units nosplit)).flatten.map (· ++ ['\n']) := by
    cases nosplit with
    | true =>
      refine ⟨_, C43_nosplit_lines _, ?_⟩
      have hu : (gs.flatMap (·.units true)).flatten = gs.flatMap RecGroup.lines := by
        clear * -
        induction gs with
        | nil => rfl
        | cons g gs ih => rw [List.flatMap_cons, List.flatMap_cons, List.flatten_append, ih, units_true]
      rw [hu]
      generalize gs.flatMap RecGroup.lines = ls at hf
      clear * - hf
      have : ∀ (ls : List Str) (n : Nat), (∀ l ∈ ls, Fine l) → (((ls.map (· ++ ['\n'])).zipIdx n).map fun x => ((x.2, cut x.1) : Nat × Str)).map (·.2) = ls.map (· ++ ['\n']) := by
        intro ls
        induction ls with
        | nil => intro n _; rfl
        | cons l ls ih =>
          intro n hl
          simp only [List.map_cons, List.zipIdx_cons, cut_line (hl l (by simp)).len]
          congr 1
          exact ih (n + 1) fun x hx => hl x (by simp [hx])
      exact this ls 1 hf
    | false =>
      have e : (gs.flatMap RecGroup.lines).map (· ++ ['\n']) = (gs.flatMap RecGroup.pieces).flatMap Piece.lines ++ [] := by
        rw [List.append_nil, map_flatMap', flatMap_flatMap']
        exact (flatMap_cong fun g hg => (group_pieces (h g hg).1).1).symm
      have hg := C43_split_lines (content := fileText (gs.flatMap RecGroup.lines)) (ps := gs.flatMap RecGroup.pieces) (rest := []) (by rw [fileText_fine hf]; exact e) (by
        intro p hp
        obtain ⟨g, hg, hp⟩ := List.mem_flatMap.1 hp
        exact (group_pieces (h g hg).1).2.1 p hp) (Or.inl rfl)
      rw [fileText_fine hf, if_pos rfl] at hg
      refine ⟨_, hg, ?_⟩
      rw [readFrom_flatMap (g := fun g => (RecGroup.units g false).flatten.map (· ++ ['\n'])) (fun g hg n => (group_pieces (h g hg).1).2.2 n), ← map_flatMap']
      congr 1
      clear * -
      induction gs with
      | nil => rfl
      | cons g gs ih => rw [List.flatMap_cons, List.flatMap_cons, List.flatten_append, ih]
  obtain ⟨ns, n1, n2⟩ := hgen
  obtain ⟨st, s1, s2⟩ := taken_all h1 ns n2 ⟨c! "None", [], [], []⟩ rfl
  refine ⟨ess, h5, ?_⟩
  refine C37_file nosplit _ (st := st) ?_ ?_
  · rw [fileText_fine hf, n1]
    exact s2
  · rw [s1]
    have := C37_document hn h2 (fun p hp => h3 p (List.dropLast_subset _ hp))
    simpa [h4] using this

/-! ### the two parts of an observation -/

theorem trim_blanks {t : Str} (h : ∀ c ∈ t, c = ' ') : trim t = [] := by
  have : t.dropWhile (· = ' ') = [] := by
    induction t with
    | nil => rfl
    | cons c t ih => rw [h c (by simp)]; simpa using ih fun x hx => h x (by simp [hx])
  simp [trim, this]

theorem number_blank {k : Nat} {t : Str} (h : ∀ c ∈ t, c = ' ') : number k t = [] := by
  unfold number
  rw [if_pos (trim_blanks h)]

theorem signedNumber_blank {k : Nat} {t : Str} (h : ∀ c ∈ t, c = ' ') : signedNumber k t = [] := by
  unfold signedNumber
  rw [if_pos (trim_blanks h)]

theorem val_filter (p : Str → Bool) (n t : Str) : (val n t).filter (fun x => p x.1) = if p n then val n t else [] := by
  unfold val
  by_cases h : t = [] <;> by_cases q : p n <;> simp [h, q]

/-- C43: if columns 33-34 and 62 of the first line and columns 34 and 62 of the second are blank, the observation is split cleanly: one part has everything but the Doppler
    shift and its uncertainty, the other everything but the delay and its uncertainty. -/
theorem C43_split_clean {r : Radar} (time : Str) (h1 : ∀ c ∈ r.delay.take 2, c = ' ') (h2 : ∀ c ∈ r.doppler.drop 14, c = ' ') (h3 : ∀ c ∈ r.rmsDelay.take 1, c = ' ')
    (h4 : ∀ c ∈ r.rmsDoppler.drop 14, c = ' ') :
    r.delayPart.values time = (r.values time).filter (fun x => x.1 ∉ [c! "doppler", c! "rmsDoppler"]) ∧
    r.dopplerPart.values time = (r.values time).filter (fun x => x.1 ∉ [c! "delay", c! "rmsDelay"]) := by
  have b : ∀ {a b : Str}, (∀ c ∈ a, c = ' ') → (∀ c ∈ b, c = ' ') → ∀ c ∈ a ++ b, c = ' ' := by
    intro a b ha hb c hc
    rcases List.mem_append.1 hc with hc | hc
    · exact ha c hc
    · exact hb c hc
  have rep : ∀ n, ∀ c ∈ List.replicate n ' ', c = ' ' := fun n c hc => (List.mem_replicate.1 hc).2
  have e1 : signedNumber 11 (List.replicate 14 ' ' ++ r.doppler.drop 14) = [] := signedNumber_blank (b (rep _) h2)
  have e2 : number 11 (List.replicate 14 ' ' ++ r.rmsDoppler.drop 14) = [] := number_blank (b (rep _) h4)
  have e3 : number 5 (r.delay.take 2 ++ List.replicate 13 ' ') = [] := number_blank (b h1 (rep _))
  have e4 : number 10 (r.rmsDelay.take 1 ++ List.replicate 13 ' ') = [] := number_blank (b h3 (rep _))
  have v : ∀ n, val n [] = [] := fun n => rfl
  constructor
  · have keep : ∀ (n t : Str), n ∉ [c! "doppler", c! "rmsDoppler"] → (val n t).filter (fun x => x.1 ∉ [c! "doppler", c! "rmsDoppler"]) = val n t :=
      fun n t h => (val_filter (fun n => decide (n ∉ [c! "doppler", c! "rmsDoppler"])) n t).trans (if_pos (decide_eq_true h))
    have drop : ∀ (n t : Str), n ∈ [c! "doppler", c! "rmsDoppler"] → (val n t).filter (fun x => x.1 ∉ [c! "doppler", c! "rmsDoppler"]) = [] :=
      fun n t h => (val_filter (fun n => decide (n ∉ [c! "doppler", c! "rmsDoppler"])) n t).trans (if_neg (by simp only [decide_eq_true_eq]; exact fun k => k h))
    simp only [Radar.values, Radar.delayPart, e1, e2, v, List.append_nil, List.filter_append]
    rw [keep _ _ (by decide), keep _ _ (by decide), keep _ _ (by decide), drop _ _ (by decide), drop _ _ (by decide), keep _ _ (by decide), keep _ _ (by decide), keep _ _ (by decide),
      List.append_nil, List.append_nil]
    rfl
  · have keep : ∀ (n t : Str), n ∉ [c! "delay", c! "rmsDelay"] → (val n t).filter (fun x => x.1 ∉ [c! "delay", c! "rmsDelay"]) = val n t :=
      fun n t h => (val_filter (fun n => decide (n ∉ [c! "delay", c! "rmsDelay"])) n t).trans (if_pos (decide_eq_true h))
    have drop : ∀ (n t : Str), n ∈ [c! "delay", c! "rmsDelay"] → (val n t).filter (fun x => x.1 ∉ [c! "delay", c! "rmsDelay"]) = [] :=
      fun n t h => (val_filter (fun n => decide (n ∉ [c! "delay", c! "rmsDelay"])) n t).trans (if_neg (by simp only [decide_eq_true_eq]; exact fun k => k h))
    simp only [Radar.values, Radar.dopplerPart, e3, e4, v, List.append_nil, List.filter_append]
    rw [keep _ _ (by decide), keep _ _ (by decide), keep _ _ (by decide), keep _ _ (by decide), keep _ _ (by decide), drop _ _ (by decide), drop _ _ (by decide), keep _ _ (by decide),
      List.append_nil, List.append_nil]
    rfl

/-- C43, a defect: column 62 is kept in both parts.  If the Doppler shift goes as far as column 62, the part that is to have no Doppler shift still has one: just the last digit. -/
theorem C43_split_column62 {r : Radar} (time : Str) {c : Char} (hl : r.doppler.length = 15) (hc : r.doppler[14]? = some c) (hd : c ∈ c! "123456789") :
    (c! "doppler", c! ".   " ++ [c]) ∈ r.delayPart.values time := by
  have e : r.doppler.drop 14 = [c] := by
    rw [List.getElem?_eq_some_iff] at hc
    obtain ⟨h, hc⟩ := hc
    rw [List.drop_eq_getElem_cons h, hc, List.drop_of_length_le (by omega)]
  have k : signedNumber 11 (List.replicate 14 ' ' ++ [c]) = c! ".   " ++ [c] := by
    revert c
    intro c _ hd _
    simp at hd
    rcases hd with rfl | rfl | rfl | rfl | rfl | rfl | rfl | rfl | rfl <;> rfl
  simp only [Radar.values, Radar.delayPart, e, k]
  simp [val]

/-- C43, a defect: a blank frequency is converted to a point -/
theorem C43_blank_frequency {r : Radar} (time : Str) (h : r.frq = c! "      ") : (c! "frq", c! ".") ∈ r.values time := by
  have : trim (withPoint 5 r.frq) = c! "." := by rw [h]; decide
  simp [Radar.values, this]

namespace Sample80

def radar : Radar :=
  { desig := .perm (.minor 433), date := ⟨1975, 1, 22, 6, 250000⟩, trx := c! "251", rcv := c! "252", disc := ' ', note := ' ', delay := c! "  1530123456789", doppler := c! "-      1234567 ",
    frq := c! "023800", ref := c! " JPLRS", disc2 := ' ', note2 := ' ', com := true, rmsDelay := c! "         1250 ", rmsDoppler := c! "          0500 ", frq2 := c! "      ", ref2 := c! " JPLRS" }

theorem radar_lines : radar.lines =
    [c! "00433         R1975 01 22.250000  1530123456789-      1234567 023800251 JPLRS252",
     c! "00433         r1975 01 22.250000C         1250           0500       251 JPLRS252"] := by decide +kernel

theorem radar_values : radar.values radar.time = [(c! "permID", c! "433"), (c! "trx", c! "251"), (c! "rcv", c! "252"), (c! "obsTime", c! "1975-01-22T06:00:00Z"),
    (c! "doppler", c! "-1234.567"), (c! "rmsDoppler", c! "0.500"), (c! "delay", c! "153.0123456789"), (c! "rmsDelay", c! "1.250"), (c! "com", c! "1"), (c! "frq", c! "02380.0"),
    (c! "ref", c! "JPLRS")] := by decide +kernel

theorem valid_radar : radar.Valid := by
  constructor
  · simp [radar, Designation.Valid, Perm.Valid]
  · decide
  · simp [radar, ObsDate.Valid, monthDays]
  · refine ⟨by decide +kernel, by decide +kernel, by decide +kernel⟩
  · decide
  · decide
  · decide
  · unfold noteAt; decide +kernel
  · unfold Digits; decide +kernel
  · exact ⟨by unfold Digits; decide +kernel, '-', by decide, by decide⟩
  · unfold Digits; decide +kernel
  · exact ⟨by decide, by unfold Plain; decide⟩
  · unfold Digits; decide +kernel
  · unfold Digits; decide +kernel
  · unfold Digits; decide +kernel
  · exact ⟨by decide, by decide, by decide⟩

/-- the observation is split, and cleanly -/
example : radar.both ∧ radar.split = [radar.delayPart, radar.dopplerPart] ∧ (∀ c ∈ radar.delay.take 2, c = ' ') ∧ (∀ c ∈ radar.doppler.drop 14, c = ' ') ∧
    (∀ c ∈ radar.rmsDelay.take 1, c = ' ') ∧ (∀ c ∈ radar.rmsDoppler.drop 14, c = ' ') := by
  refine ⟨by decide +kernel, if_pos (by decide +kernel), by decide, by decide, by decide, by decide⟩

/-- with a digit in column 62 -/
example : ((({ radar with doppler := c! "-      12345678" } : Radar).doppler)[14]? = some '8') := rfl

def radarGroup : RecGroup := ⟨[(c! "COD", c! "252"), (c! "COM", c! "radar")], [.radar radar, .optical (.ground firstOptical), .radar radar]⟩

theorem valid_radarGroup : radarGroup.Valid := by
  refine ⟨by decide, ?_, by simp [radarGroup], ?_⟩
  · intro x hx
    simp [radarGroup] at hx
    rcases hx with rfl | rfl <;> exact ⟨by decide, by decide, by decide, by decide⟩
  · intro b hb
    simp [radarGroup] at hb
    rcases hb with rfl | rfl | rfl
    · exact valid_radar
    · exact valid_ground
    · exact valid_radar

/-- the hypotheses of `C43_file` are met -/
example : radarGroup.Valid ∧ (∀ b ∈ radarGroup.taken false, b.Accepted anyLxml) ∧ HeadersOk anyLxml radarGroup.headers :=
  ⟨valid_radarGroup, fun b _ e _ x _ => any_accepts _ _, fun x _ => ⟨any_accepts _ _, fun y _ => any_accepts _ _⟩⟩

/-- the pieces of a file and lines at which reading stops -/
example : (Piece.two (radar.first ++ ['\n']) (radar.second ++ ['\n'])).Ok ∧ (Piece.one (c! "COM x\n")).Ok ∧ Stop [c! "\n"] ∧ Stop [radar.first ++ ['\n']] := by
  refine ⟨(radar_piece valid_radar).1, Or.inl ⟨by decide, by decide⟩, ⟨_, _, rfl, by intro h; exact absurd h.1 (by decide), Or.inl rfl⟩,
    ⟨_, _, rfl, (radar_piece valid_radar).1.1, Or.inr ⟨(radar_piece valid_radar).1.2.1, by simp⟩⟩⟩

end Sample80

end Verif
