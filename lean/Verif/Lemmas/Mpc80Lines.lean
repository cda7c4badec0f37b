import Verif.Lemmas.Mpc80Header
/-
  The lines of a file one by one: what `parseFile` does with each.
-/
namespace Verif.Mpc80
open Verif Verif.PackUtil

/-- a callback that only notes what it is given -/
def logCallback : Callback (List (Item × Nat)) := fun u item n => (u ++ [(item, n)], [], none)

/-- the codes of two-line observations: first line -/
def firstCodes : List Str := [c! "R", c! "S", c! "V"]
/-- and second line -/
def secondCodes : List Str := [c! "r", c! "s", c! "v"]

/-- the code of a decoded line -/
theorem decode_code {s : Str} {item : Item} (h : decode80ColumnDataLine s = .ok item) (h0 : s ≠ []) :
    ∃ c, item.get? (c! "code") = some (.str [c]) ∧ c ∈ c! "0A PeCBTMcEOHNnSVXxRrsv" := by
  rcases decode_ok.1 h with h | ⟨_, _, m, _, rfl⟩ | ⟨h80, _, ret, hr, hc⟩
  · exact absurd h.1 h0
  · exact ⟨'0', by simp [get?_put], by simp⟩
  · obtain ⟨d, t, p, code, stn, notes, c', cs, id, ids, _, _, _, _, _, _, _, _, _, _, rfl⟩ := decodeChecks_ok.1 hc
    obtain ⟨x, hx⟩ : ∃ x, s[14]? = some x := ⟨s[14], by simp [h80]⟩
    have h15 : slice s 14 15 = [x] := one_col hx
    refine ⟨x, ?_⟩
    rcases (decodeColumns_ok h80).1 hr with ⟨ho, hr⟩ | ⟨ho, hr⟩ | ⟨ho, rfl⟩ | ⟨ho, hr⟩ | ⟨ho, rfl⟩
    · obtain ⟨t', p', ra, pra, dec, pdec, _, _, _, rfl⟩ := decodeNormal_ok.1 hr
      refine ⟨by simp [checked, normalItem, normalColumns, commonItem, get?_put, get?_set, h15], ?_⟩
      have := normal_code ho hx
      simp at this ⊢
      rcases this with rfl | rfl | rfl | rfl | rfl | rfl | rfl | rfl | rfl | rfl | rfl | rfl | rfl | rfl | rfl | rfl | rfl | rfl <;> simp
    · obtain ⟨shift, _, rfl⟩ := decodeRadar1_ok.1 hr
      exact ⟨by simp [checked, radar1Item, commonItem, get?_put, get?_set, h15], by rw [radar1_code ho hx]; simp⟩
    · exact ⟨by simp [checked, radar2Item, commonItem, get?_put, get?_set, h15], by rw [radar2_code ho hx]; simp⟩
    · obtain ⟨p1, p2, p3, _, _, _, _, _, _, rfl⟩ := decodeSat_ok.1 hr
      exact ⟨by simp [checked, satItem, commonItem, get?_put, get?_set, h15], by rw [sat_code ho hx]; simp⟩
    · exact ⟨by simp [checked, roverItem, commonItem, get?_put, get?_set, h15], by rw [rover_code ho hx]; simp⟩

/-- membership tests of `parseFile` on a decoded code -/
theorem code_class {c : Char} (h : c ∈ c! "0A PeCBTMcEOHNnSVXxRrsv") :
    ([c] ∈ firstCodes ∧ inStr [c] (c! "RSV") = true ∧ inStr [c] (c! "rsv") = false ∧ inStr [c] (c! "RrSsVv") = true) ∨
    ([c] ∈ secondCodes ∧ inStr [c] (c! "RSV") = false ∧ inStr [c] (c! "rsv") = true ∧ inStr [c] (c! "RrSsVv") = true) ∨
    ([c] ∉ firstCodes ∧ [c] ∉ secondCodes ∧ inStr [c] (c! "RSV") = false ∧ inStr [c] (c! "rsv") = false ∧ inStr [c] (c! "RrSsVv") = false) := by
  simp at h
  rcases h with rfl | rfl | rfl | rfl | rfl | rfl | rfl | rfl | rfl | rfl | rfl | rfl | rfl | rfl | rfl | rfl | rfl | rfl | rfl | rfl | rfl | rfl | rfl <;> decide

theorem first_in {o : Str} (h : o ∈ firstCodes) : inStr o (c! "RSV") = true ∧ lowerStr o ∈ secondCodes ∧ upperStr (lowerStr o) = o ∧ o ≠ c! "None" ∧ o ∉ secondCodes := by
  simp [firstCodes] at h
  rcases h with rfl | rfl | rfl <;> decide
theorem second_up {o : Str} (h : o ∈ secondCodes) : upperStr o ∈ firstCodes ∧ lowerStr (upperStr o) = o ∧ o ∉ firstCodes := by
  simp [secondCodes] at h
  rcases h with rfl | rfl | rfl <;> decide

/-- messages about the designation -/
def idMsgs (n : Nat) (dataLine newCode : Str) : List Msg := if newCode ≠ c! "0" ∧ idMessage dataLine then [Msg.badID n] else []

section
variable {σ : Type} (cb : Callback σ) (st : PState σ) (n : Nat) (dl : Str) (line : Item) (c : Char)

/-- a first line while nothing is pending -/
theorem body_first (hold : st.oldCode = c! "None") (hc : line.get? (c! "code") = some (.str [c]))
    (h2 : inStr [c] (c! "RSV") = true) (h3 : inStr [c] (c! "rsv") = false) (h4 : inStr [c] (c! "RrSsVv") = true) :
    body cb st n dl line = (⟨[c], line, st.user, st.out ++ idMsgs n dl [c]⟩, none) := by
  have hs : line.str (c! "code") = .ok [c] := str_ok.2 hc
  have ho : inStr (c! "None") (c! "RSV") = false := by decide
  unfold body
  rw [hs]
  simp only [hold, ho, h2, h3, h4, nextThing, Bool.false_and, Bool.false_or, Bool.false_eq_true, if_false, if_true, Bool.not_true, bind, Except.bind, pure, Except.pure, List.append_nil, idMsgs]

/-- a second line while nothing is pending -/
theorem body_orphan (hold : st.oldCode = c! "None") (hc : line.get? (c! "code") = some (.str [c])) (h1 : [c] ∈ secondCodes)
    (h2 : inStr [c] (c! "RSV") = false) (h3 : inStr [c] (c! "rsv") = true) :
    body cb st n dl line = (⟨c! "None", [], st.user, st.out ++ idMsgs n dl [c] ++ [.mismatch n (c! "None") [c]]⟩, none) := by
  have hs : line.str (c! "code") = .ok [c] := str_ok.2 hc
  have ho : inStr (c! "None") (c! "RSV") = false := by decide
  have hu : upperStr [c] ≠ c! "None" := by
    have := (second_up h1).1
    intro e; rw [e] at this; revert this; decide
  unfold body
  rw [hs]
  simp [hold, ho, h2, h3, hu, idMsgs]

/-- any other line while nothing is pending -/
theorem body_single (hold : st.oldCode = c! "None") (hc : line.get? (c! "code") = some (.str [c]))
    (h2 : inStr [c] (c! "RSV") = false) (h3 : inStr [c] (c! "rsv") = false) (h4 : inStr [c] (c! "RrSsVv") = false) :
    body cb st n dl line =
      let r := cb st.user line n
      (⟨c! "None", [], r.1, st.out ++ idMsgs n dl [c] ++ r.2.1⟩, r.2.2) := by
  have hs : line.str (c! "code") = .ok [c] := str_ok.2 hc
  have ho : inStr (c! "None") (c! "RSV") = false := by decide
  unfold body
  rw [hs]
  simp [hold, ho, h2, h3, h4, idMsgs, nextThing, bind, Except.bind, pure, Except.pure]

/-- the second line that belongs to the pending first line -/
theorem body_second (hold : st.oldCode ∈ firstCodes) (hc : line.get? (c! "code") = some (.str [c])) (hl : [c] = lowerStr st.oldCode) :
    body cb st n dl line =
      match combine st.oldCode st.oldLine line with
      | .error e => ({ st with out := st.out ++ idMsgs n dl [c] }, some e)
      | .ok item =>
        let r := cb st.user item n
        (⟨c! "None", [], r.1, st.out ++ idMsgs n dl [c] ++ r.2.1⟩, r.2.2) := by
  have hs : line.str (c! "code") = .ok [c] := str_ok.2 hc
  obtain ⟨k1, k2, k3, k4, k5⟩ := first_in hold
  rw [← hl] at k2 k3
  have hx : inStr [c] (c! "RSV") = false ∧ inStr [c] (c! "rsv") = true := by
    simp [secondCodes] at k2
    rcases k2 with rfl | rfl | rfl <;> decide
  unfold body
  rw [hs]
  simp only [k1, hx.1, hx.2, k3, ← hl, nextThing, ne_eq, not_true_eq_false, decide_false, Bool.and_false, Bool.or_false, Bool.false_eq_true, if_false, if_true, bind, Except.bind, pure,
    Except.pure, List.append_nil, idMsgs]
  cases combine st.oldCode st.oldLine line <;> simp

/-- a line that breaks the pair -/
theorem body_broken (hold : st.oldCode ∈ firstCodes) (hc : line.get? (c! "code") = some (.str [c])) (hl : [c] ≠ lowerStr st.oldCode) :
    ∃ ms, .mismatch n st.oldCode [c] ∈ ms ∧ body cb st n dl line =
      (if inStr [c] (c! "RSV") then ⟨[c], line, st.user, st.out ++ ms⟩ else ⟨c! "None", [], st.user, st.out ++ ms⟩, none) := by
  have hs : line.str (c! "code") = .ok [c] := str_ok.2 hc
  obtain ⟨k1, k2, k3, k4, k5⟩ := first_in hold
  refine ⟨idMsgs n dl [c] ++ [.mismatch n st.oldCode [c]] ++ if inStr [c] (c! "rsv") && upperStr [c] ≠ st.oldCode then [Msg.mismatch n st.oldCode [c]] else [], by simp, ?_⟩
  unfold body
  rw [hs]
  simp [k1, hl, idMsgs]
end

theorem bindErr {α β : Type} {x : Py α} {f : α → Py β} {e : PyErr} : (x >>= f) = .error e ↔ x = .error e ∨ ∃ a, x = .ok a ∧ f a = .error e := by
  cases x <;> simp [bind, Except.bind]

/-- `combine` fails only with KeyError or NameError -/
theorem combine_err {o : Str} {a b : Item} {e : PyErr} (h : combine o a b = .error e) : e ≠ .runtimeError := by
  have hg : ∀ {i : Item} {k : Str} {e : PyErr}, i.get k = .error e → e ≠ .runtimeError := by
    intro i k e h
    unfold Item.get at h
    split at h <;> simp_all
    rw [← h]; simp
  have hs : ∀ {k : Str} {e : PyErr}, (do pure (decide ((← b.get k) = (← a.get k))) : Py Bool) = .error e → e ≠ .runtimeError := by
    intro k e h
    rcases bindErr.1 h with h | ⟨v, h1, h⟩
    · exact hg h
    · rcases bindErr.1 h with h | ⟨v, h1, h⟩
      · exact hg h
      · cases h
  unfold combine at h
  rcases bindErr.1 h with h | ⟨x1, h1, h⟩
  · exact hs h
  split at h
  · injection h with h; subst h; simp
  rcases bindErr.1 h with h | ⟨x2, h2, h⟩
  · exact hs h
  split at h
  · injection h with h; subst h; simp
  rcases bindErr.1 h with h | ⟨x3, h3, h⟩
  · exact hs h
  split at h
  · injection h with h; subst h; simp
  split at h
  · rcases bindErr.1 h with h | ⟨x4, h4, h⟩
    · exact hs h
    split at h
    · injection h with h; subst h; simp
    simp only [bind, Except.bind, pure, Except.pure] at h
    repeat' split at h
    all_goals first
      | (injection h with h; subst h; apply hg; assumption)
      | (cases h; done)
  · simp only [bind, Except.bind, pure, Except.pure] at h
    repeat' split at h
    all_goals first
      | (injection h with h; subst h; apply hg; assumption)
      | (cases h; done)

/-- two lines are combined only if these columns agree -/
theorem combine_same {o : Str} {a b item : Item} (h : combine o a b = .ok item) :
    (∃ v, b.get? (c! "totalid") = some v ∧ a.get? (c! "totalid") = some v) ∧ (∃ v, b.get? (c! "date") = some v ∧ a.get? (c! "date") = some v) ∧
    (∃ v, b.get? (c! "stn") = some v ∧ a.get? (c! "stn") = some v) ∧ (o = c! "R" → ∃ v, b.get? (c! "trx") = some v ∧ a.get? (c! "trx") = some v) := by
  have hs : ∀ {k : Str} {x : Bool}, (do pure (decide ((← b.get k) = (← a.get k))) : Py Bool) = .ok x → ¬ (!x) = true → ∃ v, b.get? k = some v ∧ a.get? k = some v := by
    intro k x h hx
    obtain ⟨v, h1, h⟩ := bindOk.1 h
    obtain ⟨w, h2, h⟩ := bindOk.1 h
    injection h with h
    simp at hx
    subst hx
    simp at h
    subst h
    exact ⟨v, get_ok.1 h1, get_ok.1 h2⟩
  unfold combine at h
  obtain ⟨x1, h1, h⟩ := bindOk.1 h
  split at h
  · cases h
  rename_i g1
  obtain ⟨x2, h2, h⟩ := bindOk.1 h
  split at h
  · cases h
  rename_i g2
  obtain ⟨x3, h3, h⟩ := bindOk.1 h
  split at h
  · cases h
  rename_i g3
  refine ⟨hs h1 g1, hs h2 g2, hs h3 g3, ?_⟩
  intro ho
  rw [if_pos ho] at h
  obtain ⟨x4, h4, h⟩ := bindOk.1 h
  split at h
  · cases h
  rename_i g4
  exact hs h4 g4


/-- what combining adds to the first line of a satellite or rover observation -/
theorem combine_site {o : Str} (ho : o = c! "S" ∨ o = c! "V") {a b item : Item} (h : combine o a b = .ok item) (k : Str) :
    item.get? k = if k ∈ [c! "sys", c! "ctr", c! "pos1", c! "pos2", c! "pos3"] then b.get? k else a.get? k := by
  have hr : o ≠ c! "R" := by rcases ho with rfl | rfl <;> decide
  unfold combine at h
  obtain ⟨x1, h1, h⟩ := bindOk.1 h
  split at h
  · cases h
  obtain ⟨x2, h2, h⟩ := bindOk.1 h
  split at h
  · cases h
  obtain ⟨x3, h3, h⟩ := bindOk.1 h
  split at h
  · cases h
  try rw [if_neg hr, if_pos ho] at h
  obtain ⟨v1, k1, h⟩ := bindOk.1 h
  obtain ⟨v2, k2, h⟩ := bindOk.1 h
  obtain ⟨v3, k3, h⟩ := bindOk.1 h
  obtain ⟨v4, k4, h⟩ := bindOk.1 h
  obtain ⟨v5, k5, h⟩ := bindOk.1 h
  injection h with h
  subst h
  rw [get_ok] at k1 k2 k3 k4 k5
  simp only [get?_set, List.mem_cons, List.not_mem_nil, or_false]
  by_cases e1 : k = c! "pos3"
  · subst e1; simp [k5]
  by_cases e2 : k = c! "pos2"
  · subst e2; simp [k4]
  by_cases e3 : k = c! "pos1"
  · subst e3; simp [k3]
  by_cases e4 : k = c! "ctr"
  · subst e4; simp [k2]
  by_cases e5 : k = c! "sys"
  · subst e5; simp [k1]
  simp [e1, e2, e3, e4, e5, Ne.symm e1, Ne.symm e2, Ne.symm e3, Ne.symm e4, Ne.symm e5]

/-- what combining adds to the first line of a radar observation -/
theorem combine_radar {a b item : Item} (h : combine (c! "R") a b = .ok item) :
    item.get? (c! "com") = (if b.get? (c! "sc") = some (.str (c! "C")) then some (.str (c! "1")) else if b.get? (c! "sc") = some (.str (c! "S")) then some (.str (c! "0"))
      else a.get? (c! "com")) ∧
    item.get? (c! "sc") = b.get? (c! "sc") ∧
    item.get? (c! "rmsDelay") = b.get? (c! "delay uncertainty") ∧ item.get? (c! "rmsDoppler") = b.get? (c! "shift uncertainty") ∧
    item.get? (c! "frq continuation") = b.get? (c! "frq continuation") ∧
    item.get? (c! "rcv") = b.get? (c! "stn") ∧ item.get? (c! "doppler") = a.get? (c! "shift") ∧ item.get? (c! "ref") = a.get? (c! "packedref") ∧
    ∀ k, k ∉ [c! "com", c! "sc", c! "rmsDelay", c! "rmsDoppler", c! "frq continuation", c! "rcv", c! "doppler", c! "ref"] → item.get? k = a.get? k := by
  unfold combine at h
  obtain ⟨x1, h1, h⟩ := bindOk.1 h
  split at h
  · cases h
  obtain ⟨x2, h2, h⟩ := bindOk.1 h
  split at h
  · cases h
  obtain ⟨x3, h3, h⟩ := bindOk.1 h
  split at h
  · cases h
  try rw [if_pos rfl] at h
  obtain ⟨x4, h4, h⟩ := bindOk.1 h
  split at h
  · cases h
  obtain ⟨v1, k1, h⟩ := bindOk.1 h
  obtain ⟨v2, k2, h⟩ := bindOk.1 h
  obtain ⟨v3, k3, h⟩ := bindOk.1 h
  obtain ⟨v4, k4, h⟩ := bindOk.1 h
  obtain ⟨v5, k5, h⟩ := bindOk.1 h
  obtain ⟨v6, k6, h⟩ := bindOk.1 h
  obtain ⟨v7, k7, h⟩ := bindOk.1 h
  injection h with h
  subst h
  rw [get_ok] at k1 k2 k3 k4 k5 k6 k7
  rw [k1, k2, k3, k4, k5]
  by_cases hS : v1 = .str (c! "S")
  · subst hS
    simp [get?_set, get?_put] at k6 k7 ⊢
    refine ⟨k6.symm, k7.symm, ?_⟩
    intro k n1 n2 n3 n4 n5 n6 n7 n8
    simp [Ne.symm n1, Ne.symm n2, Ne.symm n3, Ne.symm n4, Ne.symm n5, Ne.symm n6, Ne.symm n7, Ne.symm n8]
  · by_cases hC : v1 = .str (c! "C")
    · subst hC
      simp [get?_set, get?_put] at k6 k7 ⊢
      refine ⟨k6.symm, k7.symm, ?_⟩
      intro k n1 n2 n3 n4 n5 n6 n7 n8
      simp [Ne.symm n1, Ne.symm n2, Ne.symm n3, Ne.symm n4, Ne.symm n5, Ne.symm n6, Ne.symm n7, Ne.symm n8]
    · simp [get?_set, get?_put, hS, hC] at k6 k7 ⊢
      refine ⟨k6.symm, k7.symm, ?_⟩
      intro k n1 n2 n3 n4 n5 n6 n7 n8
      simp [Ne.symm n1, Ne.symm n2, Ne.symm n3, Ne.symm n4, Ne.symm n5, Ne.symm n6, Ne.symm n7, Ne.symm n8]

/-! ### any callback sees the same items -/

/-- the turn of the loop without the callback -/
def bodyStep (oldCode : Str) (oldLine : Item) (n : Nat) (dataLine : Str) (line : Item) : (Str × Item × List Msg) × Py (Option Item) :=
  match line.str (c! "code") with
  | .error e => ((oldCode, oldLine, []), .error e)
  | .ok newCode =>
    let m0 := if newCode ≠ c! "0" ∧ idMessage dataLine then [Msg.badID n] else []
    let bad1 := inStr oldCode (c! "RSV") && newCode ≠ lowerStr oldCode
    let bad2 := inStr newCode (c! "rsv") && upperStr newCode ≠ oldCode
    let m1 := if bad1 then [Msg.mismatch n oldCode newCode] else []
    let m2 := if bad2 then [Msg.mismatch n oldCode newCode] else []
    match (if bad1 || bad2 then Except.ok Option.none else nextThing oldCode newCode oldLine line) with
    | .error e => ((oldCode, oldLine, m0 ++ m1 ++ m2), .error e)
    | .ok next => (if inStr newCode (c! "RSV") then (newCode, line, m0 ++ m1 ++ m2) else (c! "None", [], m0 ++ m1 ++ m2), .ok next)

theorem body_eq {σ : Type} (cb : Callback σ) (st : PState σ) (n : Nat) (dl : Str) (line : Item) : body cb st n dl line =
    match bodyStep st.oldCode st.oldLine n dl line with
    | ((oc, ol, ms), .error e) => (⟨oc, ol, st.user, st.out ++ ms⟩, some e)
    | ((oc, ol, ms), .ok none) => (⟨oc, ol, st.user, st.out ++ ms⟩, none)
    | ((oc, ol, ms), .ok (some item)) => (⟨oc, ol, (cb st.user item n).1, st.out ++ ms ++ (cb st.user item n).2.1⟩, (cb st.user item n).2.2) := by
  unfold body bodyStep
  cases line.str (c! "code") with
  | error e => simp
  | ok newCode =>
    simp only
    generalize (if (inStr st.oldCode (c! "RSV") && newCode ≠ lowerStr st.oldCode || inStr newCode (c! "rsv") && upperStr newCode ≠ st.oldCode) = true then Except.ok Option.none
      else nextThing st.oldCode newCode st.oldLine line) = nx
    cases nx with
    | error e => simp
    | ok next =>
      cases hi : inStr newCode (c! "RSV") <;> cases next <;> simp

/-- the calls of a callback one after the other, RuntimeErrors being caught each time -/
def runCalls {σ : Type} (cb : Callback σ) : σ → List (Item × Nat) → σ × Option PyErr
  | u, [] => (u, none)
  | u, (item, n) :: l =>
    match (cb u item n).2.2 with
    | none => runCalls cb (cb u item n).1 l
    | some e => if e = .runtimeError then runCalls cb (cb u item n).1 l else ((cb u item n).1, some e)

theorem loop_calls {σ : Type} (cb : Callback σ) (ge : Option PyErr) : ∀ (lines : List (Nat × Str)) (st : PState σ) (sl : PState (List (Item × Nat))),
    st.oldCode = sl.oldCode → st.oldLine = sl.oldLine → ∃ calls, (parseLoop logCallback ge sl lines).1.user = sl.user ++ calls ∧
      (parseLoop cb ge st lines).1.user = (runCalls cb st.user calls).1 ∧
      (parseLoop cb ge st lines).2 = (match (runCalls cb st.user calls).2 with | some e => some e | none => (parseLoop logCallback ge sl lines).2)
  | [], st, sl, _, _ => ⟨[], by simp [parseLoop, runCalls]⟩
  | (n, l) :: lines, st, sl, h1, h2 => by
    have ih := loop_calls cb ge lines
    simp only [parseLoop, parseLine]
    by_cases hb : (reMatch blankRegex l.dropLast).isSome = true
    · simp only [hb, if_true]
      exact ih st sl h1 h2
    · simp only [hb, if_false, Bool.false_eq_true]
      cases decode80ColumnDataLine l.dropLast with
      | error e =>
        simp only
        by_cases he : e = .runtimeError
        · simp only [he, if_true]
          exact ih _ _ h1 h2
        · refine ⟨[], ?_⟩
          simp [he, runCalls]
      | ok line =>
        simp only [body_eq, h1, h2]
        rcases bodyStep sl.oldCode sl.oldLine n l.dropLast line with ⟨⟨oc, ol, ms⟩, e | (_ | item)⟩
        · simp only
          by_cases he : e = .runtimeError
          · simp only [he, if_true]
            exact ih _ _ rfl rfl
          · refine ⟨[], ?_⟩
            simp [he, runCalls]
        · simp only [reduceCtorEq, if_false]
          exact ih _ _ rfl rfl
        · simp only [logCallback, reduceCtorEq, if_false]
          cases hc : (cb st.user item n).2.2 with
          | none =>
            simp only [reduceCtorEq, if_false]
            obtain ⟨calls, k1, k2, k3⟩ := ih ⟨oc, ol, (cb st.user item n).1, st.out ++ ms ++ (cb st.user item n).2.1⟩ ⟨oc, ol, sl.user ++ [(item, n)], sl.out ++ ms ++ []⟩ rfl rfl
            refine ⟨(item, n) :: calls, by rw [k1]; simp, ?_, ?_⟩
            · rw [k2]; simp [runCalls, hc]
            · rw [k3]; simp [runCalls, hc]
          | some e =>
            by_cases he : e = .runtimeError
            · subst he
              simp only [if_true]
              obtain ⟨calls, k1, k2, k3⟩ := ih ⟨oc, ol, (cb st.user item n).1, st.out ++ ms ++ (cb st.user item n).2.1 ++ [.refused n]⟩ ⟨oc, ol, sl.user ++ [(item, n)], sl.out ++ ms ++ []⟩ rfl rfl
              refine ⟨(item, n) :: calls, by rw [k1]; simp, ?_, ?_⟩
              · rw [k2]; simp [runCalls, hc]
              · rw [k3]; simp [runCalls, hc]
            · simp only [Option.some.injEq, he, if_false]
              obtain ⟨calls, k1, k2, k3⟩ := ih ⟨oc, ol, (cb st.user item n).1, st.out ++ ms ++ (cb st.user item n).2.1⟩ ⟨oc, ol, sl.user ++ [(item, n)], sl.out ++ ms ++ []⟩ rfl rfl
              refine ⟨(item, n) :: calls, by rw [k1]; simp, ?_, ?_⟩
              · simp [runCalls, hc, he]
              · simp [runCalls, hc, he]

end Verif.Mpc80
