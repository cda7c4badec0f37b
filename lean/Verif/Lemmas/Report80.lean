import Verif.Spec.Report80
import Verif.Lemmas.Mpc80Lines
/-! The messages of a run of `parseFile`, line by line, with and without a callback. -/
set_option linter.unusedSimpArgs false
namespace Verif.Mpc80
open Verif Verif.PackUtil Verif.Spec.Report80

theorem bodyStep_about {oc : Str} {ol : Item} {n : Nat} {d : Str} {line : Item} : ∀ m ∈ (bodyStep oc ol n d line).1.2.2, About n m := by
  intro m hm
  unfold bodyStep at hm
  revert hm
  cases line.str (c! "code") with
  | error e => simp
  | ok newCode =>
    simp only
    cases inStr newCode (c! "RSV") <;> split <;> simp only [List.mem_append, Bool.false_eq_true, if_false, if_true] <;> intro hm
    all_goals
      rcases hm with (hm | hm) | hm
      all_goals
        split at hm
        · simp only [List.mem_cons, List.not_mem_nil, or_false] at hm; subst hm; rfl
        · simp at hm

/-- the statement for one loop -/
def Tells {σ : Type} (cb : Callback σ) (ge : Option PyErr) (lines : List (Nat × Str)) (st : PState σ) (sn : PState Unit) (calls : List (Item × Nat)) : Prop :=
  ∃ (told : List Told) (later : List Msg),
    (parseLoop cb ge st lines).1.out = st.out ++ all told ∧
    (parseLoop noCallback ge sn lines).1.out = sn.out ++ readings told ++ later ∧
    told.map (·.line) = (lines.map (·.1)).take told.length ∧ told.length ≤ lines.length ∧
    (∀ t ∈ told, ∀ m ∈ t.reading, About t.line m) ∧
    (∀ t ∈ told, t.converting = [] ∨ ∃ u item, t.converting = callMsgs cb u item t.line) ∧
    told.flatMap (·.converting) = callsOut cb st.user calls ∧
    (∀ m ∈ later, ∃ x ∈ lines.drop told.length, About x.1 m) ∧
    ((parseLoop cb ge st lines).2 = none → later = [] ∧ told.length = lines.length ∧ (parseLoop noCallback ge sn lines).2 = none)


theorem tells_cons {σ : Type} {cb : Callback σ} {ge : Option PyErr} {n : Nat} {l : Str} {lines : List (Nat × Str)} {st st' : PState σ} {sn sn' : PState Unit} {calls : List (Item × Nat)} {r c : List Msg}
    {calls' : List (Item × Nat)}
    (h1 : parseLine cb st n l = (st', none)) (h2 : parseLine noCallback sn n l = (sn', none)) (e1 : st'.out = st.out ++ (r ++ c)) (e2 : sn'.out = sn.out ++ r)
    (hr : ∀ m ∈ r, About n m) (hc : c = [] ∨ ∃ u item, c = callMsgs cb u item n) (hcalls : callsOut cb st.user calls = c ++ callsOut cb st'.user calls')
    (ih : Tells cb ge lines st' sn' calls') : Tells cb ge ((n, l) :: lines) st sn calls := by
  obtain ⟨told, later, k1, k2, k3, k3', k4, k5, k6, k6', k7⟩ := ih
  unfold Tells
  simp only [parseLoop, h1, h2]
  refine ⟨⟨n, r, c⟩ :: told, later, ?_, ?_, ?_, ?_, ?_, ?_, ?_, k6', ?_⟩
  · rw [k1, e1]; simp [all]
  · rw [k2, e2]; simp [readings]
  · simpa using k3
  · simpa using k3'
  · intro t ht
    rcases List.mem_cons.1 ht with rfl | ht
    · exact hr
    · exact k4 t ht
  · intro t ht
    rcases List.mem_cons.1 ht with rfl | ht
    · exact hc
    · exact k5 t ht
  · simp only [List.flatMap_cons]; rw [k6, hcalls]
  · intro h
    obtain ⟨a, b, c⟩ := k7 h
    exact ⟨a, by simp [b], c⟩

theorem tells_stop {σ : Type} {cb : Callback σ} {ge : Option PyErr} {n : Nat} {l : Str} {lines : List (Nat × Str)} {st st' : PState σ} {sn : PState Unit} {calls : List (Item × Nat)} {r c later : List Msg} {e : PyErr}
    (h1 : parseLine cb st n l = (st', some e)) (e1 : st'.out = st.out ++ (r ++ c)) (e2 : (parseLoop noCallback ge sn ((n, l) :: lines)).1.out = sn.out ++ r ++ later)
    (hr : ∀ m ∈ r, About n m) (hc : c = [] ∨ ∃ u item, c = callMsgs cb u item n) (hcalls : callsOut cb st.user calls = c)
    (hlater : ∀ m ∈ later, ∃ x ∈ lines, About x.1 m) : Tells cb ge ((n, l) :: lines) st sn calls := by
  have h1' : parseLoop cb ge st ((n, l) :: lines) = (st', some e) := by simp only [parseLoop, h1]
  unfold Tells
  rw [h1', e2]
  refine ⟨[⟨n, r, c⟩], later, ?_, ?_, ?_, ?_, ?_, ?_, ?_, hlater, ?_⟩
  · rw [e1]; simp [all]
  · simp [readings]
  · simp
  · simp
  · simpa using hr
  · simpa using hc
  · simp [hcalls]
  · intro h; simp at h

theorem loop_grows (ge : Option PyErr) : ∀ (lines : List (Nat × Str)) (st : PState Unit), ∃ later, (parseLoop noCallback ge st lines).1.out = st.out ++ later ∧ ∀ m ∈ later, ∃ x ∈ lines, About x.1 m
  | [], st => ⟨[], by simp [parseLoop]⟩
  | (n, l) :: lines, st => by
    simp only [parseLoop]
    have key : ∃ x, (parseLine noCallback st n l).1.out = st.out ++ x ∧ ∀ m ∈ x, About n m := by
      unfold parseLine
      by_cases hb : (reMatch blankRegex l.dropLast).isSome = true
      · exact ⟨[], by simp [hb]⟩
      · simp only [hb, if_false, Bool.false_eq_true]
        cases decode80ColumnDataLine l.dropLast with
        | error e =>
          simp only
          by_cases he : e = .runtimeError
          · exact ⟨[.refused n], by simp [he, About]⟩
          · exact ⟨[], by simp [he]⟩
        | ok line =>
          have hab := bodyStep_about (oc := st.oldCode) (ol := st.oldLine) (n := n) (d := l.dropLast) (line := line)
          simp only [body_eq]
          rcases hB : bodyStep st.oldCode st.oldLine n l.dropLast line with ⟨⟨oc, ol, ms⟩, e | (_ | item)⟩
          · rw [hB] at hab
            simp only at hab ⊢
            by_cases he : e = .runtimeError
            · refine ⟨ms ++ [.refused n], by simp [he], fun m hm => ?_⟩
              rcases List.mem_append.1 hm with hm | hm
              · exact hab m hm
              · simp only [List.mem_singleton] at hm; subst hm; rfl
            · exact ⟨ms, by simp [he], hab⟩
          · rw [hB] at hab; exact ⟨ms, by simp, hab⟩
          · rw [hB] at hab; exact ⟨ms, by simp [noCallback], hab⟩
    obtain ⟨x, hx, ha⟩ := key
    rcases hp : parseLine noCallback st n l with ⟨st', _ | e⟩
    · obtain ⟨y, hy, hb⟩ := loop_grows ge lines st'
      rw [hp] at hx
      refine ⟨x ++ y, by rw [hy, hx]; simp, fun m hm => ?_⟩
      rcases List.mem_append.1 hm with hm | hm
      · exact ⟨(n, l), by simp, ha m hm⟩
      · obtain ⟨z, hz, h⟩ := hb m hm
        exact ⟨z, List.mem_cons_of_mem _ hz, h⟩
    · rw [hp] at hx
      exact ⟨x, hx, fun m hm => ⟨(n, l), by simp, ha m hm⟩⟩

theorem loop_tells {σ : Type} (cb : Callback σ) (ge : Option PyErr) : ∀ (lines : List (Nat × Str)) (st : PState σ) (sn : PState Unit) (sl : PState (List (Item × Nat))),
    st.oldCode = sl.oldCode → st.oldLine = sl.oldLine → sn.oldCode = sl.oldCode → sn.oldLine = sl.oldLine →
      ∃ calls, (parseLoop logCallback ge sl lines).1.user = sl.user ++ calls ∧ Tells cb ge lines st sn calls
  | [], st, sn, sl, _, _, _, _ => ⟨[], by simp [parseLoop], [], [], by simp [parseLoop, all, readings, callsOut]⟩
  | (n, l) :: lines, st, sn, sl, h1, h2, h3, h4 => by
    have ih := loop_tells cb ge lines
    by_cases hb : (reMatch blankRegex l.dropLast).isSome = true
    · obtain ⟨calls, k1, k2⟩ := ih st sn sl h1 h2 h3 h4
      refine ⟨calls, by simpa [parseLoop, parseLine, hb] using k1, tells_cons (r := []) (c := []) (st' := st) (sn' := sn) (calls' := calls) ?_ ?_ ?_ ?_ ?_ ?_ ?_ k2⟩
      · simp [parseLine, hb]
      · simp [parseLine, hb]
      · simp
      · simp
      · simp
      · exact .inl rfl
      · simp
    · cases hd : decode80ColumnDataLine l.dropLast with
      | error e =>
        by_cases he : e = .runtimeError
        · obtain ⟨calls, k1, k2⟩ := ih { st with out := st.out ++ [.refused n] } { sn with out := sn.out ++ [.refused n] } { sl with out := sl.out ++ [.refused n] } h1 h2 h3 h4
          refine ⟨calls, by simpa [parseLoop, parseLine, hb, hd, he] using k1, tells_cons (r := [.refused n]) (c := []) (calls' := calls) ?_ ?_ ?_ ?_ ?_ ?_ ?_ k2⟩
          · simp [parseLine, hb, hd, he]
          · simp [parseLine, hb, hd, he]
          · simp
          · simp
          · simp [About]
          · exact .inl rfl
          · simp
        · refine ⟨[], by simp [parseLoop, parseLine, hb, hd, he], tells_stop (r := []) (c := []) (later := []) (st' := st) (e := e) ?_ ?_ ?_ ?_ ?_ ?_ (by simp)⟩
          · simp [parseLine, hb, hd, he]
          · simp
          · simp [parseLoop, parseLine, hb, hd, he]
          · simp
          · exact .inl rfl
          · rfl
      | ok line =>
        have hab := bodyStep_about (oc := sl.oldCode) (ol := sl.oldLine) (n := n) (d := l.dropLast) (line := line)
        have line_eq : ∀ {τ : Type} (f : Callback τ) (s : PState τ), s.oldCode = sl.oldCode → s.oldLine = sl.oldLine → parseLine f s n l =
            let x := match bodyStep sl.oldCode sl.oldLine n l.dropLast line with
              | ((oc, ol, ms), .error e) => (⟨oc, ol, s.user, s.out ++ ms⟩, some e)
              | ((oc, ol, ms), .ok none) => (⟨oc, ol, s.user, s.out ++ ms⟩, none)
              | ((oc, ol, ms), .ok (some item)) => (⟨oc, ol, (f s.user item n).1, s.out ++ ms ++ (f s.user item n).2.1⟩, (f s.user item n).2.2)
            if x.2 = some .runtimeError then ({ x.1 with out := x.1.out ++ [.refused n] }, none) else x := by
          intro τ f s a b
          unfold parseLine
          simp only [hb, if_false, Bool.false_eq_true, hd, body_eq, a, b]
          rcases bodyStep sl.oldCode sl.oldLine n l.dropLast line with ⟨⟨oc, ol, ms⟩, e | (_ | item)⟩ <;> rfl
        have L1 := line_eq cb st h1 h2
        have L2 := line_eq noCallback sn h3 h4
        have L3 := line_eq logCallback sl rfl rfl
        rcases hB : bodyStep sl.oldCode sl.oldLine n l.dropLast line with ⟨⟨oc, ol, ms⟩, e | (_ | item)⟩
        · rw [hB] at L1 L2 L3 hab
          by_cases he : e = .runtimeError
          · simp only [he, if_true] at L1 L2 L3 hab
            obtain ⟨calls, k1, k2⟩ := ih ⟨oc, ol, st.user, st.out ++ ms ++ [.refused n]⟩ ⟨oc, ol, sn.user, sn.out ++ ms ++ [.refused n]⟩ ⟨oc, ol, sl.user, sl.out ++ ms ++ [.refused n]⟩ rfl rfl rfl rfl
            refine ⟨calls, by simpa [parseLoop, L3] using k1, tells_cons (r := ms ++ [.refused n]) (c := []) (calls' := calls) L1 L2 ?_ ?_ ?_ ?_ ?_ k2⟩
            · simp
            · simp
            · intro m hm
              rcases List.mem_append.1 hm with hm | hm
              · exact hab m hm
              · simp only [List.mem_singleton] at hm; subst hm; rfl
            · exact .inl rfl
            · simp
          · simp only [Option.some.injEq, he, if_false] at L1 L2 L3 hab
            refine ⟨[], by simp [parseLoop, L3], tells_stop (r := ms) (c := []) (later := []) L1 ?_ ?_ hab ?_ ?_ (by simp)⟩
            · simp
            · simp [parseLoop, L2]
            · exact .inl rfl
            · rfl
        · rw [hB] at L1 L2 L3 hab
          simp only [reduceCtorEq, if_false] at L1 L2 L3 hab
          obtain ⟨calls, k1, k2⟩ := ih ⟨oc, ol, st.user, st.out ++ ms⟩ ⟨oc, ol, sn.user, sn.out ++ ms⟩ ⟨oc, ol, sl.user, sl.out ++ ms⟩ rfl rfl rfl rfl
          refine ⟨calls, by simpa [parseLoop, L3] using k1, tells_cons (r := ms) (c := []) (calls' := calls) L1 L2 ?_ ?_ hab ?_ ?_ k2⟩
          · simp
          · simp
          · exact .inl rfl
          · simp
        · rw [hB] at L1 L2 L3 hab
          simp only [logCallback, noCallback, reduceCtorEq, if_false] at L2 L3
          simp only at L1 hab
          by_cases he : ∃ e, (cb st.user item n).2.2 = some e ∧ e ≠ .runtimeError
          · obtain ⟨e, he, hne⟩ := he
            have he' : ¬ (cb st.user item n).2.2 = some .runtimeError := by rw [he]; simpa using hne
            rw [if_neg he', he] at L1
            obtain ⟨calls, k1, -⟩ := ih ⟨oc, ol, st.user, []⟩ ⟨oc, ol, (), []⟩ ⟨oc, ol, sl.user ++ [(item, n)], sl.out ++ ms ++ []⟩ rfl rfl rfl rfl
            obtain ⟨later, hl, hla⟩ := loop_grows ge lines ⟨oc, ol, (), sn.out ++ ms ++ []⟩
            refine ⟨(item, n) :: calls, by simp only [parseLoop, L3]; rw [k1]; simp, tells_stop (r := ms) (c := callMsgs cb st.user item n) (later := later) L1 ?_ ?_ hab ?_ ?_ hla⟩
            · simp [callMsgs, he']
            · simp only [parseLoop, L2]; rw [hl]; simp
            · exact .inr ⟨_, _, rfl⟩
            · simp [callsOut, he, hne]
          · have L1' : parseLine cb st n l = (⟨oc, ol, (cb st.user item n).1, st.out ++ ms ++ callMsgs cb st.user item n⟩, none) := by
              rw [L1]
              cases hx : (cb st.user item n).2.2 with
              | none => simp [callMsgs, hx]
              | some e =>
                have : e = .runtimeError := Classical.byContradiction fun hne => he ⟨e, hx, hne⟩
                subst this
                simp [callMsgs, hx]
            obtain ⟨calls, k1, k2⟩ := ih ⟨oc, ol, (cb st.user item n).1, st.out ++ ms ++ callMsgs cb st.user item n⟩ ⟨oc, ol, (), sn.out ++ ms ++ []⟩ ⟨oc, ol, sl.user ++ [(item, n)], sl.out ++ ms ++ []⟩ rfl rfl rfl rfl
            refine ⟨(item, n) :: calls, by simp only [parseLoop, L3]; rw [k1]; simp, tells_cons (r := ms) (c := callMsgs cb st.user item n) (calls' := calls) L1' L2 ?_ ?_ hab ?_ ?_ k2⟩
            · simp
            · simp
            · exact .inr ⟨_, _, rfl⟩
            · rw [callsOut]
              congr 1
              cases hx : (cb st.user item n).2.2 with
              | none => rfl
              | some e =>
                have : e = .runtimeError := Classical.byContradiction fun hne => he ⟨e, hx, hne⟩
                subst this
                simp

end Verif.Mpc80
