import Verif.Lemmas.SimpleCheck
import Verif.Lemmas.Submission
import Verif.Spec.Fields
/-!
  Lemmas about regular expressions of XML Schema: the texts that match, and the values of ADES fields.
-/
namespace Verif.Xsd
open Verif Verif.Xml Verif.Spec Verif.Spec.Xsd

/-! ### regular expressions as they come out of `pattern` -/

/-- a character -/
abbrev lit (c : Char) : Rx := .one (· == c)
/-- an item of a class -/
abbrev ch (c : Char) : Char → Bool := (· == c)
abbrev rg (a b : Char) : Char → Bool := fun x => decide (a ≤ x) && decide (x ≤ b)
/-- the items of a class -/
def anyOf : List (Char → Bool) → Char → Bool
  | [] => fun _ => false
  | p :: ps => fun c => p c || anyOf ps c
/-- pieces, one after the other -/
def sq : List Rx → Rx
  | [] => .eps
  | r :: rs => .seq r (sq rs)
/-- letters, one after the other -/
def word (s : Str) : Rx := sq (s.map lit)
abbrev opt (r : Rx) : Rx := .rep 0 (some 1) r

/-! ### inversion -/

theorem takes_eps {v : Str} : Rx.eps.Takes v ↔ v = [] := ⟨fun h => by cases h; rfl, fun h => h ▸ .eps⟩

theorem takes_one {p : Char → Bool} {v : Str} : (Rx.one p).Takes v ↔ ∃ c, p c = true ∧ v = [c] :=
  ⟨fun h => by cases h with | one h => exact ⟨_, h, rfl⟩, fun ⟨_, h, e⟩ => e ▸ .one h⟩

theorem takes_seq {a b : Rx} {v : Str} : (Rx.seq a b).Takes v ↔ ∃ s t, v = s ++ t ∧ a.Takes s ∧ b.Takes t :=
  ⟨fun h => by cases h with | seq h1 h2 => exact ⟨_, _, rfl, h1, h2⟩, fun ⟨_, _, e, h1, h2⟩ => e ▸ .seq h1 h2⟩

theorem takes_alt {a b : Rx} {v : Str} : (Rx.alt a b).Takes v ↔ a.Takes v ∨ b.Takes v :=
  ⟨fun h => by
    cases h with
    | left h => exact .inl h
    | right h => exact .inr h, fun h => h.elim .left .right⟩

theorem takes_seq_one {p : Char → Bool} {b : Rx} {v : Str} : (Rx.seq (.one p) b).Takes v ↔ ∃ c t, p c = true ∧ v = c :: t ∧ b.Takes t := by
  rw [takes_seq]
  constructor
  · rintro ⟨s, t, rfl, h1, h2⟩
    obtain ⟨c, hc, rfl⟩ := takes_one.1 h1
    exact ⟨c, t, hc, rfl, h2⟩
  · rintro ⟨c, t, hc, rfl, h⟩
    exact ⟨[c], t, rfl, .one hc, h⟩

theorem takes_seq_lit {c : Char} {b : Rx} {v : Str} : (Rx.seq (lit c) b).Takes v ↔ ∃ t, v = c :: t ∧ b.Takes t := by
  rw [takes_seq_one]
  constructor
  · rintro ⟨d, t, hd, rfl, h⟩
    exact ⟨t, by simpa using hd, h⟩
  · rintro ⟨t, rfl, h⟩
    exact ⟨c, t, by simp, rfl, h⟩

theorem takes_seq_eps {a : Rx} {v : Str} : (Rx.seq a .eps).Takes v ↔ a.Takes v := by
  rw [takes_seq]
  constructor
  · rintro ⟨s, t, rfl, h1, h2⟩
    rw [takes_eps.1 h2, List.append_nil]; exact h1
  · intro h; exact ⟨v, [], by simp, h, .eps⟩

theorem takes_opt {r : Rx} {v : Str} : (opt r).Takes v ↔ v = [] ∨ r.Takes v := by
  constructor
  · intro h
    generalize hx : opt r = x at h
    cases h with
    | done => exact .inl rfl
    | more h1 h2 h3 =>
      cases hx
      have : ∀ {y : Rx} {t : Str}, y = .rep (0 - 1) (Option.map (· - 1) (some 1)) r → y.Takes t → t = [] := by
        intro y t hy ht
        cases ht with
        | done => rfl
        | more h => cases hy; simp at h
        | _ => cases hy
      rw [this rfl h3, List.append_nil]
      exact .inr h2
    | _ => cases hx
  · rintro (rfl | h)
    · exact .done
    · have := Rx.Takes.more (lo := 0) (hi := some 1) (by simp) h .done
      simpa using this

theorem takes_rep {p : Char → Bool} {lo : Nat} {hi : Option Nat} {v : Str} :
    (Rx.rep lo hi (.one p)).Takes v ↔ lo ≤ v.length ∧ (∀ n, hi = some n → v.length ≤ n) ∧ ∀ c ∈ v, p c = true := by
  induction v generalizing lo hi with
  | nil =>
    constructor
    · intro h
      generalize hx : Rx.rep lo hi (.one p) = x at h
      generalize hv : ([] : Str) = v at h
      cases h with
      | done => cases hx; simp
      | more h1 h2 h3 =>
        cases hx
        obtain ⟨c, -, rfl⟩ := takes_one.1 h2
        simp at hv
      | _ => cases hx
    · rintro ⟨h, -, -⟩
      have : lo = 0 := by simpa using h
      subst this
      exact .done
  | cons c v ih =>
    constructor
    · intro h
      generalize hx : Rx.rep lo hi (.one p) = x at h
      generalize hv : c :: v = w at h
      cases h with
      | done => cases hv
      | more h1 h2 h3 =>
        cases hx
        obtain ⟨d, hd, rfl⟩ := takes_one.1 h2
        simp only [List.singleton_append, List.cons.injEq] at hv
        obtain ⟨rfl, rfl⟩ := hv
        obtain ⟨h4, h5, h6⟩ := ih.1 h3
        refine ⟨by show lo ≤ v.length + 1; omega, ?_, ?_⟩
        · rintro n rfl
          have := h5 (n - 1) rfl
          have : n ≠ 0 := fun e => h1 (by rw [e])
          show v.length + 1 ≤ n; omega
        · intro e he
          rcases List.mem_cons.1 he with rfl | he
          · exact hd
          · exact h6 e he
      | _ => cases hx
    · rintro ⟨h1, h2, h3⟩
      have h4 : hi ≠ some 0 := by
        rintro rfl
        have := h2 0 rfl
        simp at this
      have h5 : lo - 1 ≤ v.length := by simp only [List.length_cons] at h1; omega
      have h6 : ∀ n, hi.map (· - 1) = some n → v.length ≤ n := by
        intro n hn
        cases hi with
        | none => simp at hn
        | some m =>
          simp only [Option.map_some, Option.some.injEq] at hn
          have := h2 m rfl
          simp only [List.length_cons] at this
          omega
      exact .more (s := [c]) h4 (.one (h3 c (by simp))) (ih.2 ⟨h5, h6, fun d hd => h3 d (by simp [hd])⟩)

theorem takes_word {s v : Str} {b : Rx} : (sq (s.map lit ++ [b])).Takes v ↔ ∃ t, v = s ++ t ∧ b.Takes t := by
  induction s generalizing v with
  | nil => simp only [List.map_nil, List.nil_append, sq, takes_seq_eps]; simp
  | cons c s ih =>
    simp only [List.map_cons, List.cons_append, sq]
    rw [takes_seq_lit]
    constructor
    · rintro ⟨t, rfl, h⟩
      obtain ⟨u, rfl, hb⟩ := ih.1 h
      exact ⟨u, rfl, hb⟩
    · rintro ⟨t, rfl, h⟩
      exact ⟨_, rfl, ih.2 ⟨t, rfl, h⟩⟩

theorem takes_text {s v : Str} : (word s).Takes v ↔ v = s := by
  induction s generalizing v with
  | nil => simp only [word, List.map_nil, sq, takes_eps]
  | cons c s ih =>
    simp only [word, List.map_cons, sq]
    rw [takes_seq_lit]
    constructor
    · rintro ⟨t, rfl, h⟩
      rw [ih.1 h]
    · rintro rfl
      exact ⟨s, rfl, ih.2 rfl⟩

end Verif.Xsd
