import Verif.Lemmas.Takes
import Verif.MasterTables
import Verif.Lemmas.Designation
import Verif.Lemmas.Sent
/-!
  Lemmas about the simple types of ADES: the texts they admit.
-/
namespace Verif.Xsd
open Verif Verif.Xml Verif.Spec Verif.Spec.Xsd

/-! ### facets, sorted by kind -/

structure Limits where
  pattern : List Str := []
  enumeration : List Str := []
  minI : List Str := []
  minE : List Str := []
  maxI : List Str := []
  maxE : List Str := []
  minL : List Str := []
  maxL : List Str := []

def limits (fs : List (Str × Str)) : Limits := ⟨values fs (c! "xsd:pattern"), values fs (c! "xsd:enumeration"), values fs (c! "xsd:minInclusive"), values fs (c! "xsd:minExclusive"),
  values fs (c! "xsd:maxInclusive"), values fs (c! "xsd:maxExclusive"), values fs (c! "xsd:minLength"), values fs (c! "xsd:maxLength")⟩

def knownB (fs : List (Str × Str)) : Bool := fs.all fun f => [c! "xsd:pattern", c! "xsd:enumeration", c! "xsd:minInclusive", c! "xsd:minExclusive", c! "xsd:maxInclusive", c! "xsd:maxExclusive",
    c! "xsd:minLength", c! "xsd:maxLength"].contains f.1

theorem within_iff {b x : Str} {fs : List (Str × Str)} (l : Limits) (h : limits fs = l) (hk : knownB fs = true) :
    Within b fs x ↔ (l.pattern = [] ∨ ∃ p ∈ l.pattern, ∃ r, Xsd.pattern p = some r ∧ r.Takes (normal b x)) ∧ (l.enumeration = [] ∨ ∃ v ∈ l.enumeration, Same b x v)
      ∧ (∀ v ∈ l.minI, ∃ p q, Decimal v p ∧ Decimal (normal b x) q ∧ p ≤ q) ∧ (∀ v ∈ l.minE, ∃ p q, Decimal v p ∧ Decimal (normal b x) q ∧ p < q)
      ∧ (∀ v ∈ l.maxI, ∃ p q, Decimal v p ∧ Decimal (normal b x) q ∧ q ≤ p) ∧ (∀ v ∈ l.maxE, ∃ p q, Decimal v p ∧ Decimal (normal b x) q ∧ q < p)
      ∧ (∀ v ∈ l.minL, digitsNat v ≤ (normal b x).length) ∧ ∀ v ∈ l.maxL, (normal b x).length ≤ digitsNat v := by
  subst h
  constructor
  · rintro ⟨a1, a2, a3, a4, a5, a6, a7, a8, -⟩
    exact ⟨a1, a2, a3, a4, a5, a6, a7, a8⟩
  · rintro ⟨a1, a2, a3, a4, a5, a6, a7, a8⟩
    refine ⟨a1, a2, a3, a4, a5, a6, a7, a8, fun f hf => ?_⟩
    simpa only [List.contains_iff_mem] using List.all_eq_true.1 hk f hf

theorem normal_string {x : Str} : normal (c! "xsd:string") x = x := if_pos rfl
theorem normal_other {b x : Str} (h : b ≠ c! "xsd:string") : normal b x = trim x := if_neg h

theorem builtin_string (x : Str) : Builtin (c! "xsd:string") x := .inl rfl

/-- one pattern -/
theorem within_pattern {b x p : Str} {r : Rx} (hr : pattern p = some r) : Within b [(c! "xsd:pattern", p)] x ↔ r.Takes (normal b x) := by
  rw [within_iff { pattern := [p] } rfl rfl]
  simp [hr]

/-- a limit of the length -/
theorem within_length {b x n : Str} : Within b [(c! "xsd:maxLength", n)] x ↔ (normal b x).length ≤ digitsNat n := by
  rw [within_iff { maxL := [n] } rfl rfl]
  simp

/-- strings that are listed -/
theorem within_listed {x : Str} {vs : List Str} (hne : vs ≠ []) : Within (c! "xsd:string") (vs.map fun v => (c! "xsd:enumeration", v)) x ↔ x ∈ vs := by
  have e : limits (vs.map fun v => (c! "xsd:enumeration", v)) = { enumeration := vs } := by
    have no : ∀ n : Str, n ≠ c! "xsd:enumeration" → values (vs.map fun v => (c! "xsd:enumeration", v)) n = [] := by
      intro n hn
      unfold values
      rw [List.map_eq_nil_iff, List.filter_eq_nil_iff]
      intro f hf
      obtain ⟨v, -, rfl⟩ := List.mem_map.1 hf
      simpa using fun h => hn h.symm
    have yes : values (vs.map fun v => (c! "xsd:enumeration", v)) (c! "xsd:enumeration") = vs := by
      unfold values
      rw [List.filter_eq_self.2]
      · simp
      · intro f hf
        obtain ⟨v, -, rfl⟩ := List.mem_map.1 hf
        simp
    unfold limits
    rw [yes]
    congr 1 <;> exact no _ (by decide)
  rw [within_iff _ e]
  · simp [hne, Same]
  · unfold knownB
    rw [List.all_eq_true]
    intro f hf
    obtain ⟨v, -, rfl⟩ := List.mem_map.1 hf
    simp

/-! ### classes -/

def dig : Char → Bool := anyOf [rg '0' '9']
def dig1 : Char → Bool := anyOf [rg '1' '9']
def dig3 : Char → Bool := anyOf [rg '1' '3']
def sgn : Char → Bool := anyOf [ch '+', ch '-']
def digList : Char → Bool := anyOf ((c! "0123456789").map ch)
def digDot : Char → Bool := anyOf ((c! "0123456789.").map ch)
def expo : Char → Bool := anyOf ((c! "+-Ee0123456789.").map ch)
def notBar : Char → Bool := fun c => !anyOf [ch '|'] c
def solid : Char → Bool := fun c => !anyOf [ch '|', white] c
def alnum : Char → Bool := anyOf [rg 'A' 'Z', rg 'a' 'z', rg '0' '9', ch '_']
def catCh : Char → Bool := anyOf [ch '.', rg 'A' 'Z', rg 'a' 'z', rg '0' '9', ch '_']
def trkCh : Char → Bool := anyOf [ch '-', rg 'A' 'Z', rg 'a' 'z', rg '0' '9', ch '_']

theorem anyOf_chars {l : Str} {c : Char} : anyOf (l.map ch) c = true ↔ c ∈ l := by
  induction l with
  | nil => simp [anyOf]
  | cons d l ih => simp [anyOf, ih]

theorem alnum_iff {c : Char} : alnum c = true ↔ Alnum c := by simp [alnum, anyOf, Alnum]
theorem catCh_iff {c : Char} : catCh c = true ↔ Alnum c ∨ c = '.' := by simp only [catCh, anyOf, Alnum, ch, rg, Bool.or_eq_true, Bool.and_eq_true, decide_eq_true_eq, beq_iff_eq, Bool.false_eq_true, or_false]; tauto
theorem trkCh_iff {c : Char} : trkCh c = true ↔ Alnum c ∨ c = '-' := by simp only [trkCh, anyOf, Alnum, ch, rg, Bool.or_eq_true, Bool.and_eq_true, decide_eq_true_eq, beq_iff_eq, Bool.false_eq_true, or_false]; tauto
theorem notBar_iff {c : Char} : notBar c = true ↔ c ≠ '|' := by simp [notBar, anyOf]
theorem solid_iff {c : Char} : solid c = true ↔ c ≠ '|' ∧ white c = false := by simp [solid, anyOf]
theorem sgn_iff {c : Char} : sgn c = true ↔ c = '+' ∨ c = '-' := by simp [sgn, anyOf]
theorem dig_iff {c : Char} : dig c = true ↔ c ∈ c! "0123456789" := by
  simp only [dig, anyOf, rg, Bool.or_false, Bool.and_eq_true, decide_eq_true_eq]
  constructor
  · rintro ⟨h1, h2⟩
    have h1 : 48 ≤ c.toNat := h1
    have h2 : c.toNat ≤ 57 := h2
    have h3 : c = Char.ofNat c.toNat := (Char.ofNat_toNat c).symm
    generalize c.toNat = n at h1 h2 h3
    have : n = 48 ∨ n = 49 ∨ n = 50 ∨ n = 51 ∨ n = 52 ∨ n = 53 ∨ n = 54 ∨ n = 55 ∨ n = 56 ∨ n = 57 := by omega
    rcases this with rfl | rfl | rfl | rfl | rfl | rfl | rfl | rfl | rfl | rfl <;> subst h3 <;> decide
  · intro h
    simp only [List.mem_cons, List.not_mem_nil, or_false] at h
    rcases h with rfl | rfl | rfl | rfl | rfl | rfl | rfl | rfl | rfl | rfl <;> decide
theorem digList_iff {c : Char} : digList c = true ↔ c ∈ c! "0123456789" := anyOf_chars
theorem digDot_iff {c : Char} : digDot c = true ↔ c ∈ c! "0123456789." := anyOf_chars
theorem expo_iff {c : Char} : expo c = true ↔ c ∈ c! "+-Ee0123456789." := anyOf_chars


/-! ### strings -/

theorem pat_string : pattern (c! "[^|]*[^|\\s][^|]*") = some (sq [.rep 0 none (.one notBar), .one solid, .rep 0 none (.one notBar)]) := by kernel_rfl
theorem pat_alnum : pattern (c! "[A-Za-z0-9_]*") = some (sq [.rep 0 none (.one alnum)]) := by kernel_rfl
theorem pat_cat : pattern (c! "[.A-Za-z0-9_]*") = some (sq [.rep 0 none (.one catCh)]) := by kernel_rfl
theorem pat_trk : pattern (c! "[-A-Za-z0-9_]*") = some (sq [.rep 0 none (.one trkCh)]) := by kernel_rfl

theorem takes_many {p : Char → Bool} {v : Str} : (sq [.rep 0 none (.one p)]).Takes v ↔ ∀ c ∈ v, p c = true := by
  simp only [sq, takes_seq_eps, takes_rep]; simp

theorem takes_string {v : Str} : (sq [.rep 0 none (.one notBar), .one solid, .rep 0 none (.one notBar)]).Takes v ↔ '|' ∉ v ∧ ∃ c ∈ v, white c = false := by
  simp only [sq]
  rw [takes_seq]
  simp only [takes_seq_one, takes_seq_eps, takes_rep, notBar_iff, solid_iff]
  constructor
  · rintro ⟨s, t, rfl, ⟨-, -, h1⟩, c, u, ⟨h2, h3⟩, rfl, -, -, h4⟩
    refine ⟨?_, c, by simp, h3⟩
    intro h
    rcases List.mem_append.1 h with h | h
    · exact h1 _ h rfl
    · rcases List.mem_cons.1 h with h | h
      · exact h2 h.symm
      · exact h4 _ h rfl
  · rintro ⟨h, c, hc, hw⟩
    obtain ⟨s, t, rfl⟩ := List.append_of_mem hc
    refine ⟨s, c :: t, rfl, ⟨by simp, by simp, ?_⟩, c, t, ⟨?_, hw⟩, rfl, by simp, by simp, ?_⟩
    · rintro d hd rfl; exact h (by simp [hd])
    · rintro rfl; exact h (by simp)
    · rintro d hd rfl; exact h (by simp [hd])

/-- the outermost restriction of all ADES strings -/
abbrev strLayer : Str × List (Str × Str) := (c! "xsd:string", [(c! "xsd:pattern", c! "[^|]*[^|\\s][^|]*")])

theorem within_str {v : Str} : Within (c! "xsd:string") [(c! "xsd:pattern", c! "[^|]*[^|\\s][^|]*")] v ↔ '|' ∉ v ∧ ∃ c ∈ v, white c = false := by
  rw [within_pattern pat_string, normal_string, takes_string]

theorem has_string {ls : List (Str × List (Str × Str))} {v : Str} : Alt.Has (c! "xsd:string", ls) v ↔ ∀ s ∈ ls, Within s.1 s.2 v := by
  simp [Alt.Has, builtin_string]

theorem alnum_plain {c : Char} (h : Alnum c) : c ≠ '|' ∧ white c = false := by
  have : ∀ d : Char, white d = true ∨ d = '|' → ¬ Alnum d := by
    intro d hd
    simp only [white, Bool.decide_or, Bool.or_eq_true, decide_eq_true_eq] at hd
    rcases hd with (rfl | rfl | rfl | rfl) | rfl <;> unfold Alnum <;> decide
  constructor
  · rintro rfl; exact this _ (.inr rfl) h
  · cases hw : white c with
    | false => rfl
    | true => exact absurd h (this _ (.inl hw))

theorem plain_string {P : Char → Prop} (hP : ∀ c, P c → c ≠ '|' ∧ white c = false) {v : Str} (h : ∀ c ∈ v, P c) : ('|' ∉ v ∧ ∃ c ∈ v, white c = false) ↔ v ≠ [] := by
  constructor
  · rintro ⟨-, c, hc, -⟩ rfl; simp at hc
  · intro hne
    refine ⟨fun hb => (hP _ (h _ hb)).1 rfl, ?_⟩
    cases v with
    | nil => exact absurd rfl hne
    | cons c t => exact ⟨c, by simp, (hP _ (h c (by simp))).2⟩

theorem has_text {n v : Str} {k : Nat} (hk : digitsNat n = k) : Alt.Has (c! "xsd:string", [(c! "xsd:string", [(c! "xsd:maxLength", n)]), strLayer]) v ↔ Text k v := by
  rw [has_string]
  simp only [List.mem_cons, List.not_mem_nil, or_false, forall_eq_or_imp, forall_eq, within_length, normal_string, within_str, hk, Text]

theorem has_code {n v : Str} {k : Nat} (hk : digitsNat n = k) :
    Alt.Has (c! "xsd:string", [(c! "xsd:string", [(c! "xsd:maxLength", n)]), (c! "xsd:string", [(c! "xsd:pattern", c! "[A-Za-z0-9_]*")]), strLayer]) v ↔ Code 1 k v := by
  rw [has_string]
  simp only [List.mem_cons, List.not_mem_nil, or_false, forall_eq_or_imp, forall_eq, within_length, normal_string, within_str, hk, Code, within_pattern pat_alnum, takes_many, alnum_iff]
  constructor
  · rintro ⟨h1, h2, h3⟩
    exact ⟨List.length_pos_iff.2 ((plain_string (fun c => alnum_plain) h2).1 h3), h1, h2⟩
  · rintro ⟨h1, h2, h3⟩
    exact ⟨h2, h3, (plain_string (fun c => alnum_plain) h3).2 (List.length_pos_iff.1 h1)⟩

theorem has_station {v : Str} :
    Alt.Has (c! "xsd:string", [(c! "xsd:string", [(c! "xsd:minLength", c! "3"), (c! "xsd:maxLength", c! "4")]), (c! "xsd:string", [(c! "xsd:pattern", c! "[A-Za-z0-9_]*")]), strLayer]) v ↔ Code 3 4 v := by
  rw [has_string]
  simp only [List.mem_cons, List.not_mem_nil, or_false, forall_eq_or_imp, forall_eq, normal_string, within_str, Code, within_pattern pat_alnum, takes_many, alnum_iff]
  rw [within_iff { minL := [c! "3"], maxL := [c! "4"] } rfl rfl]
  simp only [normal_string, List.mem_singleton, forall_eq, show digitsNat (c! "3") = 3 from rfl, show digitsNat (c! "4") = 4 from rfl]
  constructor
  · rintro ⟨⟨-, -, -, -, -, -, h0, h1⟩, h2, h3⟩
    exact ⟨h0, h1, h2⟩
  · rintro ⟨h0, h1, h2⟩
    refine ⟨⟨by simp, by simp, by simp, by simp, by simp, by simp, h0, h1⟩, h2, (plain_string (fun c => alnum_plain) h2).2 ?_⟩
    rintro rfl; simp at h0

theorem has_limited' {p v n : Str} {k : Nat} {P : Char → Bool} {Q : Char → Prop} (hp : pattern p = some (sq [.rep 0 none (.one P)])) (hPQ : ∀ c, P c = true ↔ Q c) (hk : digitsNat n = k) :
    Alt.Has (c! "xsd:string", [(c! "xsd:string", [(c! "xsd:pattern", p), (c! "xsd:maxLength", n)]), strLayer]) v ↔ v.length ≤ k ∧ (∀ c ∈ v, Q c) ∧ '|' ∉ v ∧ ∃ c ∈ v, white c = false := by
  rw [has_string]
  simp only [List.mem_cons, List.not_mem_nil, or_false, forall_eq_or_imp, forall_eq, within_str]
  rw [within_iff { pattern := [p], maxL := [n] } rfl rfl]
  simp only [normal_string, List.mem_singleton, forall_eq, hk, exists_eq_left, hp, Option.some.injEq, exists_eq_left', takes_many, hPQ]
  constructor
  · rintro ⟨⟨h0, -, -, -, -, -, -, h1⟩, h3⟩
    exact ⟨h1, h0.resolve_left (by simp), h3⟩
  · rintro ⟨h1, h0, h3⟩
    exact ⟨⟨.inr h0, by simp, by simp, by simp, by simp, by simp, by simp, h1⟩, h3⟩

theorem has_limited {p v : Str} {P : Char → Bool} {Q : Char → Prop} (hp : pattern p = some (sq [.rep 0 none (.one P)])) (hPQ : ∀ c, P c = true ↔ Q c) (hQ : ∀ c, Q c → c ≠ '|' ∧ white c = false) :
    Alt.Has (c! "xsd:string", [(c! "xsd:string", [(c! "xsd:pattern", p), (c! "xsd:maxLength", c! "8")]), strLayer]) v ↔ 1 ≤ v.length ∧ v.length ≤ 8 ∧ ∀ c ∈ v, Q c := by
  rw [has_string]
  simp only [List.mem_cons, List.not_mem_nil, or_false, forall_eq_or_imp, forall_eq, within_str]
  rw [within_iff { pattern := [p], maxL := [c! "8"] } rfl rfl]
  simp only [normal_string, List.mem_singleton, forall_eq, show digitsNat (c! "8") = 8 from rfl, exists_eq_left, hp, Option.some.injEq, exists_eq_left', takes_many, hPQ]
  constructor
  · rintro ⟨⟨h0, -, -, -, -, -, -, h1⟩, h3⟩
    have h0 := h0.resolve_left (by simp)
    exact ⟨List.length_pos_iff.2 ((plain_string hQ h0).1 h3), h1, h0⟩
  · rintro ⟨h0, h1, h2⟩
    exact ⟨⟨.inr h2, by simp, by simp, by simp, by simp, by simp, by simp, h1⟩, (plain_string hQ h2).2 (List.length_pos_iff.1 h0)⟩

theorem has_catalogue {v : Str} : Alt.Has (c! "xsd:string", [(c! "xsd:string", [(c! "xsd:pattern", c! "[.A-Za-z0-9_]*"), (c! "xsd:maxLength", c! "8")]), strLayer]) v ↔ Catalogue v :=
  has_limited pat_cat (fun _ => catCh_iff) fun c h => by
    rcases h with h | rfl
    · exact alnum_plain h
    · decide

theorem has_tracklet {v : Str} : Alt.Has (c! "xsd:string", [(c! "xsd:string", [(c! "xsd:pattern", c! "[-A-Za-z0-9_]*"), (c! "xsd:maxLength", c! "8")]), strLayer]) v ↔ TrackletName v :=
  has_limited pat_trk (fun _ => trkCh_iff) fun c h => by
    rcases h with h | rfl
    · exact alnum_plain h
    · decide

theorem has_listed {v : Str} {vs : List Str} (hne : vs ≠ []) : Alt.Has (c! "xsd:string", [(c! "xsd:string", vs.map fun v => (c! "xsd:enumeration", v))]) v ↔ v ∈ vs := by
  rw [has_string]
  simp only [List.mem_singleton, forall_eq, within_listed hne]

theorem has_tracklet12 {v : Str} :
    Alt.Has (c! "xsd:string", [(c! "xsd:string", [(c! "xsd:pattern", c! "[-A-Za-z0-9_]*"), (c! "xsd:maxLength", c! "12")]), strLayer]) v ↔ 1 ≤ v.length ∧ v.length ≤ 12 ∧ ∀ c ∈ v, Alnum c ∨ c = '-' := by
  rw [has_limited' pat_trk (fun _ => trkCh_iff) (k := 12) rfl]
  have hQ : ∀ c, Alnum c ∨ c = '-' → c ≠ '|' ∧ white c = false := by
    intro c h
    rcases h with h | rfl
    · exact alnum_plain h
    · decide
  constructor
  · rintro ⟨h1, h2, h3⟩; exact ⟨List.length_pos_iff.2 ((plain_string hQ h2).1 h3), h1, h2⟩
  · rintro ⟨h0, h1, h2⟩; exact ⟨h1, h2, (plain_string hQ h2).2 (List.length_pos_iff.1 h0)⟩

def oldCh : Char → Bool := anyOf [ch '-', ch ' ', ch '?', ch '+', ch '@', ch '.', ch '(', ch ')', ch '/', ch '\\', rg 'A' 'Z', rg 'a' 'z', rg '0' '9', ch '_']
theorem pat_old : pattern (c! "[- ?+@.()/\\\\A-Za-z0-9_]*") = some (sq [.rep 0 none (.one oldCh)]) := by kernel_rfl
theorem oldCh_iff {c : Char} : oldCh c = true ↔ Alnum c ∨ c ∈ c! "- ?+@.()/\\" := by
  simp only [oldCh, anyOf, Alnum, ch, rg, Bool.or_eq_true, Bool.and_eq_true, decide_eq_true_eq, beq_iff_eq, Bool.false_eq_true, or_false, List.mem_cons, List.not_mem_nil]
  tauto

theorem has_oldTracklet {v : Str} : Alt.Has (c! "xsd:string", [(c! "xsd:string", [(c! "xsd:pattern", c! "[- ?+@.()/\\\\A-Za-z0-9_]*"), (c! "xsd:maxLength", c! "8")]), strLayer]) v ↔ OldTracklet v := by
  rw [has_limited' pat_old (fun _ => oldCh_iff) (k := 8) rfl]
  unfold OldTracklet
  have hQ : ∀ c, Alnum c ∨ c ∈ c! "- ?+@.()/\\" → c ≠ '|' ∧ (white c = false ↔ c ≠ ' ') := by
    intro c h
    rcases h with h | h
    · have := alnum_plain h
      refine ⟨this.1, fun _ e => ?_, fun _ => this.2⟩
      rw [e] at this; exact absurd this.2 (by decide)
    · have all : ∀ c ∈ c! "- ?+@.()/\\", c ≠ '|' ∧ (white c = false ↔ c ≠ ' ') := by decide
      exact all c h
  refine and_congr_right fun _ => and_congr_right fun h => ?_
  constructor
  · rintro ⟨-, c, hc, hw⟩; exact ⟨c, hc, (hQ c (h c hc)).2.1 hw⟩
  · rintro ⟨c, hc, hw⟩; exact ⟨fun hb => (hQ _ (h _ hb)).1 rfl, c, hc, (hQ c (h c hc)).2.2 hw⟩

end Verif.Xsd
