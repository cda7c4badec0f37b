import Verif.Lemmas.FieldNames
/-!
  Lemmas about the simple types of ADES: times.
-/
namespace Verif.Xsd
open Verif Verif.Xml Verif.Spec Verif.Spec.Xsd

/-- the pattern of times -/
def timeRx : Rx := sq [digs 4 (some 4), lit '-', digs 2 (some 2), lit '-', digs 2 (some 2), lit 'T', digs 2 (some 2), lit ':', digs 2 (some 2), lit ':', digs 2 (some 2), opt (sq [lit '.', digs 1 (some 6)]), lit 'Z']
theorem pat_time : pattern (c! "\\d{4}-\\d{2}-\\d{2}T\\d{2}:\\d{2}:\\d{2}(\\.\\d{1,6})?Z") = some timeRx := by kernel_rfl
/-- one of some words -/
def choice : List Str → Rx
  | [] => .one fun _ => false
  | [w] => word w
  | w :: ws => .alt (word w) (choice ws)
/-- leap seconds -/
def june : Str := c! "-06-30T23:59:60"
def december : Str := c! "-12-31T23:59:60"
/-- a year, a leap second, a fraction -/
def leapRx (Y : List Rx) (d : Str) (p : Char → Bool) : Rx := sq (Y ++ (d.map lit ++ [opt (sq [.one p, digs 1 none]), lit 'Z']))
theorem pat_leap1 : pattern (c! "19(72|81|82|83|85|92|93|94|97)-06-30T23:59:60(\\.\\d+)?Z") =
  some (leapRx [lit '1', lit '9', choice [c! "72", c! "81", c! "82", c! "83", c! "85", c! "92", c! "93", c! "94", c! "97"]] june (ch '.')) := by kernel_rfl
theorem pat_leap2 : pattern (c! "19(72|73|74|75|76|77|78|79|87|89|90|95|98)-12-31T23:59:60(\\.\\d+)?Z") =
  some (leapRx [lit '1', lit '9', choice [c! "72", c! "73", c! "74", c! "75", c! "76", c! "77", c! "78", c! "79", c! "87", c! "89", c! "90", c! "95", c! "98"]] december (ch '.')) := by kernel_rfl
theorem pat_leap3 : pattern (c! "20(12|15)-06-30T23:59:60(\\.\\d+)?Z") = some (leapRx [lit '2', lit '0', choice [c! "12", c! "15"]] june (ch '.')) := by kernel_rfl
theorem pat_leap4 : pattern (c! "20(05|08|16)-12-31T23:59:60(.\\d+)?Z") = some (leapRx [lit '2', lit '0', choice [c! "05", c! "08", c! "16"]] december fun c => c != '\n' && c != '\r') := by kernel_rfl
/-- the years 2017 to 2999 -/
def thousand2 : Rx := .alt (sq [lit '2', .one dig1, digs 2 (some 2)]) (.alt (sq [lit '2', lit '0', .one (anyOf [rg '2' '9']), .one isDec]) (sq [lit '2', lit '0', lit '1', .one (anyOf [rg '7' '9'])]))
theorem pat_leap5 : pattern (c! "(2[1-9]\\d{2}|20[2-9]\\d|201[7-9])-12-31T23:59:60(\\.\\d+)?Z") = some (leapRx [thousand2] december (ch '.')) := by kernel_rfl
theorem pat_leap6 : pattern (c! "(2[1-9]\\d{2}|20[2-9]\\d|201[7-9])-06-30T23:59:60(\\.\\d+)?Z") = some (leapRx [thousand2] june (ch '.')) := by kernel_rfl
theorem pat_leap7 : pattern (c! "[3-9]\\d{3}-06-30T23:59:60(\\.\\d+)?Z") = some (leapRx [.one (anyOf [rg '3' '9']), digs 3 (some 3)] june (ch '.')) := by kernel_rfl
theorem pat_leap8 : pattern (c! "[3-9]\\d{3}-12-31T23:59:60(\\.\\d+)?Z") = some (leapRx [.one (anyOf [rg '3' '9']), digs 3 (some 3)] december (ch '.')) := by kernel_rfl

/-! ### ordinary times -/

theorem takes_time {v : Str} : timeRx.Takes v ↔ ∃ y mo d h mi s f, Digits 4 (some 4) y ∧ Digits 2 (some 2) mo ∧ Digits 2 (some 2) d ∧ Digits 2 (some 2) h ∧ Digits 2 (some 2) mi ∧ Digits 2 (some 2) s ∧
    (f = [] ∨ ∃ ds, Digits 1 (some 6) ds ∧ f = '.' :: ds) ∧ v = y ++ '-' :: (mo ++ '-' :: (d ++ 'T' :: (h ++ ':' :: (mi ++ ':' :: (s ++ (f ++ ['Z'])))))) := by
  unfold timeRx
  have ff : ∀ t : Str, (sq [opt (sq [lit '.', digs 1 (some 6)]), lit 'Z']).Takes t ↔ ∃ f, (f = [] ∨ ∃ ds, Digits 1 (some 6) ds ∧ f = '.' :: ds) ∧ t = f ++ ['Z'] := by
    intro t
    rw [sq, takes_seq]
    have e : ∀ t : Str, (sq [lit 'Z']).Takes t ↔ t = ['Z'] := fun t => takes_text (s := ['Z'])
    simp only [e, takes_opt]
    have g : ∀ t : Str, (sq [lit '.', digs 1 (some 6)]).Takes t ↔ ∃ ds, Digits 1 (some 6) ds ∧ t = '.' :: ds := by
      intro t
      simp only [sq, takes_seq_lit, takes_seq_eps, takes_digs]
      exact ⟨fun ⟨ds, a, b⟩ => ⟨ds, b, a⟩, fun ⟨ds, b, a⟩ => ⟨ds, a, b⟩⟩
    simp only [g]
    constructor
    · rintro ⟨f, _, rfl, hf, rfl⟩; exact ⟨f, hf, rfl⟩
    · rintro ⟨f, hf, rfl⟩; exact ⟨f, _, rfl, hf, rfl⟩
  have step : ∀ {k : Nat} {c : Char} {rs : List Rx} {t : Str}, (sq (digs k (some k) :: lit c :: rs)).Takes t ↔ ∃ n u, Digits k (some k) n ∧ (sq rs).Takes u ∧ t = n ++ c :: u := by
    intro k c rs t
    rw [sq, takes_digs_seq, sq]
    simp only [takes_seq_lit]
    constructor
    · rintro ⟨n, _, rfl, hn, u, rfl, hu⟩; exact ⟨n, u, hn, hu, rfl⟩
    · rintro ⟨n, u, hn, hu, rfl⟩; exact ⟨n, _, rfl, hn, u, rfl, hu⟩
  have last : ∀ {t : Str}, (sq [digs 2 (some 2), opt (sq [lit '.', digs 1 (some 6)]), lit 'Z']).Takes t ↔ ∃ n u, Digits 2 (some 2) n ∧ (∃ f, (f = [] ∨ ∃ ds, Digits 1 (some 6) ds ∧ f = '.' :: ds) ∧ u = f ++ ['Z']) ∧ t = n ++ u := by
    intro t
    rw [sq, takes_digs_seq]
    simp only [ff]
    constructor
    · rintro ⟨n, u, rfl, hn, hu⟩; exact ⟨n, u, hn, hu, rfl⟩
    · rintro ⟨n, u, hn, hu, rfl⟩; exact ⟨n, u, rfl, hn, hu⟩
  simp only [step, last]
  constructor
  · rintro ⟨y, _, hy, ⟨mo, _, hmo, ⟨d, _, hd, ⟨h, _, hh, ⟨mi, _, hmi, ⟨s, _, hs, ⟨f, hf, rfl⟩, rfl⟩, rfl⟩, rfl⟩, rfl⟩, rfl⟩, rfl⟩
    exact ⟨y, mo, d, h, mi, s, f, hy, hmo, hd, hh, hmi, hs, hf, rfl⟩
  · rintro ⟨y, mo, d, h, mi, s, f, hy, hmo, hd, hh, hmi, hs, hf, rfl⟩
    exact ⟨y, _, hy, ⟨mo, _, hmo, ⟨d, _, hd, ⟨h, _, hh, ⟨mi, _, hmi, ⟨s, _, hs, ⟨f, hf, rfl⟩, rfl⟩, rfl⟩, rfl⟩, rfl⟩, rfl⟩, rfl⟩

theorem split_field {a b s t : Str} {c : Char} (ha : ∀ x ∈ a, isDec x = true) (hb : ∀ x ∈ b, isDec x = true) (hc : isDec c = false) (h : a ++ c :: s = b ++ c :: t) : a = b ∧ s = t := by
  obtain ⟨h1, h2⟩ := num_append_inj ha hb (by simpa using hc) (by simpa using hc) h
  exact ⟨h1, by simpa using h2⟩

theorem fixed_digits {k n : Nat} (hk : 1 ≤ k) (h : n < 10 ^ k) : Digits k (some k) (fixed k n) :=
  ⟨by rw [fixed_length hk h], by rintro m ⟨⟩; rw [fixed_length hk h], fixed_isDec k n⟩

theorem zone_head {z : Str} (h : Zone z) : ∀ c ∈ z.head?, isDec c = false := by
  rcases h with rfl | rfl | ⟨s, h, m, rfl | rfl, -, -, rfl⟩
  · simp
  · simp only [List.head?_cons]; rintro c ⟨⟩; decide
  · simp only [List.cons_append, List.head?_cons]; rintro c ⟨⟩; decide
  · simp only [List.cons_append, List.head?_cons]; rintro c ⟨⟩; decide

/-- what stands after the seconds -/
theorem time_end {f f' z : Str} (hf : f = [] ∨ ∃ ds, ds ≠ [] ∧ (∀ c ∈ ds, c ∈ c! "0123456789") ∧ f = '.' :: ds) (hz : Zone z) (hf' : f' = [] ∨ ∃ ds, Digits 1 (some 6) ds ∧ f' = '.' :: ds)
    (h : f ++ z = f' ++ ['Z']) : f = f' ∧ z = ['Z'] := by
  rcases hf with rfl | ⟨ds, hne, hds, rfl⟩
  · rcases hf' with rfl | ⟨ds', hds', rfl⟩
    · exact ⟨rfl, by simpa using h⟩
    · simp only [List.nil_append] at h
      rcases hz with rfl | rfl | ⟨s, _, m, rfl | rfl, -, -, rfl⟩
      · simp at h
      · simp at h
      · simp at h
      · simp at h
  · rcases hf' with rfl | ⟨ds', hds', rfl⟩
    · simp at h
    · simp only [List.cons_append, List.cons.injEq, true_and] at h
      obtain ⟨h1, h2⟩ := num_append_inj (fun c hc => isDec_of_mem (hds c hc)) hds'.2.2 (zone_head hz) (by simp only [List.head?_cons]; rintro c ⟨⟩; decide) h
      exact ⟨by rw [h1], h2⟩

theorem time_head {f z : Str} (hf : f = [] ∨ ∃ ds, ds ≠ [] ∧ (∀ c ∈ ds, c ∈ c! "0123456789") ∧ f = '.' :: ds) (hz : Zone z) : ∀ c ∈ (f ++ z).head?, isDec c = false := by
  rcases hf with rfl | ⟨ds, -, -, rfl⟩
  · exact zone_head hz
  · simp only [List.cons_append, List.head?_cons]; rintro c ⟨⟩; decide

theorem monthDays_le (y m : Nat) : monthDays y m ≤ 31 := by
  have all : ∀ l : List Nat, (∀ x ∈ l, x ≤ 31) → ∀ i, l.getD i 0 ≤ 31 := by
    intro l hl i
    rw [List.getD_eq_getElem?_getD]
    cases h : l[i]? with
    | none => simp
    | some x => exact hl x (List.mem_of_getElem? h)
  unfold monthDays
  exact all _ (by split <;> decide) _

theorem fixed_le {k n : Nat} (h : (fixed k n).length ≤ k) : n < 10 ^ k := by
  have hl : (natStr n).length ≤ k := by
    rw [fixed_eq] at h
    simp only [List.length_append, List.length_replicate] at h
    omega
  have h1 := Verif.ToMpc80.digitsNat_lt (natStr n) (fun c hc => by
    have := fixed_mem 0 n c
    rw [fixed_eq] at this
    exact this (by simpa using hc))
  have e : digitsNat (natStr n) = n := by
    have h2 : Flt.digitsVal (fixed 0 n) = some n := Verif.Sex.digitsVal_fixed 0 n
    have h3 : fixed 0 n = natStr n := by rw [fixed_eq]; simp
    rw [h3] at h2
    have h4 := Verif.Sex.digitsVal_digits (ds := natStr n) (fun c hc => fixed_mem 0 n c (by rw [h3]; exact hc))
    rw [h2] at h4
    simpa using h4.symm
  rw [e] at h1
  exact lt_of_lt_of_le h1 (Nat.pow_le_pow_right (by omega) hl)

theorem has_time {v : Str} : Alt.Has (c! "xsd:dateTime", [(c! "xsd:dateTime", [(c! "xsd:pattern", c! "\\d{4}-\\d{2}-\\d{2}T\\d{2}:\\d{2}:\\d{2}(\\.\\d{1,6})?Z")])]) v ↔ OrdinaryTime (trim v) := by
  have hb : Builtin (c! "xsd:dateTime") v ↔ DateTime (trim v) := by
    unfold Builtin
    constructor
    · rintro (h | ⟨h, -⟩ | ⟨h, -⟩ | ⟨h, -⟩ | ⟨h, -⟩ | ⟨-, h⟩)
      · exact absurd h (by decide)
      · exact absurd h (by decide)
      · exact absurd h (by decide)
      · exact absurd h (by decide)
      · exact absurd h (by decide)
      · exact h
    · intro h; exact .inr (.inr (.inr (.inr (.inr ⟨rfl, h⟩))))
  unfold Alt.Has
  rw [hb]
  simp only [List.mem_singleton, forall_eq, within_pattern pat_time, normal_other (show c! "xsd:dateTime" ≠ c! "xsd:string" by decide)]
  generalize trim v = u
  rw [takes_time]
  constructor
  · rintro ⟨⟨neg, y, mo, d, h, mi, s, f, z, hy, m1, m2, d1, d2, hf, hh, hz, e⟩, y', mo', d', h', mi', s', f', hy', hmo', hd', hh', hmi', hs', hf', e'⟩
    have hneg : neg = false := by
      cases neg with
      | false => rfl
      | true =>
        rw [e] at e'
        cases y' with
        | nil => exact absurd hy'.1 (by simp)
        | cons c t =>
          simp only [if_true, List.append_assoc, List.cons_append, List.cons.injEq] at e'
          have := hy'.2.2 c (by simp)
          rw [← e'.1] at this
          exact absurd this (by decide)
    subst hneg
    have e0 := e
    rw [e'] at e
    simp only [Bool.false_eq_true, if_false, List.nil_append, List.append_assoc, List.cons_append] at e
    obtain ⟨e1, e⟩ := split_field hy'.2.2 (fixed_isDec _ _) (by decide) e
    obtain ⟨e2, e⟩ := split_field hmo'.2.2 (fixed_isDec _ _) (by decide) e
    obtain ⟨e3, e⟩ := split_field hd'.2.2 (fixed_isDec _ _) (by decide) e
    obtain ⟨e4, e⟩ := split_field hh'.2.2 (fixed_isDec _ _) (by decide) e
    obtain ⟨e5, e⟩ := split_field hmi'.2.2 (fixed_isDec _ _) (by decide) e
    obtain ⟨e6, e⟩ := num_append_inj hs'.2.2 (fixed_isDec _ _) (by rcases hf' with rfl | ⟨ds, -, rfl⟩ <;> (simp only [List.nil_append, List.cons_append, List.head?_cons]; rintro c ⟨⟩; decide)) (time_head hf hz) e
    obtain ⟨rfl, rfl⟩ := time_end hf hz hf' e.symm
    refine ⟨y, mo, d, h, mi, s, f, by omega, ?_, m1, m2, d1, d2, ?_, hh, by simpa using e0⟩
    · have := hy'.2.1 4 rfl
      rw [e1] at this
      have := fixed_le this
      omega
    · rcases hf with rfl | ⟨ds, -, hds, rfl⟩
      · exact .inl rfl
      · rcases hf' with hc | ⟨ds', hd', hc⟩
        · simp at hc
        · simp only [List.cons.injEq, true_and] at hc
          subst hc
          exact .inr ⟨ds, hd'.1, hd'.2.1 6 rfl, hds, rfl⟩
  · rintro ⟨y, mo, d, h, mi, s, f, y1, y2, m1, m2, d1, d2, hf, hh, rfl⟩
    have hd := monthDays_le y mo
    have hb : h < 100 ∧ mi < 100 ∧ s < 100 := by rcases hh with hh | hh <;> omega
    refine ⟨⟨false, y, mo, d, h, mi, s, f, ['Z'], by omega, m1, m2, d1, d2, ?_, hh, .inr (.inl rfl), by simp⟩, _, _, _, _, _, _, f, fixed_digits (by omega) (by omega : y < 10 ^ 4), fixed_digits (by omega) (by omega : mo < 10 ^ 2),
      fixed_digits (by omega) (by omega : d < 10 ^ 2), fixed_digits (by omega) (by omega : h < 10 ^ 2), fixed_digits (by omega) (by omega : mi < 10 ^ 2), fixed_digits (by omega) (by omega : s < 10 ^ 2), ?_, by simp⟩
    · rcases hf with hf | ⟨ds, h1, h2, h3, hf⟩
      · exact .inl hf
      · exact .inr ⟨ds, List.length_pos_iff.1 h1, h3, hf⟩
    · rcases hf with hf | ⟨ds, h1, h2, h3, hf⟩
      · exact .inl hf
      · exact .inr ⟨ds, ⟨h1, by rintro _ ⟨⟩; exact h2, fun c hc => isDec_of_mem (h3 c hc)⟩, hf⟩

/-! ### leap seconds -/

/-- only characters of ASCII -/
abbrev Ascii (v : Str) : Prop := AsciiText v

theorem ascii_dec {c : Char} (h : c.toNat < 128) (hd : isDec c = true) : c ∈ c! "0123456789" := by
  have all : ∀ n, n < 128 → isDec (Char.ofNat n) = true → Char.ofNat n ∈ c! "0123456789" := by decide +kernel
  have := all c.toNat h
  rw [Char.ofNat_toNat] at this
  exact this hd

theorem takes_sq_append {a b : List Rx} {v : Str} : (sq (a ++ b)).Takes v ↔ ∃ s t, v = s ++ t ∧ (sq a).Takes s ∧ (sq b).Takes t := by
  induction a generalizing v with
  | nil => simp only [List.nil_append, sq, takes_eps]; simp
  | cons r a ih =>
    simp only [List.cons_append, sq]
    rw [takes_seq]
    simp only [takes_seq, ih]
    constructor
    · rintro ⟨s, _, rfl, hs, t, u, rfl, ht, hu⟩; exact ⟨s ++ t, u, by simp, ⟨s, t, rfl, hs, ht⟩, hu⟩
    · rintro ⟨_, u, rfl, ⟨s, t, rfl, hs, ht⟩, hu⟩; exact ⟨s, t ++ u, by simp, hs, t, u, rfl, ht, hu⟩

theorem takes_choice {ws : List Str} {v : Str} : (choice ws).Takes v ↔ v ∈ ws := by
  induction ws with
  | nil => simp only [choice, takes_one]; simp
  | cons w ws ih =>
    cases ws with
    | nil => simp only [choice, takes_text]; simp
    | cons w' ws => simp only [choice, takes_alt, takes_text] at ih ⊢; rw [ih]; simp

theorem takes_leap {Y : List Rx} {d : Str} {p : Char → Bool} {v : Str} : (leapRx Y d p).Takes v ↔ ∃ s f, (sq Y).Takes s ∧ (f = [] ∨ ∃ c ds, p c = true ∧ Digits 1 none ds ∧ f = c :: ds) ∧ v = s ++ d ++ f ++ ['Z'] := by
  unfold leapRx
  rw [takes_sq_append]
  have g : ∀ t : Str, (sq [.one p, digs 1 none]).Takes t ↔ ∃ c ds, p c = true ∧ Digits 1 none ds ∧ t = c :: ds := by
    intro t
    simp only [sq, takes_seq_one, takes_seq_eps, takes_digs]
    exact ⟨fun ⟨c, ds, a, b, e⟩ => ⟨c, ds, a, e, b⟩, fun ⟨c, ds, a, e, b⟩ => ⟨c, ds, a, b, e⟩⟩
  have ff : ∀ t : Str, (sq [opt (sq [.one p, digs 1 none]), lit 'Z']).Takes t ↔ ∃ f, (f = [] ∨ ∃ c ds, p c = true ∧ Digits 1 none ds ∧ f = c :: ds) ∧ t = f ++ ['Z'] := by
    intro t
    rw [sq, takes_seq]
    have e : ∀ t : Str, (sq [lit 'Z']).Takes t ↔ t = ['Z'] := fun t => takes_text (s := ['Z'])
    simp only [e, takes_opt, g]
    constructor
    · rintro ⟨f, _, rfl, hf, rfl⟩; exact ⟨f, hf, rfl⟩
    · rintro ⟨f, hf, rfl⟩; exact ⟨f, _, rfl, hf, rfl⟩
  have dd : ∀ t : Str, (sq (d.map lit ++ [opt (sq [.one p, digs 1 none]), lit 'Z'])).Takes t ↔ ∃ f, (f = [] ∨ ∃ c ds, p c = true ∧ Digits 1 none ds ∧ f = c :: ds) ∧ t = d ++ f ++ ['Z'] := by
    intro t
    rw [takes_sq_append]
    have e : ∀ s : Str, (sq (d.map lit)).Takes s ↔ s = d := fun s => takes_text
    simp only [e, ff]
    constructor
    · rintro ⟨_, _, rfl, rfl, f, hf, rfl⟩; exact ⟨f, hf, by simp⟩
    · rintro ⟨f, hf, rfl⟩; exact ⟨d, f ++ ['Z'], by simp, rfl, f, hf, rfl⟩
  simp only [dd]
  constructor
  · rintro ⟨s, _, rfl, hs, f, hf, rfl⟩; exact ⟨s, f, hs, hf, by simp⟩
  · rintro ⟨s, f, hs, hf, rfl⟩; exact ⟨s, d ++ f ++ ['Z'], by simp, hs, f, hf, rfl⟩

theorem takes_listed {a b : Char} {ws : List Str} {s : Str} (years : List Nat) (h : ws.map (fun w => a :: b :: w) = years.map (fixed 4)) :
    (sq [lit a, lit b, choice ws]).Takes s ↔ ∃ y ∈ years, s = fixed 4 y := by
  rw [sq, takes_seq_lit, sq]
  simp only [takes_seq_lit]
  rw [sq, sq]
  simp only [takes_seq_eps, takes_choice]
  have : (∃ y ∈ years, s = fixed 4 y) ↔ s ∈ years.map (fixed 4) := by
    rw [List.mem_map]; exact ⟨fun ⟨y, a, b⟩ => ⟨y, a, b.symm⟩, fun ⟨y, a, b⟩ => ⟨y, a, b.symm⟩⟩
  rw [this, ← h, List.mem_map]
  constructor
  · rintro ⟨_, rfl, w, rfl, hw⟩; exact ⟨w, hw, rfl⟩
  · rintro ⟨w, hw, rfl⟩; exact ⟨_, rfl, w, rfl, hw⟩

theorem digit_char {c : Char} (h : c ∈ c! "0123456789") : ∃ k, k < 10 ∧ c = digitChar k := by
  simp only [List.mem_cons, List.not_mem_nil, or_false] at h
  rcases h with rfl | rfl | rfl | rfl | rfl | rfl | rfl | rfl | rfl | rfl
  · exact ⟨0, by decide, rfl⟩
  · exact ⟨1, by decide, rfl⟩
  · exact ⟨2, by decide, rfl⟩
  · exact ⟨3, by decide, rfl⟩
  · exact ⟨4, by decide, rfl⟩
  · exact ⟨5, by decide, rfl⟩
  · exact ⟨6, by decide, rfl⟩
  · exact ⟨7, by decide, rfl⟩
  · exact ⟨8, by decide, rfl⟩
  · exact ⟨9, by decide, rfl⟩

theorem digitChar_toNat {k : Nat} (h : k < 10) : (digitChar k).toNat = 48 + k := by
  revert k; decide

theorem digitChar_dec {k : Nat} (h : k < 10) : isDec (digitChar k) = true := by
  revert k; decide

theorem year_of {a b c d : Nat} (ha : a < 10) (hb : b < 10) (hc : c < 10) (hd : d < 10) : fixed 4 (1000 * a + 100 * b + 10 * c + d) = [digitChar a, digitChar b, digitChar c, digitChar d] := by
  rw [fixed4 (by omega), show (1000 * a + 100 * b + 10 * c + d) / 1000 = a by omega, show (1000 * a + 100 * b + 10 * c + d) / 100 % 10 = b by omega,
    show (1000 * a + 100 * b + 10 * c + d) / 10 % 10 = c by omega, show (1000 * a + 100 * b + 10 * c + d) % 10 = d by omega]

theorem rg_digit {a b : Char} {k i j : Nat} (hk : k < 10) (ha : a.toNat = 48 + i) (hb : b.toNat = 48 + j) : anyOf [rg a b] (digitChar k) = true ↔ i ≤ k ∧ k ≤ j := by
  simp only [anyOf, rg, Bool.or_false, Bool.and_eq_true, decide_eq_true_eq]
  show a.toNat ≤ (digitChar k).toNat ∧ (digitChar k).toNat ≤ b.toNat ↔ _
  rw [digitChar_toNat hk, ha, hb]
  omega

theorem rg_is_digit {a b c : Char} {i j : Nat} (ha : a.toNat = 48 + i) (hb : b.toNat = 48 + j) (hj : j ≤ 9) (h : anyOf [rg a b] c = true) : ∃ k, i ≤ k ∧ k ≤ j ∧ c = digitChar k := by
  have hc : c ∈ c! "0123456789" := by
    rw [← dig_iff]
    simp only [anyOf, rg, dig, Bool.or_false, Bool.and_eq_true, decide_eq_true_eq] at h ⊢
    obtain ⟨h1, h2⟩ := h
    have h1 : a.toNat ≤ c.toNat := h1
    have h2 : c.toNat ≤ b.toNat := h2
    constructor
    · show 48 ≤ c.toNat; omega
    · show c.toNat ≤ 57; omega
  obtain ⟨k, hk, rfl⟩ := digit_char hc
  have := (rg_digit hk ha hb).1 h
  exact ⟨k, this.1, this.2, rfl⟩

theorem takes_thousand2 {s : Str} (ha : Ascii s) : (sq [thousand2]).Takes s ↔ ∃ y, 2017 ≤ y ∧ y ≤ 2999 ∧ s = fixed 4 y := by
  rw [sq, sq, takes_seq_eps, thousand2, takes_alt, takes_alt]
  have dd : ∀ c ∈ s, isDec c = true → ∃ k, k < 10 ∧ c = digitChar k := fun c hc h => digit_char (ascii_dec (ha c hc) h)
  constructor
  · rintro (h | h | h)
    · simp only [sq, takes_seq_one, takes_seq_eps, takes_digs, beq_iff_eq] at h
      obtain ⟨_, _, rfl, rfl, b, t, hb, rfl, ht⟩ := h
      obtain ⟨b, b1, b2, rfl⟩ := rg_is_digit (i := 1) (j := 9) rfl rfl (by omega) hb
      obtain ⟨t1, t2, t3⟩ := ht
      have t2 := t2 2 rfl
      match t, t1, t2, t3, dd with
      | [c, d], _, _, t3, dd =>
        obtain ⟨c, hc, rfl⟩ := dd c (by simp) (t3 c (by simp))
        obtain ⟨d, hd, rfl⟩ := dd d (by simp) (t3 d (by simp))
        exact ⟨1000 * 2 + 100 * b + 10 * c + d, by omega, by omega, by rw [year_of (by omega) (by omega) hc hd]; rfl⟩
    · simp only [sq, takes_seq_one, takes_seq_eps, takes_one, beq_iff_eq] at h
      obtain ⟨_, _, rfl, rfl, _, _, rfl, rfl, c, _, hc, rfl, d, hd, rfl⟩ := h
      obtain ⟨c, c1, c2, rfl⟩ := rg_is_digit (i := 2) (j := 9) rfl rfl (by omega) hc
      obtain ⟨d, hd', rfl⟩ := dd d (by simp) hd
      exact ⟨1000 * 2 + 100 * 0 + 10 * c + d, by omega, by omega, by rw [year_of (by omega) (by omega) (by omega) hd']; rfl⟩
    · simp only [sq, takes_seq_one, takes_seq_eps, takes_one, beq_iff_eq] at h
      obtain ⟨_, _, rfl, rfl, _, _, rfl, rfl, _, _, rfl, rfl, d, hd, rfl⟩ := h
      obtain ⟨d, d1, d2, rfl⟩ := rg_is_digit (i := 7) (j := 9) rfl rfl (by omega) hd
      exact ⟨1000 * 2 + 100 * 0 + 10 * 1 + d, by omega, by omega, by rw [year_of (by omega) (by omega) (by omega) (by omega)]; rfl⟩
  · rintro ⟨y, y1, y2, rfl⟩
    rw [fixed4 (by omega)]
    have e : y / 1000 = 2 := by omega
    rw [e]
    have hb : y / 100 % 10 < 10 := by omega
    have hc : y / 10 % 10 < 10 := by omega
    have hd : y % 10 < 10 := by omega
    by_cases h1 : 1 ≤ y / 100 % 10
    · left
      simp only [sq, takes_seq_one, takes_seq_eps, takes_digs, beq_iff_eq]
      refine ⟨_, _, rfl, rfl, _, _, (rg_digit (i := 1) (j := 9) hb rfl rfl).2 ⟨h1, by omega⟩, rfl, by simp, by simp, ?_⟩
      intro x hx
      simp only [List.mem_cons, List.not_mem_nil, or_false] at hx
      rcases hx with rfl | rfl
      · exact digitChar_dec hc
      · exact digitChar_dec hd
    · have e1 : y / 100 % 10 = 0 := by omega
      rw [e1]
      right
      by_cases h2 : 2 ≤ y / 10 % 10
      · left
        simp only [sq, takes_seq_one, takes_seq_eps, takes_one, beq_iff_eq]
        exact ⟨_, _, rfl, rfl, _, _, rfl, rfl, _, _, (rg_digit (i := 2) (j := 9) hc rfl rfl).2 ⟨h2, by omega⟩, rfl, _, digitChar_dec hd, rfl⟩
      · have e2 : y / 10 % 10 = 1 := by omega
        rw [e2]
        right
        simp only [sq, takes_seq_one, takes_seq_eps, takes_one, beq_iff_eq]
        exact ⟨_, _, rfl, rfl, _, _, rfl, rfl, _, _, rfl, rfl, _, (rg_digit (i := 7) (j := 9) hd rfl rfl).2 ⟨by omega, by omega⟩, rfl⟩

theorem takes_thousands {s : Str} (ha : Ascii s) : (sq [.one (anyOf [rg '3' '9']), digs 3 (some 3)]).Takes s ↔ ∃ y, 3000 ≤ y ∧ y ≤ 9999 ∧ s = fixed 4 y := by
  have dd : ∀ c ∈ s, isDec c = true → ∃ k, k < 10 ∧ c = digitChar k := fun c hc h => digit_char (ascii_dec (ha c hc) h)
  simp only [sq, takes_seq_one, takes_seq_eps, takes_digs]
  constructor
  · rintro ⟨a, t, ha', rfl, t1, t2, t3⟩
    obtain ⟨a, a1, a2, rfl⟩ := rg_is_digit (i := 3) (j := 9) rfl rfl (by omega) ha'
    have t2 := t2 3 rfl
    match t, t1, t2, t3, dd with
    | [b, c, d], _, _, t3, dd =>
      obtain ⟨b, hb, rfl⟩ := dd b (by simp) (t3 b (by simp))
      obtain ⟨c, hc, rfl⟩ := dd c (by simp) (t3 c (by simp))
      obtain ⟨d, hd, rfl⟩ := dd d (by simp) (t3 d (by simp))
      exact ⟨1000 * a + 100 * b + 10 * c + d, by omega, by omega, by rw [year_of (by omega) hb hc hd]⟩
  · rintro ⟨y, y1, y2, rfl⟩
    rw [fixed4 (by omega)]
    have hb : y / 100 % 10 < 10 := by omega
    have hc : y / 10 % 10 < 10 := by omega
    have hd : y % 10 < 10 := by omega
    refine ⟨_, _, (rg_digit (i := 3) (j := 9) (by omega) rfl rfl).2 ⟨by omega, by omega⟩, rfl, by simp, by simp, ?_⟩
    intro x hx
    simp only [List.mem_cons, List.not_mem_nil, or_false] at hx
    rcases hx with rfl | rfl | rfl
    · exact digitChar_dec hb
    · exact digitChar_dec hc
    · exact digitChar_dec hd

/-- the fraction of a leap second -/
def LeapEnd (p : Char → Prop) (f : Str) : Prop := f = [] ∨ ∃ c ds, p c ∧ ds ≠ [] ∧ (∀ c ∈ ds, c ∈ c! "0123456789") ∧ f = c :: ds

theorem leap_end {p : Char → Bool} {f : Str} (ha : Ascii f) : (f = [] ∨ ∃ c ds, p c = true ∧ Digits 1 none ds ∧ f = c :: ds) ↔ LeapEnd (fun c => p c = true) f := by
  unfold LeapEnd
  refine or_congr Iff.rfl ?_
  constructor
  · rintro ⟨c, ds, hc, ⟨h1, -, h2⟩, rfl⟩
    exact ⟨c, ds, hc, List.length_pos_iff.1 h1, fun d hd => ascii_dec (ha d (by simp [hd])) (h2 d hd), rfl⟩
  · rintro ⟨c, ds, hc, h1, h2, rfl⟩
    exact ⟨c, ds, hc, ⟨List.length_pos_iff.2 h1, by simp, fun d hd => isDec_of_mem (h2 d hd)⟩, rfl⟩

theorem leap_iff {Y : List Rx} {d : Str} {p : Char → Bool} {v : Str} (hv : Ascii v) {Q : Nat → Prop} (hY : ∀ s, Ascii s → ((sq Y).Takes s ↔ ∃ y, Q y ∧ s = fixed 4 y)) :
    (leapRx Y d p).Takes v ↔ ∃ y f, Q y ∧ LeapEnd (fun c => p c = true) f ∧ v = fixed 4 y ++ d ++ f ++ ['Z'] := by
  rw [takes_leap]
  constructor
  · rintro ⟨s, f, hs, hf, rfl⟩
    have as : Ascii s := fun c hc => hv c (by simp [hc])
    have af : Ascii f := fun c hc => hv c (by simp [hc])
    obtain ⟨y, hy, rfl⟩ := (hY s as).1 hs
    exact ⟨y, f, hy, (leap_end af).1 hf, rfl⟩
  · rintro ⟨y, f, hy, hf, rfl⟩
    have as : Ascii (fixed 4 y) := fun c hc => hv c (by simp [hc])
    have af : Ascii f := fun c hc => hv c (by simp [hc])
    exact ⟨_, f, (hY _ as).2 ⟨y, hy, rfl⟩, (leap_end af).2 hf, rfl⟩

theorem ascii_left {s t : Str} (h : Ascii (s ++ t)) : Ascii s := fun c hc => h c (by simp [hc])

def leapPatterns : List Str := [c! "19(72|81|82|83|85|92|93|94|97)-06-30T23:59:60(\\.\\d+)?Z", c! "19(72|73|74|75|76|77|78|79|87|89|90|95|98)-12-31T23:59:60(\\.\\d+)?Z",
  c! "20(12|15)-06-30T23:59:60(\\.\\d+)?Z", c! "20(05|08|16)-12-31T23:59:60(.\\d+)?Z", c! "(2[1-9]\\d{2}|20[2-9]\\d|201[7-9])-12-31T23:59:60(\\.\\d+)?Z",
  c! "(2[1-9]\\d{2}|20[2-9]\\d|201[7-9])-06-30T23:59:60(\\.\\d+)?Z", c! "[3-9]\\d{3}-06-30T23:59:60(\\.\\d+)?Z", c! "[3-9]\\d{3}-12-31T23:59:60(\\.\\d+)?Z"]

/-- a leap second of one of some years -/
def LeapIn (Q : Nat → Prop) (p : Char → Prop) (m v : Str) : Prop := ∃ y f, Q y ∧ LeapEnd p f ∧ v = fixed 4 y ++ (m ++ c! "T23:59:60") ++ f ++ ['Z']

theorem leap_pattern {Y : List Rx} {d m : Str} {p : Char → Bool} {v P : Str} (hd : d = m ++ c! "T23:59:60") (hP : pattern P = some (leapRx Y d p)) (hv : Ascii v) {Q : Nat → Prop}
    (hY : ∀ s, Ascii s → ((sq Y).Takes s ↔ ∃ y, Q y ∧ s = fixed 4 y)) : (∃ r, pattern P = some r ∧ r.Takes v) ↔ LeapIn Q (fun c => p c = true) m v := by
  rw [hP]
  simp only [Option.some.injEq, exists_eq_left']
  rw [leap_iff hv hY, hd]
  rfl

theorem takes_leaps {v : Str} (hv : Ascii v) : (∃ p ∈ leapPatterns, ∃ r, pattern p = some r ∧ r.Takes v) ↔ LeapTime v := by
  simp only [leapPatterns, List.mem_cons, List.not_mem_nil, or_false, exists_eq_or_imp, exists_eq_left]
  rw [leap_pattern (m := c! "-06-30") rfl pat_leap1 hv (Q := fun y => y ∈ [1972, 1981, 1982, 1983, 1985, 1992, 1993, 1994, 1997]) fun s _ => takes_listed _ (by decide +kernel),
    leap_pattern (m := c! "-12-31") rfl pat_leap2 hv (Q := fun y => y ∈ [1972, 1973, 1974, 1975, 1976, 1977, 1978, 1979, 1987, 1989, 1990, 1995, 1998]) fun s _ => takes_listed _ (by decide +kernel),
    leap_pattern (m := c! "-06-30") rfl pat_leap3 hv (Q := fun y => y ∈ [2012, 2015]) fun s _ => takes_listed _ (by decide +kernel),
    leap_pattern (m := c! "-12-31") rfl pat_leap4 hv (Q := fun y => y ∈ [2005, 2008, 2016]) fun s _ => takes_listed _ (by decide +kernel),
    leap_pattern (m := c! "-12-31") rfl pat_leap5 hv (Q := fun y => 2017 ≤ y ∧ y ≤ 2999) fun s hs => by rw [takes_thousand2 hs]; simp only [and_assoc],
    leap_pattern (m := c! "-06-30") rfl pat_leap6 hv (Q := fun y => 2017 ≤ y ∧ y ≤ 2999) fun s hs => by rw [takes_thousand2 hs]; simp only [and_assoc],
    leap_pattern (m := c! "-06-30") rfl pat_leap7 hv (Q := fun y => 3000 ≤ y ∧ y ≤ 9999) fun s hs => by rw [takes_thousands hs]; simp only [and_assoc],
    leap_pattern (m := c! "-12-31") rfl pat_leap8 hv (Q := fun y => 3000 ≤ y ∧ y ≤ 9999) fun s hs => by rw [takes_thousands hs]; simp only [and_assoc]]
  have dot : ∀ {f : Str}, LeapEnd (fun c => ch '.' c = true) f → ∀ {m : Str} {y : Nat}, f = [] ∨ ∃ p ds, ds ≠ [] ∧ (∀ c ∈ ds, c ∈ c! "0123456789") ∧ f = p :: ds ∧ (p = '.' ∨ m = c! "-12-31" ∧ (y = 2005 ∨ y = 2008 ∨ y = 2016) ∧ p ≠ '\n' ∧ p ≠ '\r') := by
    intro f hf m y
    rcases hf with rfl | ⟨c, ds, h1, h2, h3, rfl⟩
    · exact .inl rfl
    · exact .inr ⟨c, ds, h2, h3, rfl, .inl (by simpa using h1)⟩
  have back : ∀ {Q Q' : Nat → Prop} {m : Str}, (∀ y, Q y → y ≤ 9999 ∧ (m = c! "-06-30" ∧ (y ∈ leapJune ∨ 2017 ≤ y) ∨ m = c! "-12-31" ∧ (y ∈ leapDecember ∨ 2017 ≤ y))) → LeapIn Q (fun c => ch '.' c = true) m v → LeapTime v := by
    rintro Q Q' m h ⟨y, f, hy, hf, rfl⟩
    obtain ⟨h1, h2⟩ := h y hy
    exact ⟨y, m, f, h1, h2, dot hf, by simp⟩
  constructor
  · rintro (h | h | h | h | h | h | h | h)
    · refine back (Q' := fun _ => True) ?_ h
      intro y hy
      exact (show ∀ y ∈ [1972, 1981, 1982, 1983, 1985, 1992, 1993, 1994, 1997], y ≤ 9999 ∧ (c! "-06-30" = c! "-06-30" ∧ (y ∈ leapJune ∨ 2017 ≤ y) ∨ c! "-06-30" = c! "-12-31" ∧ (y ∈ leapDecember ∨ 2017 ≤ y)) by decide) y hy
    · refine back (Q' := fun _ => True) ?_ h
      intro y hy
      exact (show ∀ y ∈ [1972, 1973, 1974, 1975, 1976, 1977, 1978, 1979, 1987, 1989, 1990, 1995, 1998], y ≤ 9999 ∧ (c! "-12-31" = c! "-06-30" ∧ (y ∈ leapJune ∨ 2017 ≤ y) ∨ c! "-12-31" = c! "-12-31" ∧ (y ∈ leapDecember ∨ 2017 ≤ y)) by decide) y hy
    · refine back (Q' := fun _ => True) ?_ h
      intro y hy
      exact (show ∀ y ∈ [2012, 2015], y ≤ 9999 ∧ (c! "-06-30" = c! "-06-30" ∧ (y ∈ leapJune ∨ 2017 ≤ y) ∨ c! "-06-30" = c! "-12-31" ∧ (y ∈ leapDecember ∨ 2017 ≤ y)) by decide) y hy
    · obtain ⟨y, f, hy, hf, rfl⟩ := h
      refine ⟨y, c! "-12-31", f, ?_, .inr ⟨rfl, .inl ?_⟩, ?_, by simp⟩
      · exact (show ∀ y ∈ [2005, 2008, 2016], y ≤ 9999 by decide) y hy
      · exact (show ∀ y ∈ [2005, 2008, 2016], y ∈ leapDecember by decide) y hy
      · rcases hf with rfl | ⟨c, ds, h1, h2, h3, rfl⟩
        · exact .inl rfl
        · exact .inr ⟨c, ds, h2, h3, rfl, .inr ⟨rfl, by simpa using hy, by simpa using h1⟩⟩
    · exact back (Q' := fun _ => True) (fun y hy => ⟨by omega, .inr ⟨rfl, .inr hy.1⟩⟩) h
    · exact back (Q' := fun _ => True) (fun y hy => ⟨by omega, .inl ⟨rfl, .inr hy.1⟩⟩) h
    · exact back (Q' := fun _ => True) (fun y hy => ⟨by omega, .inl ⟨rfl, .inr (by omega)⟩⟩) h
    · exact back (Q' := fun _ => True) (fun y hy => ⟨by omega, .inr ⟨rfl, .inr (by omega)⟩⟩) h
  · rintro ⟨y, m, f, hy, hm, hf, e⟩
    have e : v = fixed 4 y ++ (m ++ c! "T23:59:60") ++ f ++ ['Z'] := by rw [e]; simp
    have plain : (m = c! "-06-30" ∨ y ∉ [2005, 2008, 2016]) → LeapEnd (fun c => ch '.' c = true) f := by
      intro h
      rcases hf with rfl | ⟨c, ds, h2, h3, rfl, h1 | ⟨h4, h5, -⟩⟩
      · exact .inl rfl
      · exact .inr ⟨c, ds, by simpa using h1, h2, h3, rfl⟩
      · rcases h with h | h
        · rw [h] at h4; exact absurd h4 (by decide)
        · exact absurd (by simpa using h5) h
    have wild : LeapEnd (fun c => (c != '\n' && c != '\r') = true) f := by
      rcases hf with rfl | ⟨c, ds, h2, h3, rfl, rfl | ⟨h4, h5, h6⟩⟩
      · exact .inl rfl
      · exact .inr ⟨_, ds, by decide, h2, h3, rfl⟩
      · exact .inr ⟨c, ds, by simpa using h6, h2, h3, rfl⟩
    rcases hm with ⟨rfl, hm⟩ | ⟨rfl, hm⟩
    · have hp := plain (.inl rfl)
      rcases hm with hm | hm
      · have : y ∈ [1972, 1981, 1982, 1983, 1985, 1992, 1993, 1994, 1997] ∨ y ∈ [2012, 2015] := by
          exact (show ∀ y ∈ leapJune, y ∈ [1972, 1981, 1982, 1983, 1985, 1992, 1993, 1994, 1997] ∨ y ∈ [2012, 2015] by decide) y hm
        rcases this with h | h
        · exact .inl ⟨y, f, h, hp, e⟩
        · exact .inr (.inr (.inl ⟨y, f, h, hp, e⟩))
      · rcases Nat.lt_or_ge y 3000 with h | h
        · exact .inr (.inr (.inr (.inr (.inr (.inl ⟨y, f, ⟨hm, by omega⟩, hp, e⟩)))))
        · exact .inr (.inr (.inr (.inr (.inr (.inr (.inl ⟨y, f, ⟨h, hy⟩, hp, e⟩))))))
    · by_cases hw : y ∈ [2005, 2008, 2016]
      · exact .inr (.inr (.inr (.inl ⟨y, f, hw, wild, e⟩)))
      · have hp := plain (.inr hw)
        rcases hm with hm | hm
        · have : y ∈ [1972, 1973, 1974, 1975, 1976, 1977, 1978, 1979, 1987, 1989, 1990, 1995, 1998] ∨ y ∈ [2005, 2008, 2016] := by
            exact (show ∀ y ∈ leapDecember, y ∈ [1972, 1973, 1974, 1975, 1976, 1977, 1978, 1979, 1987, 1989, 1990, 1995, 1998] ∨ y ∈ [2005, 2008, 2016] by decide) y hm
          rcases this with h | h
          · exact .inr (.inl ⟨y, f, h, hp, e⟩)
          · exact absurd h hw
        · rcases Nat.lt_or_ge y 3000 with h | h
          · exact .inr (.inr (.inr (.inr (.inl ⟨y, f, ⟨hm, by omega⟩, hp, e⟩))))
          · exact .inr (.inr (.inr (.inr (.inr (.inr (.inr ⟨y, f, ⟨h, hy⟩, hp, e⟩))))))

theorem has_leap {v : Str} (hv : Ascii v) : Alt.Has (c! "xsd:string", [(c! "xsd:string", leapPatterns.map fun p => (c! "xsd:pattern", p))]) v ↔ LeapTime v := by
  rw [has_string, ← takes_leaps hv]
  simp only [List.mem_singleton, forall_eq]
  rw [within_iff { pattern := leapPatterns } rfl rfl]
  simp only [List.not_mem_nil, false_implies, implies_true, true_or, and_true, normal_string]
  constructor
  · rintro (h | h)
    · exact absurd h (by decide)
    · exact h
  · exact .inr

end Verif.Xsd
