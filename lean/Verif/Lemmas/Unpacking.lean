import Verif.Lemmas.Packing
import Verif.Lemmas.UnpackComet
import Verif.Lemmas.TotalUnpack
import Verif.Spec.Unpacking
/-! Which texts the patterns for packed designations match, and what they capture. -/
set_option linter.unusedSimpArgs false
namespace Verif.Unpacking
open Verif Verif.PackUtil Verif.Spec Verif.Spec.Packing Verif.Spec.Unpacking Verif.Packing

/-! ### priority of alternatives -/

theorem run_pick {h a b e : Re} {s : Str} (hl : (run h s).length ≤ 1) :
    run (.seq h (.seq (.alt a b) e)) s = run (.seq h (.seq a e)) s ++ run (.seq h (.seq b e)) s := by
  simp only [run]
  match hr : run h s, hl with
  | [], _ => simp
  | [m], _ => simp [List.flatMap_append]

theorem match_pick {h a b e : Re} {s : Str} (hl : (run h s).length ≤ 1) :
    reMatch (.seq h (.seq (.alt a b) e)) s = (reMatch (.seq h (.seq a e)) s).or (reMatch (.seq h (.seq b e)) s) := by
  simp only [reMatch, run_pick hl]
  cases run (.seq h (.seq a e)) s <;> simp

theorem match_none {r : Re} {s : Str} : reMatch r s = none ↔ ∀ c t k, s = c ++ t → ¬ r.parse c t k := by
  constructor
  · rintro h c t k rfl hp
    obtain ⟨m, hm⟩ := parse_some hp
    rw [hm] at h; simp at h
  · intro h
    cases hm : reMatch r s with
    | none => rfl
    | some m => obtain ⟨c, t, rfl, hp⟩ := reMatch_parse hm; exact absurd hp (h c t m rfl)

/-- A pattern with at most one reading captures what the reading says. -/
theorem match_unique {r : Re} {P : Str → Caps → Prop} (h1 : ∀ {c t k}, r.parse c t k → P (c ++ t) k) (h2 : ∀ {s k}, P s k → ∃ c t, s = c ++ t ∧ r.parse c t k)
    (h3 : ∀ {s k k'}, P s k → P s k' → k = k') {s : Str} {m : Caps} : reMatch r s = some m ↔ P s m := by
  constructor
  · intro h; obtain ⟨c, t, rfl, hp⟩ := reMatch_parse h; exact h1 hp
  · intro h
    obtain ⟨c, t, rfl, hp⟩ := h2 h
    obtain ⟨m', hm⟩ := parse_some hp
    obtain ⟨c', t', e, hp'⟩ := reMatch_parse hm
    have := h1 hp'
    rw [← e] at this
    rw [hm, h3 h this]

/-! ### characters -/

theorem alnum_b62 {c : Char} : alnum c = true ↔ ∃ k, k < 62 ∧ c = b62 k := by
  constructor
  · intro h
    have hb : c.toNat < 123 := by
      simp only [alnum, rng, Bool.or_eq_true, Bool.and_eq_true, decide_eq_true_eq] at h
      rcases h with (h | h) | h <;> have := h.2 <;> simp at this <;> omega
    have hall : ∀ n : Fin 123, alnum (Char.ofNat n) = true → (List.range 62).any (fun k => Char.ofNat n == b62 k) = true := by decide +kernel
    have := hall ⟨c.toNat, hb⟩ (by simpa [Char.ofNat_toNat] using h)
    simp only [Char.ofNat_toNat, List.any_eq_true, List.mem_range, beq_iff_eq] at this
    exact this
  · rintro ⟨k, hk, rfl⟩
    exact forall_lt_of_all (P := fun k => alnum (b62 k)) 62 (by decide +kernel) k hk

theorem b62_inj {j k : Nat} (hj : j < 62) (hk : k < 62) (h : b62 j = b62 k) : j = k := by
  have := unpackLetter_b62 hj
  rw [h, unpackLetter_b62 hk] at this
  injection this with this
  exact this.symm

theorem b62_rng {a b : Char} {x y : Nat} (hy : y < 62)
    (hall : ∀ n : Fin 123, rng a b (Char.ofNat n) = true → (List.range 62).any (fun k => decide (x ≤ k) && decide (k ≤ y) && (Char.ofNat n == b62 k)) = true)
    (hall2 : ∀ k : Fin 62, x ≤ k.val → k.val ≤ y → rng a b (b62 k) = true) (hb : b.toNat < 123) {c : Char} :
    rng a b c = true ↔ ∃ k, x ≤ k ∧ k ≤ y ∧ c = b62 k := by
  constructor
  · intro h
    have hc : c.toNat < 123 := by
      simp only [rng, Bool.and_eq_true, decide_eq_true_eq] at h
      omega
    have := hall ⟨c.toNat, hc⟩ (by simpa [Char.ofNat_toNat] using h)
    simp only [Char.ofNat_toNat, List.any_eq_true, List.mem_range, beq_iff_eq, Bool.and_eq_true, decide_eq_true_eq] at this
    obtain ⟨k, -, ⟨h1, h2⟩, h3⟩ := this
    exact ⟨k, h1, h2, h3⟩
  · rintro ⟨k, h1, h2, rfl⟩
    exact hall2 ⟨k, by omega⟩ h1 h2

theorem IK {c : Char} : rng 'I' 'K' c = true ↔ ∃ k, 18 ≤ k ∧ k ≤ 20 ∧ c = b62 k := b62_rng (by omega) (by decide +kernel) (by decide +kernel) (by decide)
theorem PZ {c : Char} : rng 'P' 'Z' c = true ↔ ∃ k, 25 ≤ k ∧ k ≤ 35 ∧ c = b62 k := b62_rng (by omega) (by decide +kernel) (by decide +kernel) (by decide)

theorem lower_az {c : Char} : rng 'a' 'z' c = true ↔ ∃ f, Capital f ∧ c = lower f ∧ asciiUpper c = f := by
  constructor
  · intro h
    have h' := h
    simp only [rng, Bool.and_eq_true, decide_eq_true_eq] at h
    have hc : c.toNat < 123 := by have := h.2; have e : 'z'.toNat = 122 := rfl; omega
    have hall : ∀ n : Fin 123, rng 'a' 'z' (Char.ofNat n) = true → upperCase.any (fun f => (Char.ofNat n == lower f) && (asciiUpper (Char.ofNat n) == f)) = true := by decide +kernel
    have := hall ⟨c.toNat, hc⟩ (by simpa [Char.ofNat_toNat] using h')
    simp only [Char.ofNat_toNat, List.any_eq_true, beq_iff_eq, Bool.and_eq_true] at this
    obtain ⟨f, hf, h1, h2⟩ := this
    exact ⟨f, capital_rng.2 (all_mem (by decide +kernel : upperCase.all (rng 'A' 'Z') = true) hf), h1, h2⟩
  · rintro ⟨f, hf, rfl, -⟩
    have h := capital_rng.1 hf
    have h' := h
    simp only [rng, Bool.and_eq_true, decide_eq_true_eq] at h
    have hc : f.toNat < 123 := by have := h.2; have e : 'Z'.toNat = 90 := rfl; omega
    have hall : ∀ n : Fin 123, rng 'A' 'Z' (Char.ofNat n) = true → rng 'a' 'z' (lower (Char.ofNat n)) = true := by decide +kernel
    have := hall ⟨f.toNat, hc⟩ (by simpa [Char.ofNat_toNat] using h')
    simpa [Char.ofNat_toNat] using this

theorem lower_up {f : Char} (h : Capital f) : asciiUpper (lower f) = f := by
  have h := capital_rng.1 h
  have h' := h
  simp only [rng, Bool.and_eq_true, decide_eq_true_eq] at h
  have hc : f.toNat < 123 := by have := h.2; have e : 'Z'.toNat = 90 := rfl; omega
  have hall : ∀ n : Fin 123, rng 'A' 'Z' (Char.ofNat n) = true → asciiUpper (lower (Char.ofNat n)) = Char.ofNat n := by decide +kernel
  have := hall ⟨f.toNat, hc⟩ (by simpa [Char.ofNat_toNat] using h')
  simpa [Char.ofNat_toNat] using this

theorem ch_iff {a c : Char} : ch a c = true ↔ c = a := by
  simp only [ch, beq_iff_eq]
  exact ⟨fun h => by rw [← Char.ofNat_toNat c, h, Char.ofNat_toNat], fun h => by rw [h]⟩

theorem planet_iff {c : Char} : oneOf (c! "JSUN") c = true ↔ ∃ p : Planet, c = p.letter := by
  have e : oneOf (c! "JSUN") c = true ↔ c = 'J' ∨ c = 'S' ∨ c = 'U' ∨ c = 'N' := by
    simp only [oneOf, List.any_eq_true]
    constructor
    · rintro ⟨a, ha, h⟩
      have : c = a := ch_iff.1 h
      subst this
      simpa using ha
    · intro h; exact ⟨c, by simpa using h, by simp⟩
  rw [e]
  constructor
  · rintro (rfl | rfl | rfl | rfl)
    · exact ⟨.jupiter, rfl⟩
    · exact ⟨.saturn, rfl⟩
    · exact ⟨.uranus, rfl⟩
    · exact ⟨.neptune, rfl⟩
  · rintro ⟨p, rfl⟩; cases p <;> simp [Planet.letter]

theorem types_iff {c : Char} : oneOf (c! "APCDXI") c = true ↔ c ∈ c! "APCDXI" := by
  simp only [oneOf, List.any_eq_true]
  constructor
  · rintro ⟨a, ha, h⟩
    have : c = a := ch_iff.1 h
    exact this ▸ ha
  · intro h; exact ⟨c, h, by simp⟩

theorem len3 {α : Type} {l : List α} (h1 : 3 ≤ l.length) (h2 : l.length ≤ 3) : ∃ a b c, l = [a, b, c] := by
  match l, h1, h2 with
  | [a, b, c], _, _ => exact ⟨a, b, c, rfl⟩
theorem len5 {α : Type} {l : List α} (h1 : 5 ≤ l.length) (h2 : l.length ≤ 5) : ∃ a b c d e, l = [a, b, c, d, e] := by
  match l, h1, h2 with
  | [a, b, c, d, e], _, _ => exact ⟨a, b, c, d, e, rfl⟩

theorem times_parse {n : Nat} {p : Char → Bool} {c t : Str} {k : Caps} : (times n p).parse c t k ↔ (c.length = n ∧ ∀ a ∈ c, p a = true) ∧ k = [] := by
  simp only [times, Re.parse, Option.some.injEq]
  constructor
  · rintro ⟨⟨h1, h2, h3⟩, rfl⟩
    exact ⟨⟨Nat.le_antisymm (h2 n rfl) h1, h3⟩, rfl⟩
  · rintro ⟨⟨rfl, h3⟩, rfl⟩
    exact ⟨⟨Nat.le_refl _, fun _ h => h ▸ Nat.le_refl _, h3⟩, rfl⟩

theorem all_ch {a : Char} {s : Str} {n : Nat} (hl : s.length = n) (h : ∀ c ∈ s, ch a c = true) : s = List.replicate n a :=
  List.eq_replicate_iff.2 ⟨hl, fun c hc => ch_iff.1 (h c hc)⟩

theorem star_blank {c t : Str} {k : Caps} : (star (ch ' ')).parse c t k ↔ (∃ n, c = spaces n) ∧ k = [] := by
  simp only [star, Re.parse]
  constructor
  · rintro ⟨⟨-, -, h⟩, rfl⟩; exact ⟨⟨c.length, all_ch rfl h⟩, rfl⟩
  · rintro ⟨⟨n, rfl⟩, rfl⟩
    exact ⟨⟨Nat.zero_le _, by simp, fun a ha => ch_iff.2 (List.mem_replicate.1 ha).2⟩, rfl⟩

theorem cls_parse {p : Char → Bool} {c t : Str} {k : Caps} : (Re.cls p).parse c t k ↔ (∃ a, p a = true ∧ c = [a]) ∧ k = [] := Iff.rfl

theorem end_eq {e : Str} : (e = [] ∨ e = ['\n']) ↔ End e := Iff.rfl

/-- texts without a line feed, each followed by the end -/
theorem end_cut {a b e e' : Str} (ha : '\n' ∉ a) (hb : '\n' ∉ b) (he : End e) (he' : End e') (h : a ++ e = b ++ e') : a = b ∧ e = e' :=
  split_unique (p := fun c => c != '\n') (fun c hc => by simp; rintro rfl; exact ha hc) (fun c hc => by simp; rintro rfl; exact hb hc)
    (end_head he (by decide)) (end_head he' (by decide)) h

theorem dec_nl {c : Char} (h : isDec c = true) : c ≠ '\n' := dec_ne h (by decide)
theorem alnum_nl {c : Char} (h : alnum c = true) : c ≠ '\n' := by rintro rfl; exact absurd h (by decide)

end Verif.Unpacking
