import Verif.Spec.Second
import Verif.Lemmas.Mpc80Second
import Verif.Lemmas.Mpc80Decode
/-!
  Verif.Lemmas.SecondAccept : which coordinates survive being read and written again.
-/
namespace Verif.Second
open Verif Verif.Mpc80 Verif.PackUtil Verif.Spec Verif.Spec.Second

theorem place_iff {c : Char} : numCh c = true ↔ c ∈ placeChars := by
  constructor
  · intro h
    simp only [numCh, Bool.or_eq_true, rng, Bool.and_eq_true, decide_eq_true_eq] at h
    rcases h with (⟨h1, h2⟩ | h) | h
    · have h0 : ('0' : Char).toNat = 48 := rfl
      have h9 : ('9' : Char).toNat = 57 := rfl
      have q : (List.range 128).all (fun n => !(decide (48 ≤ n) && decide (n ≤ 57)) || decide (Char.ofNat n ∈ placeChars)) = true := by decide +kernel
      have := List.all_eq_true.1 q c.toNat (List.mem_range.2 (by omega))
      simp only [Bool.or_eq_true, Bool.not_eq_true', Bool.and_eq_false_iff, decide_eq_false_iff_not, decide_eq_true_eq, Char.ofNat_toNat] at this
      rcases this with h | h
      · omega
      · exact h
    · rw [(ch_iff _ _).1 h]; decide
    · rw [(ch_iff _ _).1 h]; decide
  · intro h
    have q : placeChars.all numCh = true := by decide +kernel
    exact List.all_eq_true.1 q c h

theorem place_space {c : Char} (h : c ∈ placeChars) (h' : c ≠ ' ') : isSpace c = false := by
  have q : placeChars.all (fun c => decide (c = ' ') || !isSpace c) = true := by decide +kernel
  have := List.all_eq_true.1 q c h
  simpa [h'] using this

/-- blanks off the end -/
theorem off_end (b : Str) : ∃ b' j, b = b' ++ List.replicate j ' ' ∧ b'.getLast? ≠ some ' ' := by
  induction b with
  | nil => exact ⟨[], 0, rfl, by simp⟩
  | cons c b ih =>
    obtain ⟨b', j, rfl, h⟩ := ih
    by_cases hb : b' = []
    · subst hb
      by_cases hc : c = ' '
      · subst hc; exact ⟨[], j + 1, by simp [List.replicate_succ], by simp⟩
      · exact ⟨[c], j, rfl, by simpa using hc⟩
    · refine ⟨c :: b', j, rfl, ?_⟩
      rw [List.getLast?_cons, List.getLast?_eq_some_getLast hb] 
      rw [List.getLast?_eq_some_getLast hb] at h
      simpa using h

/-- blanks off the front -/
theorem off_front (b : Str) : ∃ i b', b = List.replicate i ' ' ++ b' ∧ b'.head? ≠ some ' ' := by
  induction b with
  | nil => exact ⟨0, [], rfl, by simp⟩
  | cons c b ih =>
    by_cases hc : c = ' '
    · subst hc
      obtain ⟨i, b', rfl, h⟩ := ih
      exact ⟨i + 1, b', by simp [List.replicate_succ], h⟩
    · exact ⟨0, c :: b, rfl, by simpa using hc⟩

/-- a text of the columns without the blanks around it -/
theorem trimmed {b : Str} (hb : ∀ c ∈ b, c ∈ placeChars) : ∃ i u j, b = List.replicate i ' ' ++ u ++ List.replicate j ' ' ∧ u.head? ≠ some ' ' ∧ u.getLast? ≠ some ' ' ∧ strip b = u := by
  obtain ⟨i, b', rfl, h1⟩ := off_front b
  obtain ⟨u, j, rfl, h2⟩ := off_end b'
  have hu : u.head? ≠ some ' ' := by
    cases u with
    | nil => simp
    | cons c u => simpa using h1
  refine ⟨i, u, j, by rw [List.append_assoc], hu, h2, ?_⟩
  rw [← List.append_assoc]
  refine strip_pad i j (fun c hc => ?_) (fun c hc => ?_)
  · exact place_space (hb c (by simp [List.mem_of_mem_head? hc])) (by rintro rfl; exact hu hc)
  · exact place_space (hb c (by simp [List.mem_of_mem_getLast? hc])) (by rintro rfl; exact h2 hc)

theorem packed_sign {s : Char} (hs : s = '+' ∨ s = '-') (t : Str) : packSigned (s :: t) = .ok (s :: strip t) := by
  rcases hs with rfl | rfl <;> simp [packSigned, charAt, bind, Except.bind, pure, Except.pure]

theorem unpacked_sign {s : Char} (hs : s = '+' ∨ s = '-') (u : Str) (w : Nat) {t : Str} :
    unPackSigned (s :: u) 11 (w + 2 : Nat) = .ok t ↔ ∃ x, applyPJ u 10 .D (w + 1 : Nat) = .ok x ∧ t = s :: x.1 := by
  have e1 : (11 : Int) - 1 = 10 := by omega
  have e2 : ((w + 2 : Nat) : Int) - 1 = ((w + 1 : Nat) : Int) := by omega
  have key : unPackSigned (s :: u) 11 (w + 2 : Nat) = (applyPJ u 10 .D (w + 1 : Nat) >>= fun r => pure (s :: r.1)) := by
    rw [← e2, ← e1]
    rcases hs with rfl | rfl <;> rfl
  rw [key]
  cases applyPJ u 10 .D (w + 1 : Nat) with
  | error e => simp [bind, Except.bind]
  | ok x => simp [bind, Except.bind, pure, Except.pure, eq_comm]

theorem no_nine (w : Nat) (a : Str) : (max ((w + 1 : Nat) : Int) ((a.length : Int) + 1)) = ((max w a.length + 1 : Nat) : Int) := by omega

theorem point_row {w : Nat} {a b : Str} (ha : '.' ∉ a) (hb : '.' ∉ b) :
    ∃ y z, applyPJ (a ++ '.' :: b) 10 .D (w + 1 : Nat) = .ok (List.replicate (w - a.length) ' ' ++ (a ++ '.' :: b) ++ List.replicate (9 - max w a.length - b.length) ' ', y, z) := by
  rw [applyPJ_point ha hb 10 _ (by omega)]
  simp only [no_nine]
  have e1 : (((w + 1 : Nat) : Int) - 1 - (a.length : Int)).toNat = w - a.length := by omega
  have e2 : ((10 : Int) - ((max w a.length + 1 : Nat) : Int) - (b.length : Int)).toNat = 9 - max w a.length - b.length := by omega
  simp only [blanks, e1, e2]
  exact ⟨_, _, rfl⟩

theorem nopoint_row {w : Nat} {a : Str} (ha : '.' ∉ a) :
    ∃ y z, applyPJ a 10 .D (w + 1 : Nat) = .ok (List.replicate (w - a.length) ' ' ++ a ++ List.replicate (10 - max w a.length) ' ', y, z) := by
  rw [applyPJ_nopoint ha 10 _ (by omega)]
  simp only [no_nine]
  have e1 : (((w + 1 : Nat) : Int) - 1 - (a.length : Int)).toNat = w - a.length := by omega
  have e2 : ((10 : Int) - ((max w a.length + 1 : Nat) : Int) + 1).toNat = 10 - max w a.length := by omega
  simp only [blanks, e1, e2]
  exact ⟨_, _, rfl⟩

/-- a text with one point, cut there -/
theorem cut_point {u : Str} (h : '.' ∈ u) (h' : ¬ 2 ≤ u.count '.') : ∃ a b, u = a ++ '.' :: b ∧ '.' ∉ a ∧ '.' ∉ b := by
  obtain ⟨a, b, rfl⟩ := List.append_of_mem h
  refine ⟨a, b, rfl, ?_, ?_⟩
  · intro ha
    have := List.count_pos_iff.2 ha
    simp [List.count_append, List.count_cons] at h'
    omega
  · intro hb
    have := List.count_pos_iff.2 hb
    simp [List.count_append, List.count_cons] at h'
    omega

/-- the coordinates that are written as they were read are those of Spec.Second -/
theorem coord_any {t : Str} (hl : t.length = 11) (h0 : ∀ c ∈ t.take 1, oneOf ['+', '-'] c = true) (h1 : ∀ c ∈ t.drop 1, numCh c = true) {w : Nat} (hw : w ≤ 9) :
    (∃ p, packSigned t = .ok p ∧ unPackSigned p 11 (w + 2 : Nat) = .ok t) ↔ CoordColumns w t := by
  constructor
  · rintro ⟨p, hp, hu⟩
    obtain ⟨s, body, rfl⟩ : ∃ s body, t = s :: body := by
      cases t with
      | nil => simp at hl
      | cons s body => exact ⟨s, body, rfl⟩
    have hs : s = '+' ∨ s = '-' := by simpa using (oneOf_iff _ _).1 (h0 s (by simp))
    have hb : ∀ c ∈ body, c ∈ placeChars := fun c hc => place_iff.1 (h1 c (by simpa using hc))
    rw [packed_sign hs] at hp
    injection hp with hp
    subst hp
    obtain ⟨x, hx, ht⟩ := (unpacked_sign hs _ _).1 hu
    injection ht with _ ht
    obtain ⟨i, u, j, hbu, u1, u2, hstrip⟩ := trimmed hb
    rw [hstrip] at hx
    have hmem : ∀ c ∈ u, c ∈ placeChars := fun c hc => hb c (by rw [hbu]; simp [hc])
    have hsp : ' ' ∈ placeChars := by decide
    have pad : ∀ (k : Nat), ∀ c ∈ List.replicate k ' ', c ∈ placeChars := by
      intro k c hc
      rw [(List.mem_replicate.1 hc).2]; exact hsp
    by_cases hp : '.' ∈ u
    · by_cases hp2 : 2 ≤ u.count '.'
      · rw [applyPJ_points hp2] at hx; cases hx
      · obtain ⟨a, b, rfl, ha, hb'⟩ := cut_point hp hp2
        obtain ⟨y, z, he⟩ := point_row (w := w) ha hb'
        rw [he] at hx
        injection hx with hx
        subst hx
        refine ⟨s, a, '.' :: (b ++ List.replicate (9 - max w a.length - b.length) ' '), hs, ?_, hl, ?_, ha, ?_, .inr ⟨_, ?_, rfl⟩⟩
        · rw [ht]; simp [leftpad_eq]
        · intro c hc
          simp only [List.mem_append, List.mem_cons] at hc
          rcases hc with hc | rfl | hc | hc
          · exact hmem c (by simp [hc])
          · decide
          · exact hmem c (by simp [hc])
          · exact pad _ c hc
        · cases a with
          | nil => simp
          | cons c a => simpa using u1
        · simp [hb']
    · obtain ⟨y, z, he⟩ := nopoint_row (w := w) hp
      rw [he] at hx
      injection hx with hx
      subst hx
      refine ⟨s, u, List.replicate (10 - max w u.length) ' ', hs, ?_, hl, ?_, hp, u1, .inl ⟨u2, _, rfl⟩⟩
      · rw [ht]; simp [leftpad_eq]
      · intro c hc
        rcases List.mem_append.1 hc with hc | hc
        · exact hmem c hc
        · exact pad _ c hc
  · rintro ⟨s, a, rest, hs, rfl, hlen, hmem, ha, a1, h⟩
    refine ⟨s :: strip (List.leftpad w ' ' a ++ rest), packed_sign hs _, (unpacked_sign hs _ _).2 ?_⟩
    rw [leftpad_eq] at hlen ⊢
    have hA : ∀ c ∈ a.head?, isSpace c = false := fun c hc =>
      place_space (hmem c (by simp [List.mem_of_mem_head? hc])) (by rintro rfl; exact a1 hc)
    rcases h with ⟨a2, k, rfl⟩ | ⟨b, hb, rfl⟩
    · have e := strip_pad (s := a) (w - a.length) k hA (fun c hc => place_space (hmem c (by simp [List.mem_of_mem_getLast? hc])) (by rintro rfl; exact a2 hc))
      rw [e]
      obtain ⟨y, z, he⟩ := nopoint_row (w := w) ha
      refine ⟨_, he, ?_⟩
      simp at hlen
      have : k = 10 - max w a.length := by omega
      rw [this]
    · obtain ⟨b', j, rfl, b2⟩ := off_end b
      have hb' : '.' ∉ b' := by intro h; apply hb; simp [h]
      have e := strip_pad (s := a ++ '.' :: b') (w - a.length) j ?_ ?_
      · have e' : List.replicate (w - a.length) ' ' ++ a ++ '.' :: (b' ++ List.replicate j ' ') = List.replicate (w - a.length) ' ' ++ (a ++ '.' :: b') ++ List.replicate j ' ' := by simp
        rw [e', e]
        obtain ⟨y, z, he⟩ := point_row (w := w) ha hb'
        refine ⟨_, he, ?_⟩
        simp at hlen
        have : j = 9 - max w a.length - b'.length := by omega
        rw [this]
      · intro c hc
        cases a with
        | nil => simp at hc; subst hc; decide
        | cons d a => exact hA c (by simpa using hc)
      · intro c hc
        rw [List.getLast?_append, List.getLast?_cons] at hc
        cases hl' : b'.getLast? with
        | none => rw [hl'] at hc; simp at hc; subst hc; decide
        | some d =>
          rw [hl'] at hc
          simp at hc
          subst hc
          exact place_space (hmem d (by simp [List.mem_of_mem_getLast? hl'])) (by rintro rfl; exact b2 hl')
end Verif.Second
