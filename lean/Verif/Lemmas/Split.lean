import Verif.Justify
import Verif.Lemmas.Dec
/-! `str.split(c)` -/
namespace Verif

theorem splitChar_ne_nil (c : Char) : ∀ s, splitChar c s ≠ []
  | [] => by simp [splitChar]
  | d :: s => by
    rw [splitChar]
    split
    · simp
    · split <;> simp

theorem splitChar_none {c : Char} : ∀ {s : Str}, c ∉ s → splitChar c s = [s]
  | [], _ => rfl
  | d :: s, h => by
    simp at h
    rw [splitChar, if_neg (Ne.symm h.1), splitChar_none h.2]

theorem splitChar_append {c : Char} : ∀ {a : Str} (b : Str), c ∉ a → splitChar c (a ++ c :: b) = a :: splitChar c b
  | [], b, _ => by simp [splitChar]
  | d :: a, b, h => by
    simp at h
    rw [List.cons_append, splitChar, if_neg (Ne.symm h.1), splitChar_append b h.2]

theorem splitChar_length (c : Char) : ∀ s : Str, (splitChar c s).length = s.count c + 1
  | [] => by simp [splitChar]
  | d :: s => by
    have ih := splitChar_length c s
    rw [splitChar]
    split
    · rename_i h; subst h; simp [ih]
    · rename_i h
      rw [List.count_cons_of_ne h]
      split
      · rename_i h'; rw [h'] at ih; simp at ih
      · rename_i h'; rw [h'] at ih; simpa using ih

/-- split at the first separator -/
theorem exists_split {c : Char} {s : Str} (h : c ∈ s) : ∃ a b, s = a ++ c :: b ∧ c ∉ a := by
  induction s with
  | nil => simp at h
  | cons d s ih =>
    by_cases hd : d = c
    · exact ⟨[], s, by simp [hd], by simp⟩
    · simp at h
      obtain ⟨a, b, rfl, hb⟩ := ih (h.resolve_left (Ne.symm hd))
      exact ⟨d :: a, b, rfl, by simp [hb, Ne.symm hd]⟩

/-- no piece contains the separator, and joining the pieces gives the string back -/
theorem splitChar_pieces (c : Char) : ∀ (s : Str) (p : Str), p ∈ splitChar c s → c ∉ p
  | [], p, h => by simp [splitChar] at h; simp [h]
  | d :: s, p, h => by
    rw [splitChar] at h
    split at h
    · simp at h
      rcases h with rfl | h
      · simp
      · exact splitChar_pieces c s p h
    · rename_i hd
      split at h
      · rename_i h'; exact absurd h' (splitChar_ne_nil c s)
      · rename_i q qs h'
        simp at h
        rcases h with rfl | h
        · have := splitChar_pieces c s q (by simp [h'])
          simp [this, Ne.symm hd]
        · exact splitChar_pieces c s p (by simp [h', h])

theorem blanks_of_neg {n : Int} (h : n ≤ 0) : blanks n = [] := by
  have : n.toNat = 0 := by omega
  simp [blanks, this]
theorem blanks_length (n : Int) : (blanks n).length = n.toNat := by simp [blanks]
theorem blanks_mem {n : Int} {c : Char} (h : c ∈ blanks n) : c = ' ' := by
  simp [blanks] at h; exact h.2

theorem strip_pad {s : Str} (i j : Nat) (h1 : ∀ c ∈ s.head?, isSpace c = false) (h2 : ∀ c ∈ s.getLast?, isSpace c = false) :
    strip (List.replicate i ' ' ++ s ++ List.replicate j ' ') = s := by
  have dropRep : ∀ (k : Nat) (t : Str), (List.replicate k ' ' ++ t).dropWhile isSpace = t.dropWhile isSpace := by
    intro k t
    induction k with
    | zero => rfl
    | succ k ih =>
      rw [List.replicate_succ, List.cons_append, List.dropWhile_cons]
      simp [show isSpace ' ' = true from by decide, ih]
  cases hs : s with
  | nil =>
    subst hs
    have e : List.replicate i ' ' ++ [] ++ List.replicate j ' ' = List.replicate (i + j) ' ' := by
      simp
    rw [e, strip, rstrip]
    have := dropRep (i + j) []
    simp only [List.append_nil] at this
    simp [this, lstrip]
  | cons c t =>
    rw [← hs]
    have r : rstrip (List.replicate i ' ' ++ s ++ List.replicate j ' ') = List.replicate i ' ' ++ s := by
      rw [rstrip, List.reverse_append, List.reverse_replicate, dropRep]
      have : (List.replicate i ' ' ++ s).reverse.dropWhile isSpace = (List.replicate i ' ' ++ s).reverse := by
        cases hr : s.reverse with
        | nil => rw [List.reverse_eq_nil_iff] at hr; simp [hr] at hs
        | cons d u =>
          have hl : s.getLast? = some d := by rw [← List.head?_reverse, hr]; rfl
          rw [List.reverse_append, hr, List.cons_append, List.dropWhile_cons, h2 d (by simp [hl])]; simp
      rw [this]; simp
    rw [strip, r, lstrip, dropRep]
    rw [hs, List.dropWhile_cons, h1 c (by simp [hs])]; simp

end Verif
