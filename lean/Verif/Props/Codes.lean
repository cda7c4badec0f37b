import Verif.Lemmas.Dec
import Verif.Lemmas.TotalUnpack
import Verif.Spec.Reference
/-!
  C12 (base 62), C13 (references), C14 (program codes).
-/
namespace Verif
open Verif.PackUtil Verif.Spec

/-! ### C12 -/

/-- **C12.** Decoding the code of `n` gives `n`, for every `n < 62^4`. -/
theorem C12_decode_encode (n : Nat) (h : n < 62 ^ 4) : unRadix62_4 (radix62_4 n) = .ok n := by
  rw [radix62_4_nat]; exact unRadix_b62x4 h

theorem unpackLetter_inv {c : Char} {i : Nat} (h : unpackLetter c = .ok i) : i < 62 ∧ b62 i = c := by
  simp only [unpackLetter] at h
  split at h
  · rename_i j hj
    injection h with h; subst h
    rw [List.findIdx?_eq_some_iff_getElem] at hj
    obtain ⟨hlt, hc, -⟩ := hj
    have hlt' : j < 62 := hlt
    refine ⟨hlt', ?_⟩
    have h1 := packLetter_ok hlt'
    simp only [packLetter, charAt, List.getElem?_eq_getElem hlt] at h1
    injection h1 with h1
    rw [← h1]; simpa using hc
  · simp at h

/-- **C12.** Encoding the value of any four base-62 digits gives these digits. -/
theorem C12_encode_decode (s : Str) (h : s.length = 4) (hs : ∀ c ∈ s, alnum c = true) :
    ∃ n : Nat, n < 62 ^ 4 ∧ unRadix62_4 ('~' :: s) = .ok n ∧ radix62_4 n = '~' :: s := by
  obtain ⟨a, b, c, d, rfl⟩ := four h
  simp at hs
  obtain ⟨i, hi⟩ := unpackLetter_alnum hs.1
  obtain ⟨j, hj⟩ := unpackLetter_alnum hs.2.1
  obtain ⟨k, hk⟩ := unpackLetter_alnum hs.2.2.1
  obtain ⟨m, hm⟩ := unpackLetter_alnum hs.2.2.2
  obtain ⟨li, ei⟩ := unpackLetter_inv hi
  obtain ⟨lj, ej⟩ := unpackLetter_inv hj
  obtain ⟨lk, ek⟩ := unpackLetter_inv hk
  obtain ⟨lm, em⟩ := unpackLetter_inv hm
  refine ⟨((i * 62 + j) * 62 + k) * 62 + m, by omega, ?_, ?_⟩
  · simp [unRadix62_4, charAt, hi, hj, hk, hm, bind, Except.bind, pure, Except.pure]
  · rw [radix62_4_nat, b62x4]
    have e1 : (((i * 62 + j) * 62 + k) * 62 + m) / 62 ^ 3 % 62 = i := by omega
    have e2 : (((i * 62 + j) * 62 + k) * 62 + m) / 62 ^ 2 % 62 = j := by omega
    have e3 : (((i * 62 + j) * 62 + k) * 62 + m) / 62 % 62 = k := by omega
    have e4 : (((i * 62 + j) * 62 + k) * 62 + m) % 62 = m := by omega
    rw [e1, e2, e3, e4, ei, ej, ek, em]
example : unRadix62_4 "~AZaz".toList = .ok 2520113 ∧ radix62_4 2520113 = "~AZaz".toList := by decide +kernel

/-- value of a Unicode string order: compare code points, first difference decides -/
def codeLt : Str → Str → Prop
  | [], [] => False
  | [], _ :: _ => True
  | _ :: _, [] => False
  | a :: s, b :: t => a.toNat < b.toNat ∨ (a = b ∧ codeLt s t)

theorem b62_mono {i j : Nat} (h : i < j) (hj : j < 62) : (b62 i).toNat < (b62 j).toNat := by
  have : ∀ j : Fin 62, ∀ i : Fin 62, i.val < j.val → (b62 i).toNat < (b62 j).toNat := by decide +kernel
  exact this ⟨j, hj⟩ ⟨i, by omega⟩ h

/-- **C12.** The coding preserves order, comparing codes as strings. -/
theorem C12_order (m n : Nat) (h : m < n) (hn : n < 62 ^ 4) : codeLt (radix62_4 m) (radix62_4 n) := by
  rw [radix62_4_nat, radix62_4_nat]
  refine Or.inr ⟨rfl, ?_⟩
  simp only [b62x4, codeLt]
  have q : ∀ i j : Nat, i % 62 < j % 62 → (b62 (i % 62)).toNat < (b62 (j % 62)).toNat := fun i j h => b62_mono h (by omega)
  by_cases h3 : m / 62 ^ 3 % 62 = n / 62 ^ 3 % 62
  · refine Or.inr ⟨by rw [h3], ?_⟩
    by_cases h2 : m / 62 ^ 2 % 62 = n / 62 ^ 2 % 62
    · refine Or.inr ⟨by rw [h2], ?_⟩
      by_cases h1 : m / 62 % 62 = n / 62 % 62
      · refine Or.inr ⟨by rw [h1], Or.inl (q _ _ (by omega))⟩
      · exact Or.inl (q _ _ (by omega))
    · exact Or.inl (q _ _ (by omega))
  · exact Or.inl (q _ _ (by omega))
example : codeLt (radix62_4 61) (radix62_4 62) := C12_order 61 62 (by omega) (by omega)

/-- **C12.** Outside the range the coding wraps modulo `62^4`, for every integer, negative ones included. -/
theorem C12_wraps (n k : Int) : radix62_4 (n + 62 ^ 4 * k) = radix62_4 n := by
  have e0 : (n + 62 ^ 4 * k) % 62 = n % 62 := by omega
  have e1 : (n + 62 ^ 4 * k) / 62 = n / 62 + 62 ^ 3 * k := by omega
  have e1' : (n / 62 + 62 ^ 3 * k) % 62 = n / 62 % 62 := by omega
  have e2 : (n / 62 + 62 ^ 3 * k) / 62 = n / 62 / 62 + 62 ^ 2 * k := by omega
  have e2' : (n / 62 / 62 + 62 ^ 2 * k) % 62 = n / 62 / 62 % 62 := by omega
  have e3 : (n / 62 / 62 + 62 ^ 2 * k) / 62 = n / 62 / 62 / 62 + 62 * k := by omega
  have e3' : (n / 62 / 62 / 62 + 62 * k) % 62 = n / 62 / 62 / 62 % 62 := by omega
  simp only [radix62_4, digit62, e0, e1, e1', e2, e2', e3, e3']
example : radix62_4 (-1) = "~zzzz".toList := by decide +kernel

/-! ### C13 -/

theorem splitWs_MPC (n : Nat) : splitWs (c! "MPC  " ++ natStr n) = [c! "MPC", natStr n] := by
  have : splitWs (c! "MPC  " ++ natStr n) = c! "MPC" :: splitWs (natStr n) := rfl
  rw [this, splitWs_word (natStr_ne_nil n) (fun c hc => digit_not_space (natStr_mem n c hc))]
theorem splitWs_MPS (n : Nat) : splitWs (c! "MPS  " ++ natStr n) = [c! "MPS", natStr n] := by
  have : splitWs (c! "MPS  " ++ natStr n) = c! "MPS" :: splitWs (natStr n) := rfl
  rw [this, splitWs_word (natStr_ne_nil n) (fun c hc => digit_not_space (natStr_mem n c hc))]

theorem letter_ok {k : Nat} (h : k < 26) : charAtInt lower26 (k : Int) = .ok (letter k) := by
  have := forall_lt_of_all (P := fun k => decide (charAtInt lower26 (k : Int) = .ok (letter k))) 26 (by decide +kernel) k h
  simpa using this

theorem last5 {s : Str} (h : s.length = 5) : ljust 5 (s.drop (s.length - 5)) = s := by
  simp [h, ljust]

theorem b62x4_len (n : Nat) : (b62x4 n).length = 4 := rfl

/-- pages for which `packRef` is right -/
def PackOK : Ref → Prop
  | .mpc n => n < 110000 ∨ 200000 ≤ n
  | .mps n => n ≠ 259999

theorem packRef_mpc (n : Nat) : packRef (Ref.mpc n).text =
    .ok (let r := if n < 100000 then (natStr (n + 100000)).drop 1
        else if n < 200000 then '@' :: (natStr (n - 100000 + 10000)).drop 1
        else '#' :: b62x4 (n - 110000)
      ljust 5 (r.drop (r.length - 5))) := by
  have e : slice (c! "MPC  " ++ natStr n) 0 3 = c! "MPC" := rfl
  rw [Ref.text, dec_eq]
  simp only [packRef, e, if_true, splitWs_MPC, listAt, List.getElem?_cons_succ, List.getElem?_cons_zero, pyInt_natStr, bind, Except.bind, pure, Except.pure]
  by_cases h1 : n < 100000
  · rw [if_pos (by omega), if_pos h1]
    rw [show (n : Int) + 100000 = ((n + 100000 : Nat) : Int) by omega, intStr_nat]
  · rw [if_neg (by omega), if_neg h1]
    by_cases h2 : n < 200000
    · rw [if_pos (by omega), if_pos h2, show (n : Int) - 100000 + 10000 = ((n - 100000 + 10000 : Nat) : Int) by omega, intStr_nat]
    · rw [if_neg (by omega), if_neg h2, show (n : Int) - 110000 = ((n - 110000 : Nat) : Int) by omega, radix62_4_nat]
      rfl

theorem packRef_mps (n : Nat) : packRef (Ref.mps n).text =
    .ok (let r := if n < 259999 then letter (n / 10000) :: fixed 4 (n % 10000)
        else radix62_4 ((n : Int) - 260000)
      ljust 5 (r.drop (r.length - 5))) := by
  have e : ¬ slice (c! "MPS  " ++ natStr n) 0 3 = c! "MPC" := by intro h; exact absurd (show c! "MPS" = c! "MPC" from h) (by decide)
  have e' : slice (c! "MPS  " ++ natStr n) 0 3 = c! "MPS" := rfl
  rw [Ref.text, dec_eq]
  simp only [packRef]
  rw [if_neg e]
  simp only [e', if_true, splitWs_MPS, listAt, List.getElem?_cons_succ, List.getElem?_cons_zero, pyInt_natStr, bind, Except.bind, pure, Except.pure]
  by_cases h1 : n < 259999
  · rw [if_pos (by omega), if_pos h1]
    have e1 : (n : Int).tdiv 10000 = ((n / 10000 : Nat) : Int) := by simp
    rw [e1, letter_ok (by omega)]
    have e2 : (n : Int) % 10000 + 10000 = ((n % 10000 + 10 ^ 4 : Nat) : Int) := by omega
    simp only [e2, intStr_nat]
    rw [natStr_add_pow (k := 4) (by omega) (by omega)]
    rfl
  · rw [if_neg (by omega), if_neg h1]

theorem colsA {m k : Nat} (hm : m = k + 10 ^ 5) (hk : k < 10 ^ 5) :
    ljust 5 (((natStr m).drop 1).drop (((natStr m).drop 1).length - 5)) = fixed 5 k := by
  rw [hm, natStr_add_pow (by omega) hk]
  exact last5 (fixed_length (by omega) hk)

theorem colsB {m k : Nat} (hm : m = k + 10 ^ 4) (hk : k < 10 ^ 4) :
    ljust 5 (('@' :: (natStr m).drop 1).drop (('@' :: (natStr m).drop 1).length - 5)) = '@' :: fixed 4 k := by
  rw [hm, natStr_add_pow (by omega) hk]
  exact last5 (by simp [fixed_length (k := 4) (n := k) (by omega) hk])

theorem colsB' {m k : Nat} (hm : m = k + 10 ^ 5) (hk : k < 10 ^ 5) :
    ljust 5 (('@' :: (natStr m).drop 1).drop (('@' :: (natStr m).drop 1).length - 5)) = fixed 5 k := by
  rw [hm, natStr_add_pow (by omega) hk]
  have := fixed_length (k := 5) (n := k) (by omega) hk
  simp [ljust, this]

/-- **C13.** Packing gives the documented columns for every reference outside the two broken ranges. -/
theorem C13_pack {r : Ref} (ok : PackOK r) : packRef r.text = .ok r.columns := by
  cases r with
  | mpc n =>
    rw [packRef_mpc]
    simp only [PackOK] at ok
    simp only [Ref.columns]
    by_cases h1 : n < 100000
    · simp only [if_pos h1]
      exact congrArg Except.ok (colsA (by omega) (by omega))
    · simp only [if_neg h1]
      by_cases h2 : n < 110000
      · simp only [if_pos h2, if_pos (show n < 200000 by omega)]
        exact congrArg Except.ok (colsB (by omega) (by omega))
      · simp only [if_neg h2, if_neg (show ¬ n < 200000 by omega)]
        rw [last5 (by simp [b62x4_len])]
  | mps n =>
    rw [packRef_mps]
    simp only [PackOK] at ok
    simp only [Ref.columns]
    by_cases h1 : n < 259999
    · simp only [if_pos h1, if_pos (show n < 260000 by omega)]
      rw [last5 (by simp [fixed_length (k := 4) (n := n % 10000) (by omega) (by omega)])]
    · simp only [if_neg h1, if_neg (show ¬ n < 260000 by omega)]
      rw [show (n : Int) - 260000 = ((n - 260000 : Nat) : Int) by omega, radix62_4_nat, last5 rfl]

theorem head_digit {c : Char} {s t : Str} (h : s = c :: t) (hs : ∀ c ∈ s, c ∈ digits10) : (c! "0123456789").contains c = true := by
  have := hs c (by simp [h])
  simpa [digits10] using this

theorem letter_facts {k : Nat} (h : k < 26) : (c! "0123456789").contains (letter k) = false ∧ letter k ≠ '@' ∧ letter k ≠ '#' ∧
    lower26.contains (letter k) = true ∧ lower26.idxOf (letter k) = k := by
  have := forall_lt_of_all (P := fun k => decide ((c! "0123456789").contains (letter k) = false ∧ letter k ≠ '@' ∧ letter k ≠ '#' ∧
    lower26.contains (letter k) = true ∧ lower26.idxOf (letter k) = k)) 26 (by decide +kernel) k h
  simpa using this

theorem unpackRef_B {n k : Nat} (hn : n = 100000 + k) : unpackRef ('@' :: fixed 4 k) = .ok (c! "MPC  " ++ natStr n) := by
  have : (c! "0123456789").contains '@' = false := by decide
  simp only [unpackRef, charAt, List.getElem?_cons_zero, bind, Except.bind, this, if_true, pyInt_fixed, pure, Except.pure, List.drop_succ_cons, List.drop_zero,
    Bool.false_eq_true, if_false]
  rw [show (100000 : Int) + (k : Int) = (n : Nat) by omega, intStr_nat]

theorem unpackRef_C {n k : Nat} (hn : n = 110000 + k) (hk : k < 62 ^ 4) : unpackRef ('#' :: b62x4 k) = .ok (c! "MPC  " ++ natStr n) := by
  have e1 : (c! "0123456789").contains '#' = false := by decide
  simp only [unpackRef, charAt, List.getElem?_cons_zero, bind, Except.bind, e1, if_true, pure, Except.pure,
    Bool.false_eq_true, if_false, if_neg (show ¬ '#' = '@' by decide), unRadix_b62x4 hk]
  rw [hn]

theorem unpackRef_E {n k : Nat} (hn : n = 260000 + k) (hk : k < 62 ^ 4) : unpackRef ('~' :: b62x4 k) = .ok (c! "MPS  " ++ natStr n) := by
  have e1 : (c! "0123456789").contains '~' = false := by decide
  have e2 : lower26.contains '~' = false := by decide
  simp only [unpackRef, charAt, List.getElem?_cons_zero, bind, Except.bind, e1, e2, if_true, pure, Except.pure,
    Bool.false_eq_true, if_false, if_neg (show ¬ '~' = '@' by decide), if_neg (show ¬ '~' = '#' by decide), unRadix_b62x4 hk]
  rw [hn]

/-- **C13.** Unpacking the documented columns of any reference gives its text. -/
theorem C13_unpack {r : Ref} (h : r.Valid) : unpackRef r.columns = .ok r.text := by
  cases r with
  | mpc n =>
    simp only [Ref.Valid] at h
    simp only [Ref.columns, Ref.text, dec_eq]
    by_cases h1 : n < 100000
    · simp only [if_pos h1]
      have hl := fixed_length (k := 5) (n := n) (by omega) (by omega)
      cases hf : fixed 5 n with
      | nil => rw [hf] at hl; simp at hl
      | cons c t =>
        have := head_digit hf (fixed_mem 5 n)
        have hp := pyInt_fixed (k := 5) (n := n)
        rw [hf] at hp
        simp only [unpackRef, charAt, List.getElem?_cons_zero, bind, Except.bind, this, if_true, hp, pure, Except.pure, intStr_nat]
    · simp only [if_neg h1]
      by_cases h2 : n < 110000
      · rw [if_pos h2]; exact unpackRef_B (by omega)
      · rw [if_neg h2]; exact unpackRef_C (by omega) (by omega)
  | mps n =>
    simp only [Ref.Valid] at h
    simp only [Ref.columns, Ref.text, dec_eq]
    by_cases h1 : n < 260000
    · simp only [if_pos h1]
      obtain ⟨l1, l2, l3, l4, l5⟩ := letter_facts (k := n / 10000) (by omega)
      simp only [unpackRef, charAt, List.getElem?_cons_zero, bind, Except.bind, l1, if_neg l2, if_neg l3, l4, l5, if_true, pyInt_fixed, pure, Except.pure,
        List.drop_succ_cons, List.drop_zero, Bool.false_eq_true, if_false]
      rw [show ((n % 10000 : Nat) : Int) + 10000 * ((n / 10000 : Nat) : Int) = (n : Nat) by omega, intStr_nat]
    · rw [if_neg h1]; exact unpackRef_E (by omega) (by omega)

theorem refCols_len {r : Ref} (h : r.Valid) : r.columns.length = 5 := by
  cases r with
  | mpc n =>
    simp only [Ref.columns]; split
    · exact fixed_length (by omega) (by omega)
    · split
      · have hk : n - 100000 < 10 ^ 4 := by omega
        generalize n - 100000 = k at hk
        rw [List.length_cons, fixed_length (by omega) hk]
      · rw [List.length_cons, b62x4_len]
  | mps n =>
    simp only [Ref.columns]; split
    · rw [List.length_cons, fixed_length (by omega) (by omega)]
    · rw [List.length_cons, b62x4_len]

/-- **C13.** Round trip in both directions outside the broken ranges. -/
theorem C13_round_trip {r : Ref} (h : r.Valid) (ok : PackOK r) :
    ∃ cols, packRef r.text = .ok cols ∧ cols.length = 5 ∧ unpackRef cols = .ok r.text :=
  ⟨_, C13_pack ok, refCols_len h, C13_unpack h⟩
example : packRef "MPC  200000".toList = .ok "#0NPc".toList ∧ unpackRef "#0NPc".toList = .ok "MPC  200000".toList := by decide +kernel
example : (Ref.mpc 200000).Valid ∧ PackOK (.mpc 200000) := by simp [Ref.Valid, PackOK]

/-- **C13.** Whatever is packed, if packing returns the result is exactly five columns. -/
theorem C13_five_columns (s cols : Str) (h : packRef s = .ok cols) : cols.length = 5 := by
  have key : ∀ r : Str, (ljust 5 (r.drop (r.length - 5))).length = 5 := by intro r; simp [ljust]; omega
  simp only [packRef, bind, Except.bind, pure, Except.pure] at h
  repeat' split at h
  all_goals first
    | (injection h with h; rw [← h]; exact key _)
    | (simp at h)

/-- **C13 (finding).** Every MPC page from 110000 to 189999 is packed as the page `100000 + (last four digits)`. -/
theorem C13_mpc_broken (n : Nat) (h1 : 110000 ≤ n) (h2 : n ≤ 189999) :
    packRef (Ref.mpc n).text = .ok (Ref.mpc (100000 + n % 10000)).columns ∧ n ≠ 100000 + n % 10000 := by
  refine ⟨?_, by omega⟩
  have h3 : natStr (n - 100000 + 10000) = digitChar ((n - 100000 + 10000) / 10000) :: fixed 4 (n % 10000) := by
    rw [natStr5 (by omega) (by omega), fixed4 (by omega)]
    have e1 : (n - 100000 + 10000) / 1000 % 10 = n % 10000 / 1000 := by omega
    have e2 : (n - 100000 + 10000) / 100 % 10 = n % 10000 / 100 % 10 := by omega
    have e3 : (n - 100000 + 10000) / 10 % 10 = n % 10000 / 10 % 10 := by omega
    have e4 : (n - 100000 + 10000) % 10 = n % 10000 % 10 := by omega
    rw [e1, e2, e3, e4]
  rw [packRef_mpc]
  simp only [Ref.columns, if_neg (show ¬ n < 100000 by omega), if_pos (show n < 200000 by omega), if_neg (show ¬ 100000 + n % 10000 < 100000 by omega),
    if_pos (show 100000 + n % 10000 < 110000 by omega), h3, List.drop_succ_cons, List.drop_zero, Nat.add_sub_cancel_left]
  rw [last5 (by simp [fixed_length (k := 4) (n := n % 10000) (by omega) (by omega)])]
example : packRef "MPC  123456".toList = .ok "@3456".toList ∧ unpackRef "@3456".toList = .ok "MPC  103456".toList := by decide +kernel

/-- **C13 (finding).** Every MPC page from 190000 to 199999 is packed as the page `(last four digits)`. -/
theorem C13_mpc_broken' (n : Nat) (h1 : 190000 ≤ n) (h2 : n ≤ 199999) :
    packRef (Ref.mpc n).text = .ok (Ref.mpc (n % 10000)).columns := by
  rw [packRef_mpc]
  simp only [Ref.columns, if_neg (show ¬ n < 100000 by omega), if_pos (show n < 200000 by omega),
    if_pos (show n % 10000 < 100000 by omega)]
  exact congrArg Except.ok (colsB' (by omega) (by omega))
example : packRef "MPC  194321".toList = .ok "04321".toList := by decide +kernel

/-- **C13 (finding).** MPS page 259999 is packed as the last page the five columns can express. -/
theorem C13_mps_broken : packRef (Ref.mps 259999).text = .ok (Ref.mps (260000 + 62 ^ 4 - 1)).columns := by decide +kernel

/-- **C13 (finding).** Beyond the last expressible page the number wraps: two pages `62^4` apart get the same columns. -/
theorem C13_wraps (n : Nat) (h : 260000 ≤ n) : packRef (Ref.mps n).text = packRef (Ref.mps (n + 62 ^ 4)).text := by
  rw [packRef_mps, packRef_mps, if_neg (show ¬ n < 259999 by omega), if_neg (show ¬ n + 62 ^ 4 < 259999 by omega)]
  have := C12_wraps ((n : Int) - 260000) 1
  rw [show ((n + 62 ^ 4 : Nat) : Int) - 260000 = (n : Int) - 260000 + 62 ^ 4 * 1 by omega, this]

/-- **C13.** Any other five-column reference (a journal) passes through both directions unchanged. -/
theorem C13_journal (s : Str) (h : s.length = 5) (h1 : s.take 3 ≠ c! "MPC") (h2 : s.take 3 ≠ c! "MPS")
    (h3 : ∀ c ∈ s.head?, c ∉ (c! "0123456789@#~") ∧ c ∉ lower26) : packRef s = .ok s ∧ unpackRef s = .ok s := by
  constructor
  · have e : slice s 0 3 = s.take 3 := by simp [slice]
    simp only [packRef, e, if_neg h1, if_neg h2, bind, Except.bind, pure, Except.pure]
    rw [last5 h]
  · cases s with
    | nil => simp at h
    | cons c t =>
      have := h3 c (by simp)
      simp at this
      obtain ⟨⟨a0, a1, a2, a3, a4, a5, a6, a7, a8, a9, a10, a11, a12⟩, hl⟩ := this
      have d1 : (c! "0123456789").contains c = false := by simp; exact ⟨a0, a1, a2, a3, a4, a5, a6, a7, a8, a9⟩
      have d2 : lower26.contains c = false := by simpa using hl
      simp only [unpackRef, charAt, List.getElem?_cons_zero, bind, Except.bind, d1, d2, Bool.false_eq_true, if_false, if_neg a10, if_neg a11, if_neg a12,
        pure, Except.pure]
example : packRef "ApJ 1".toList = .ok "ApJ 1".toList ∧ unpackRef "ApJ 1".toList = .ok "ApJ 1".toList := by decide +kernel

/-! ### C14 -/

theorem progs_length : programCodesArray.length = 94 := by decide
theorem progs_nodup : programCodesArray.Nodup := by decide +kernel

/-- **C14.** Each of the 94 program characters gets a two-character code that converts back to it. -/
theorem C14_round_trip (c : Char) (h : c ∈ programCodesArray) :
    ∃ a b, packProgID [c] = .ok [a, b] ∧ unpackProgID [a, b] = .ok c := by
  have : ∀ c ∈ programCodesArray, (match packProgID [c] with
      | .ok [a, b] => decide (unpackProgID [a, b] = .ok c)
      | _ => false) = true := by decide +kernel
  have := this c h
  split at this
  · rename_i a b hp
    exact ⟨a, b, hp, by simpa using this⟩
  · simp at this

/-- **C14.** Different characters get different codes. -/
theorem C14_injective (c d : Char) (s : Str) (hc : packProgID [c] = .ok s) (hd : packProgID [d] = .ok s) : c = d := by
  have mem : ∀ x : Char, x ∉ programCodesArray → packProgID [x] = raiseRT := by
    intro x hx
    have : ∀ l : Str, x ∉ l → strFind l [x] = none := by
      intro l
      induction l with
      | nil => intro _; rfl
      | cons y l ih =>
        intro h
        simp at h
        have e : List.isPrefixOf [x] (y :: l) = false := by simp [List.isPrefixOf, h.1]
        rw [strFind]; simp [e, ih h.2]
    simp [packProgID, this _ hx]
  have c1 : c ∈ programCodesArray := by
    apply Classical.byContradiction; intro h; rw [mem c h] at hc; simp [raiseRT] at hc
  have d1 : d ∈ programCodesArray := by
    apply Classical.byContradiction; intro h; rw [mem d h] at hd; simp [raiseRT] at hd
  obtain ⟨a, b, e1, e2⟩ := C14_round_trip c c1
  obtain ⟨a', b', e1', e2'⟩ := C14_round_trip d d1
  rw [hc] at e1; rw [hd] at e1'
  injection e1 with e1; injection e1' with e1'
  rw [← e1] at e2; rw [← e1', e2] at e2'
  injection e2'

theorem strFind_single_none (x : Char) : ∀ l : Str, x ∉ l → strFind l [x] = none := by
  intro l
  induction l with
  | nil => intro _; rfl
  | cons y l ih =>
    intro h
    simp at h
    have e : List.isPrefixOf [x] (y :: l) = false := by simp [List.isPrefixOf, h.1]
    rw [strFind]; simp [e, ih h.2]

/-- **C14.** Every other character is refused with RuntimeError. -/
theorem C14_others_refused (c : Char) (h : c ∉ programCodesArray) : packProgID [c] = .error .runtimeError := by
  simp [packProgID, strFind_single_none c _ h, raiseRT]
example : '£' ∉ programCodesArray := by decide +kernel

/-- **C14.** Reading a two-character code: codes with base-62 value up to 93 give the character with that number, larger ones a blank,
    anything that is not two base-62 digits is refused. -/
theorem C14_read (i j : Nat) (hi : i < 62) (hj : j < 62) :
    unpackProgID [b62 i, b62 j] = .ok (if 62 * i + j ≤ 93 then programCodesArray.getD (62 * i + j) ' ' else ' ') := by
  simp only [unpackProgID, charAt, List.getElem?_cons_succ, List.getElem?_cons_zero, bind, Except.bind, unpackLetter_b62 hi, unpackLetter_b62 hj]
  by_cases h : 62 * i + j ≤ 93
  · rw [if_pos (by omega), if_pos h]
    have hl : j + 62 * i < programCodesArray.length := by rw [progs_length]; omega
    have hl' : 62 * i + j < programCodesArray.length := by rw [progs_length]; omega
    simp only [List.getD_eq_getElem?_getD, List.getElem?_eq_getElem hl', Option.getD_some, Nat.add_comm j]
  · rw [if_neg (by omega), if_neg h]

theorem C14_read_refused (s : Str) (h : s.length < 2 ∨ ∃ a b t, s = a :: b :: t ∧ (alnum a = false ∨ alnum b = false)) :
    unpackProgID s = .error .runtimeError := by
  have hx : ∀ c, alnum c = false → unpackLetter c = .error .keyError := by
    intro c hc
    have : packLetters.findIdx? (· == c) = none := by
      rw [List.findIdx?_eq_none_iff]
      intro x hx
      have hall : packLetters.all alnum = true := by decide +kernel
      have := List.all_eq_true.1 hall x hx
      rw [beq_eq_false_iff_ne]; rintro rfl; simp [hc] at this
    simp [unpackLetter, this]
  rcases h with h | ⟨a, b, t, rfl, h⟩
  · match s, h with
    | [], _ => rfl
    | [a], _ => rfl
  · simp only [unpackProgID, charAt, List.getElem?_cons_succ, List.getElem?_cons_zero, bind, Except.bind]
    rcases h with h | h
    · rw [hx a h]
      cases unpackLetter b <;> rfl
    · rw [hx b h]; rfl

/-- **C14 (finding).** The empty string is accepted and gets the code of character `0`. -/
theorem C14_empty : packProgID [] = .ok ['0', '0'] ∧ packProgID ['0'] = .ok ['0', '0'] := by decide +kernel

end Verif
