import Verif.Lemmas.References
/-!
  C59: white space and digits.  The other properties speak about `isSpace`, `isDec` and `decVal`; here these are tied to explicit tables.
-/
namespace Verif
open Verif.References

/-- the characters Python's `str.isspace`, `str.strip`, `str.split` and the pattern `\s` count as white space -/
def pythonSpaces : List Nat :=
  [0x09, 0x0A, 0x0B, 0x0C, 0x0D, 0x1C, 0x1D, 0x1E, 0x1F, 0x20, 0x85, 0xA0, 0x1680, 0x2000, 0x2001, 0x2002, 0x2003, 0x2004, 0x2005, 0x2006, 0x2007,
   0x2008, 0x2009, 0x200A, 0x2028, 0x2029, 0x202F, 0x205F, 0x3000]

/-- **C59.** White space is one of 29 characters, among them the separators 1C to 1F, the no-break space and the ideographic space. -/
theorem C59_space (c : Char) : isSpace c = true ↔ c.toNat ∈ pythonSpaces := by
  simp only [isSpace, pythonSpaces, Bool.or_eq_true, Bool.and_eq_true, decide_eq_true_eq, beq_iff_eq, List.mem_cons, List.not_mem_nil, or_false]
  omega

/-- the scripts with ten consecutive digits that Unicode 14 has below U+2000, by the code of their zero -/
def firstScripts : List Nat :=
  [0x30, 0x660, 0x6F0, 0x7C0, 0x966, 0x9E6, 0xA66, 0xAE6, 0xB66, 0xBE6, 0xC66, 0xCE6, 0xD66, 0xDE6, 0xE50, 0xED0, 0xF20, 0x1040, 0x1090, 0x17E0, 0x1810,
   0x1946, 0x19D0, 0x1A80, 0x1A90, 0x1B50, 0x1BB0, 0x1C40, 0x1C50]
/-- and from there on -/
def otherScripts : List Nat :=
  [0xA620, 0xA8D0, 0xA900, 0xA9D0, 0xA9F0, 0xAA50, 0xABF0, 0xFF10, 0x104A0, 0x10D30, 0x11066, 0x110F0, 0x11136, 0x111D0, 0x112F0, 0x11450, 0x114D0,
   0x11650, 0x116C0, 0x11730, 0x118E0, 0x11950, 0x11C50, 0x11D50, 0x11DA0, 0x16A60, 0x16AC0, 0x16B50, 0x1D7CE, 0x1D7D8, 0x1D7E2, 0x1D7EC, 0x1D7F6,
   0x1E140, 0x1E2F0, 0x1E950, 0x1FBF0]

/-- **C59.** A character is a digit of value `v` exactly if it comes `v` places after the zero of one of these scripts. -/
theorem C59_digit (c : Char) (v : Nat) : decVal c = some v ↔ v < 10 ∧ ∃ z ∈ firstScripts ++ otherScripts, c.toNat = z + v := by
  have ht : firstScripts ++ otherScripts = decZeros := by decide +kernel
  have hdis : decZeros.all (fun a => decZeros.all fun b => (a == b) || decide (a + 10 ≤ b) || decide (b + 10 ≤ a)) = true := by decide +kernel
  rw [ht]
  unfold decVal
  rw [Option.map_eq_some_iff]
  constructor
  · rintro ⟨z, hz, rfl⟩
    have h1 := List.find?_some hz
    have h2 := List.mem_of_find?_eq_some hz
    simp only [Bool.and_eq_true, decide_eq_true_eq] at h1
    exact ⟨by omega, z, h2, by omega⟩
  · rintro ⟨hv, z, hz, hc⟩
    cases hf : decZeros.find? fun z => decide (z ≤ c.toNat) && decide (c.toNat < z + 10) with
    | none =>
      have := List.find?_eq_none.1 hf z hz
      simp only [Bool.and_eq_true, decide_eq_true_eq] at this
      omega
    | some y =>
      have h1 := List.find?_some hf
      have h2 := List.mem_of_find?_eq_some hf
      simp only [Bool.and_eq_true, decide_eq_true_eq] at h1
      have h3 := List.all_eq_true.1 (List.all_eq_true.1 hdis z hz) y h2
      simp only [Bool.or_eq_true, beq_iff_eq, decide_eq_true_eq] at h3
      refine ⟨y, rfl, ?_⟩
      omega

/-- **C59.** `\d` is any character that has such a value. -/
theorem C59_decimal (c : Char) : isDec c = true ↔ ∃ v, v < 10 ∧ ∃ z ∈ firstScripts ++ otherScripts, c.toNat = z + v := by
  rw [isDec, Option.isSome_iff_exists]
  constructor
  · rintro ⟨v, h⟩; exact ⟨v, (C59_digit c v).1 h⟩
  · rintro ⟨v, h⟩; exact ⟨v, (C59_digit c v).2 h⟩

/-- **C59.** In ASCII these are the ten digits. -/
theorem C59_ascii (c : Char) (h : c.toNat < 128) : isDec c = true ↔ c ∈ ['0', '1', '2', '3', '4', '5', '6', '7', '8', '9'] := by
  have key : ∀ n, n < 128 → (isDec (Char.ofNat n) = true ↔ Char.ofNat n ∈ ['0', '1', '2', '3', '4', '5', '6', '7', '8', '9']) := by
    have hall : (List.range 128).all (fun n => isDec (Char.ofNat n) == ['0', '1', '2', '3', '4', '5', '6', '7', '8', '9'].contains (Char.ofNat n)) = true := by decide +kernel
    intro n hn
    have := List.all_eq_true.1 hall n (List.mem_range.2 hn)
    rw [eq_of_beq this, List.contains_iff_mem]
  have := key c.toNat h
  rwa [Char.ofNat_toNat] at this

/-- **C59.** No digit is white space. -/
theorem C59_apart (c : Char) (h : isDec c = true) : isSpace c = false := dec_not_space h

namespace SampleCharacters
example : isSpace '\u001c' = true ∧ isSpace '\u00a0' = true ∧ isSpace '\u200b' = false ∧ decVal '٣' = some 3 ∧ decVal '9' = some 9 ∧ decVal '²' = none := by decide +kernel
example : ('5' : Char).toNat < 128 ∧ isDec '5' = true := by decide
end SampleCharacters

end Verif
