import Verif.Lemmas.Num
import Verif.Lemmas.Regex
/-! `packPerm` on every valid permanent designation. -/
namespace Verif
open Verif.PackUtil

theorem all_mem {F : Str} {P : Char → Bool} (h : F.all P = true) {c : Char} (hc : c ∈ F) : P c = true :=
  List.all_eq_true.1 h c hc

theorem natStr_cons (n : Nat) : ∃ c s, natStr n = c :: s ∧ c ∈ digits10 := by
  cases h : natStr n with
  | nil => exact absurd h (natStr_ne_nil n)
  | cons c s => exact ⟨c, s, rfl, natStr_mem n c (by simp [h])⟩

/-- a pattern that starts with a captured digit run, on a number followed by `t` -/
theorem run_num {g : Nat} {b : Re} (n : Nat) {t : Str}
    (ht : ∀ c ∈ t.head?, isDec c = false) (hb : digits10.all b.rej = true) :
    run (.seq (.grp g (plus isDec)) b) (natStr n ++ t) =
      (run b t).map fun m => (natStr n ++ m.1, m.2.1, (g, natStr n) :: m.2.2) :=
  run_grp_rep_seq' (natStr_isDec n) ht (fun c hc => all_mem hb (natStr_mem n c hc)) (natStr_length_pos n)

theorem reMatch_num {g : Nat} {b : Re} (n : Nat) {t : Str}
    (ht : ∀ c ∈ t.head?, isDec c = false) (hb : digits10.all b.rej = true) :
    reMatch (.seq (.grp g (plus isDec)) b) (natStr n ++ t) = (reMatch b t).map fun m => (g, natStr n) :: m := by
  simp only [reMatch, run_num n ht hb, List.head?_map, Option.map_map]
  rfl

/-- a pattern that cannot start with a digit, on a number followed by `t` -/
theorem reMatch_num_none {r : Re} (n : Nat) {t : Str} (h : digits10.all r.rej = true) :
    reMatch r (natStr n ++ t) = none := by
  obtain ⟨c, s, e, hc⟩ := natStr_cons n
  rw [e, List.cons_append]
  exact reMatch_rej (all_mem h hc)

section minor
variable (n : Nat)

theorem mpPerm_num (t : Str) (ht : ∀ c ∈ t.head?, isDec c = false) :
    reMatch minorplanetPermIDRegex (natStr n ++ t) = (reMatch .eos t).map fun m => (1, natStr n) :: m :=
  reMatch_num (b := .eos) n ht (by decide)

theorem cometPerm_num (t : Str) (ht : ∀ c ∈ t.head?, isDec c = false) :
    reMatch cometPermIDRegex (natStr n ++ t) =
      (reMatch (cat [.grp 2 (.cls (oneOf (c! "PDI"))), .eos]) t).map fun m => (1, natStr n) :: m :=
  reMatch_num (b := cat [.grp 2 (.cls (oneOf (c! "PDI"))), .eos]) n ht (by decide)

theorem fragPerm_num (t : Str) (ht : ∀ c ∈ t.head?, isDec c = false) :
    reMatch cometfragmentPermIDRegex (natStr n ++ t) =
      (reMatch (cat [.grp 2 (.cls (oneOf (c! "PDI"))), .cls (ch '-'),
       .grp 3 (.rep 1 (some 2) (rng 'A' 'Z')), .eos]) t).map fun m => (1, natStr n) :: m :=
  reMatch_num (b := cat [.grp 2 (.cls (oneOf (c! "PDI"))), .cls (ch '-'),
       .grp 3 (.rep 1 (some 2) (rng 'A' 'Z')), .eos]) n ht (by decide)

theorem satPerm_num (t : Str) : reMatch satellitePermIDRegex (natStr n ++ t) = none :=
  reMatch_num_none n (by decide)
theorem astSatPerm_num (t : Str) : reMatch asteroidsatellitePermIDRegex (natStr n ++ t) = none :=
  reMatch_num_none n (by decide)
end minor

theorem grp!_of {m : Caps} {n : Nat} {s : Str} (h : group m n = some s) : grp! m n = .ok s := by
  simp [grp!, h]

/-- packing any number as a permID: the range test decides -/
theorem packPerm_minor_ok {n : Nat} (h1 : 1 ≤ n) (h2 : n ≤ 15396335) :
    packPerm (some (natStr n)) = .ok (some ⟨(Spec.Perm.minor n).cols, .A, []⟩) := by
  have e1 := mpPerm_num n [] (by simp)
  have e2 := cometPerm_num n [] (by simp)
  have e3 := fragPerm_num n [] (by simp)
  have e4 := satPerm_num n []
  have e5 := astSatPerm_num n []
  rw [List.append_nil] at e1 e2 e3 e4 e5
  have f1 : reMatch .eos [] = some [] := by decide
  have f2 : reMatch (cat [.grp 2 (.cls (oneOf (c! "PDI"))), .eos]) [] = none := by decide
  have f3 : reMatch (cat [.grp 2 (.cls (oneOf (c! "PDI"))), .cls (ch '-'),
       .grp 3 (.rep 1 (some 2) (rng 'A' 'Z')), .eos]) [] = none := by decide
  rw [f1] at e1; rw [f2] at e2; rw [f3] at e3
  simp only [Option.map_none, Option.map_some] at e1 e2 e3
  simp only [packPerm, packPermMinor, packPermComet, packPermFragment, packPermSat, e1, e2, e3, e4, e5,
    grp!, group, List.find?_cons, beq_self_eq_true, Option.map_some, bind, Except.bind, pure, Except.pure,
    pyNat_natStr]
  have hr : 0 < n ∧ n < 15396336 := by omega
  rw [if_pos hr]
  by_cases h : n < 620000
  · have el : n - n / 10000 * 10000 = n % 10000 := by omega
    rw [if_pos h, packLetter_ok (by omega), el, padded10000 (by omega)]
    simp [Spec.Perm.cols, h]
  · rw [if_neg h]
    have : (n : Int) - 620000 = ((n - 620000 : Nat) : Int) := by omega
    rw [this, radix62_4_nat]
    simp [Spec.Perm.cols, h]

theorem packPerm_minor_err {n : Nat} (h : n = 0 ∨ 15396335 < n) :
    packPerm (some (natStr n)) = raiseRT := by
  have e1 := mpPerm_num n [] (by simp)
  rw [List.append_nil] at e1
  have f1 : reMatch .eos [] = some [] := by decide
  rw [f1] at e1
  simp only [Option.map_some] at e1
  simp only [packPerm, packPermMinor, e1,
    grp!, group, List.find?_cons, beq_self_eq_true, Option.map_some, bind, Except.bind, pure, Except.pure,
    pyNat_natStr]
  rw [if_neg (by omega)]
  rfl

theorem packPerm_comet {n : Nat} {ty : Char} (ht : ty = 'P' ∨ ty = 'D') :
    packPerm (some (natStr n ++ [ty])) =
      if 1 ≤ n ∧ n ≤ 9999 then .ok (some ⟨Spec.fixed 4 n ++ [ty], .C, []⟩) else raiseRT := by
  have hd : ∀ c ∈ [ty].head?, isDec c = false := by rcases ht with rfl | rfl <;> decide
  have e1 := mpPerm_num n [ty] hd
  have e2 := cometPerm_num n [ty] hd
  have e3 := fragPerm_num n [ty] hd
  have e4 := satPerm_num n [ty]
  have e5 := astSatPerm_num n [ty]
  have f1 : reMatch .eos [ty] = none := by rcases ht with rfl | rfl <;> decide
  have f2 : reMatch (cat [.grp 2 (.cls (oneOf (c! "PDI"))), .eos]) [ty] = some [(2, [ty])] := by
    rcases ht with rfl | rfl <;> decide
  have f3 : reMatch (cat [.grp 2 (.cls (oneOf (c! "PDI"))), .cls (ch '-'),
       .grp 3 (.rep 1 (some 2) (rng 'A' 'Z')), .eos]) [ty] = none := by rcases ht with rfl | rfl <;> decide
  rw [f1] at e1; rw [f2] at e2; rw [f3] at e3
  simp only [Option.map_none, Option.map_some] at e1 e2 e3
  simp only [packPerm, packPermMinor, packPermComet, packPermFragment, packPermSat, e1, e2, e3, e4, e5,
    grp!, group, List.find?_cons, beq_self_eq_true, Option.map_some, bind, Except.bind, pure, Except.pure,
    pyNat_natStr]
  by_cases h : 1 ≤ n ∧ n ≤ 9999
  · rw [if_neg (by omega), if_neg (by omega), if_pos h, padded10000 (by omega)]
    simp
  · rw [if_neg h]
    by_cases h' : n > 9999
    · rw [if_pos h']; rfl
    · rw [if_neg h', if_pos (by omega)]; rfl

theorem packPerm_fragment {n : Nat} {ty : Char} {frag : Str} (ht : ty = 'P' ∨ ty = 'D')
    (hl : frag.length = 1 ∨ frag.length = 2) (hf : ∀ c ∈ frag, c ∈ Spec.upperCase) :
    packPerm (some (natStr n ++ [ty, '-'] ++ frag)) =
      if 1 ≤ n ∧ n ≤ 9999 then .ok (some ⟨Spec.fixed 4 n ++ [ty], .F, frag⟩) else raiseRT := by
  have hd : ∀ c ∈ ([ty, '-'] ++ frag).head?, isDec c = false := by rcases ht with rfl | rfl <;> simp <;> decide
  rw [List.append_assoc]
  have e1 := mpPerm_num n ([ty, '-'] ++ frag) hd
  have e2 := cometPerm_num n ([ty, '-'] ++ frag) hd
  have e3 := fragPerm_num n ([ty, '-'] ++ frag) hd
  have e4 := satPerm_num n ([ty, '-'] ++ frag)
  have e5 := astSatPerm_num n ([ty, '-'] ++ frag)
  have hfam : ∃ Fs, (Fs = [c! "PD", c! "-", Spec.upperCase] ∨ Fs = [c! "PD", c! "-", Spec.upperCase, Spec.upperCase]) ∧
      InFams ([ty, '-'] ++ frag) Fs := by
    match frag, hl, hf with
    | [a], _, hf => refine ⟨_, Or.inl rfl, ?_⟩; simp at hf; simp [InFams, ht, hf]
    | [a, b], _, hf => refine ⟨_, Or.inr rfl, ?_⟩; simp at hf; simp [InFams, ht, hf]
  have f1 : reMatch .eos ([ty, '-'] ++ frag) = none := by simp [reMatch, run]
  have f2 : reMatch (cat [.grp 2 (.cls (oneOf (c! "PDI"))), .eos]) ([ty, '-'] ++ frag) = none := by
    obtain ⟨Fs, rfl | rfl, h⟩ := hfam <;> exact reMatch_fams (o := none) h (by decide +kernel)
  have f3 : reMatch (cat [.grp 2 (.cls (oneOf (c! "PDI"))), .cls (ch '-'),
       .grp 3 (.rep 1 (some 2) (rng 'A' 'Z')), .eos]) ([ty, '-'] ++ frag) = some [(2, [ty]), (3, frag)] := by
    obtain ⟨Fs, rfl | rfl, h⟩ := hfam
    · have hlen : frag.length = 1 := by have := h.length; simp at this; omega
      rw [reMatch_fams (o := some [(2, 0, 1), (3, 2, 1)]) h (by decide +kernel)]
      simp [capsAt, List.take_of_length_le, hlen]
    · have hlen : frag.length = 2 := by have := h.length; simp at this; omega
      rw [reMatch_fams (o := some [(2, 0, 1), (3, 2, 2)]) h (by decide +kernel)]
      simp [capsAt, List.take_of_length_le, hlen]
  rw [f1] at e1; rw [f2] at e2; rw [f3] at e3
  simp only [Option.map_none, Option.map_some] at e1 e2 e3
  simp only [packPerm, packPermMinor, packPermComet, packPermFragment, packPermSat, e1, e2, e3, e4, e5,
    grp!, group, List.find?_cons, beq_self_eq_true, Option.map_some, bind, Except.bind, pure, Except.pure,
    pyNat_natStr]
  by_cases h : 1 ≤ n ∧ n ≤ 9999
  · rw [if_neg (by omega), if_neg (by omega), if_pos h, padded10000 (by omega)]
    simp
  · rw [if_neg h]
    by_cases h' : n > 9999
    · rw [if_pos h']; rfl
    · rw [if_neg h', if_pos (by omega)]; rfl

theorem satPerm_match (p : Spec.Planet) (n : Nat) :
    reMatch satellitePermIDRegex (p.name ++ [' '] ++ natStr n) = some [(1, p.name), (2, natStr n)] := by
  have h := run_grp_rep_seq' (lo := 1) (g := 2) (p := isDec) (b := .eos) (ds := natStr n) (t := [])
    (natStr_isDec n) (by simp) (fun c hc => all_mem (F := digits10) (by decide) (natStr_mem n c hc))
    (natStr_length_pos n)
  rw [List.append_nil] at h
  have h1 : ∀ x, run (.grp 1 (alts [lit (c! "Jupiter"), lit (c! "Saturn"), lit (c! "Uranus"), lit (c! "Neptune")]))
      (p.name ++ x) = [(p.name, x, [(1, p.name)])] := by
    intro x; cases p <;> rfl
  have h2 : run (.seq (.cls (ch ' ')) (.seq (.grp 2 (plus isDec)) .eos)) (' ' :: natStr n) =
      [(' ' :: natStr n, [], [(2, natStr n)])] := by
    have h0 : run (.cls (ch ' ')) (' ' :: natStr n) = [([' '], natStr n, [])] := rfl
    rw [run, h0, plus]
    simp only [List.flatMap_cons, List.flatMap_nil, List.append_nil, h]
    simp [run]
  have h3 : run satellitePermIDRegex (p.name ++ [' '] ++ natStr n) =
      [(p.name ++ (' ' :: natStr n), [], [(1, p.name), (2, natStr n)])] := by
    rw [List.append_assoc]
    simp only [satellitePermIDRegex, cat] at h1 ⊢
    rw [run, h1]
    simp only [List.flatMap_cons, List.flatMap_nil, List.append_nil, List.singleton_append, h2, List.map_cons, List.map_nil]
  rw [reMatch, h3]; rfl

theorem packPerm_satellite (p : Spec.Planet) (n : Nat) :
    packPerm (some (p.name ++ [' '] ++ natStr n)) =
      if 1 ≤ n ∧ n ≤ 999 then .ok (some ⟨p.letter :: (Spec.fixed 3 n ++ ['S']), .S, []⟩) else raiseRT := by
  have e4 := satPerm_match p n
  have hx : ∀ r : Re, (c! "JSUN").all r.rej = true → reMatch r (p.name ++ [' '] ++ natStr n) = none := by
    intro r hr
    cases p <;> simp only [Spec.Planet.name, List.cons_append] <;>
      exact reMatch_rej (all_mem hr (by decide))
  have e1 := hx minorplanetPermIDRegex (by decide)
  have e2 := hx cometPermIDRegex (by decide)
  have e3 := hx cometfragmentPermIDRegex (by decide)
  have e5 := hx asteroidsatellitePermIDRegex (by decide)
  have hc : charAt p.name 0 = .ok p.letter := by cases p <;> rfl
  simp only [packPerm, packPermMinor, packPermComet, packPermFragment, packPermSat, e1, e2, e3, e4, e5,
    grp!, group, List.find?_cons, beq_self_eq_true, Option.map_some, bind, Except.bind, pure, Except.pure,
    pyNat_natStr, Nat.reduceBEq, hc]
  by_cases h : 1 ≤ n ∧ n ≤ 999
  · rw [if_neg (by omega), if_neg (by omega), if_pos h, padded1000 (by omega)]
    simp
  · rw [if_neg h]
    by_cases h' : n > 999
    · rw [if_pos h']; rfl
    · rw [if_neg h', if_pos (by omega)]; rfl

/-- object type of a permanent designation, as the packer computes it -/
def permTy : Spec.Perm → IdType
  | .minor _ => .A
  | .comet .. => .C
  | .fragment .. => .F
  | .satellite .. => .S
def permFrag : Spec.Perm → Str
  | .fragment _ _ f => f
  | _ => []

theorem packPerm_valid {p : Spec.Perm} (h : p.Valid) :
    packPerm (some p.text) = .ok (some ⟨p.cols, permTy p, permFrag p⟩) := by
  cases p with
  | minor n => simpa [Spec.Perm.text, dec_eq, permTy, permFrag] using packPerm_minor_ok h.1 h.2
  | comet n ty =>
    obtain ⟨h1, h2, h3⟩ := h
    simp [Spec.Perm.text, dec_eq, permTy, permFrag, packPerm_comet h3, h1, h2, Spec.Perm.cols]
  | fragment n ty frag =>
    obtain ⟨h1, h2, h3, h4, h5⟩ := h
    have := packPerm_fragment (n := n) h3 h4 h5
    simp only [Spec.Perm.text, dec_eq, permTy, permFrag, Spec.Perm.cols]
    rw [this, if_pos ⟨h1, h2⟩]
  | satellite p n =>
    obtain ⟨h1, h2⟩ := h
    have := packPerm_satellite p n
    simp only [Spec.Perm.text, dec_eq, permTy, permFrag, Spec.Perm.cols]
    rw [this, if_pos ⟨h1, h2⟩]

end Verif
