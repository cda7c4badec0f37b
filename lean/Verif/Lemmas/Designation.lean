import Verif.Lemmas.UnpackComet
/-! `packTupleID` and `unpackPackedID` on every valid designation. -/
namespace Verif
open Verif.PackUtil Verif.Spec

/-- ADES triple (permID, provID, trkSub) of a designation -/
def ades (d : Designation) : IDs := ⟨d.permText, d.provText, d.trkText⟩

/-- trkSub as the reader reports it: the empty string (not `None`) for a bare minor-planet number -/
def trkRead : Designation → Option Str
  | .perm (.minor _) => some []
  | d => d.trkText

/-- the reader's answer for the columns is the designation -/
def Reads (cols : Str) (d : Designation) : Prop :=
  unpackPackedID cols = .ok ⟨d.permText, d.provText, trkRead d⟩

theorem perm_tail_eq {p : Perm} (h : p.Valid) (hf : permTy p = .F) :
    p.tail = c! "     " ++ ((if (permFrag p).length = 1 then ' ' :: permFrag p else permFrag p).map asciiLower) := by
  cases p with
  | fragment n ty frag =>
    obtain ⟨h1, h2, h3, h4, h5⟩ := h
    have hlow : ∀ c ∈ frag, asciiLower c = lower c := by
      intro c hc
      have : upperCase.all (fun f => asciiLower f == lower f) = true := by decide +kernel
      simpa using all_mem this (h5 c hc)
    have hs : asciiLower ' ' = ' ' := by decide
    match frag, h4 with
    | [a], _ => 
      simp only [Perm.tail, permFrag, List.map_cons, List.map_nil, List.length_cons, List.length_nil, Nat.zero_add, if_true, hs,
        hlow a (by simp)]
      rfl
    | [a, b], _ =>
      simp [Perm.tail, permFrag, List.leftpad, hlow a (by simp), hlow b (by simp), List.replicate]
  | minor n => simp [permTy] at hf
  | comet n ty => simp [permTy] at hf
  | satellite p n => simp [permTy] at hf

theorem perm_cols_length {p : Perm} (h : p.Valid) : p.cols.length = 5 := by
  cases p with
  | minor n =>
    obtain ⟨h1, h2⟩ := h
    simp only [Perm.cols]
    split
    · rw [fixed4 (by omega)]; rfl
    · rfl
  | comet n ty => obtain ⟨h1, h2, h3⟩ := h; simp [Perm.cols, fixed4 (show n < 10000 by omega)]
  | fragment n ty f => obtain ⟨h1, h2, h3⟩ := h; simp [Perm.cols, fixed4 (show n < 10000 by omega)]
  | satellite q n => obtain ⟨h1, h2⟩ := h; simp [Perm.cols, fixed3 (show n < 1000 by omega)]

theorem prov_cols_length {q : Prov} (h : q.Valid) : q.cols.length = 8 := by
  cases q with
  | minor y half order c =>
    simp only [Prov.cols]; split
    · simp [yearCols_eq, countCols]
    · rfl
  | survey n s => have h : n ≤ 9999 := h; simp [Prov.cols, fixed4 (show n < 10000 by omega)]
  | comet ty y half o c => simp [Prov.cols, yearCols_eq, countCols]
  | fragment ty y half c f => simp [Prov.cols, yearCols_eq, countCols]
  | satellite y p c => simp [Prov.cols, yearCols_eq, countCols]

theorem columns_length {d : Designation} (h : d.Valid) : d.columns.length = 12 := by
  cases d with
  | perm p =>
    have h' : p.Valid := h
    have ht : p.tail.length = 7 := by
      cases p with
      | fragment n ty frag =>
        obtain ⟨_, _, _, h4, _⟩ := h'
        simp only [Perm.tail, List.leftpad, List.length_append, List.length_replicate, List.length_map]; omega
      | _ => rfl
    simp [Designation.columns, perm_cols_length h', ht]
  | prov q => simp [Designation.columns, prov_cols_length h]
  | both p q =>
    simp [Designation.columns, perm_cols_length h.1, prov_cols_length h.2.1]
  | tracklet t =>
    obtain ⟨_, h2, _⟩ := h
    simp [Designation.columns]; omega

theorem compatible_ty {p : Perm} {q : Prov} (hp : p.Valid) (h : Compatible p q) :
    permTy p = provTy q ∧ (permTy p = .F → permFrag p = provFrag q) := by
  cases p <;> cases q <;> simp_all [Compatible, permTy, provTy, permFrag, provFrag]
  obtain ⟨_, _, h | h⟩ := hp <;> simp [← h.symm, h]

theorem trksub_match {t : Str} (hl : t.length ≤ 8) (h : ∀ c ∈ t, c ∈ trkChars) : reMatch trksubRegex t = some [(1, t)] := by
  obtain ⟨l, hl'⟩ := downTo_head (n := t.length)
  have hsp := spanLen_stop (p := trkCls) 8 t [] hl (fun c hc => trk_cls (h c hc)) (by simp)
  rw [List.append_nil] at hsp
  have e1 : ∃ l, run (.grp 1 (.rep 0 (some 8) trkCls)) t = (t, [], [(1, t)]) :: l := by
    simp only [run, hsp, hl']
    simp
  obtain ⟨l1, e1⟩ := e1
  have e3 : run .eos ([] : Str) = ([], [], []) :: [] := rfl
  obtain ⟨l4, e5⟩ := run_seq_head e1 e3
  simp only [trksubRegex, cat, reMatch, e5]
  rfl

/-- **C01–C07 (writer).** Every valid designation packs to its documented columns. -/
theorem pack_valid {d : Designation} (h : d.Valid) : packTupleID (ades d) = .ok d.columns := by
  cases d with
  | perm p =>
    have h' : p.Valid := h
    simp only [packTupleID, ades, Designation.permText, trkRead, Designation.provText, Designation.trkText, packPerm_valid h', packProv, packTrk,
      bind, Except.bind, pure, Except.pure, truthy, Designation.columns]
    by_cases hf : permTy p = .F
    · have hl := perm_cols_length h'
      simp only [hf, if_true, perm_tail_eq h' hf]
      match hc : p.cols, hl with
      | [a, b, c, d, e], _ => simp
    · have : p.tail = c! "       " := by
        cases p <;> simp [permTy] at hf ⊢ <;> rfl
      simp only [if_neg hf, this]; rfl
  | prov q =>
    have h' : q.Valid := h
    simp only [packTupleID, ades, Designation.permText, trkRead, Designation.provText, Designation.trkText, packPerm, packProv_valid h', packTrk,
      bind, Except.bind, pure, Except.pure, Designation.columns]
    rfl
  | both p q =>
    obtain ⟨h1, h2, h3⟩ := h
    obtain ⟨ht, hf⟩ := compatible_ty h1 h3
    simp only [packTupleID, ades, Designation.permText, trkRead, Designation.provText, Designation.trkText, packPerm_valid h1, packProv_valid h2, packTrk,
      bind, Except.bind, pure, Except.pure, Designation.columns]
    rw [if_neg (by simp [ht]), if_neg]
    rintro ⟨ha, hb⟩
    exact hb (hf ha)
  | tracklet t =>
    obtain ⟨h1, h2, h3, h4⟩ := h
    have hne : t.isEmpty = false := by cases t <;> simp_all
    simp only [packTupleID, ades, Designation.permText, trkRead, Designation.provText, Designation.trkText, packPerm, packProv, packTrk,
      trksub_match (show t.length ≤ 8 by omega) h3, group, List.find?_cons, beq_self_eq_true, Option.map_some, Option.getD_some,
      if_neg (show ¬ t.length > 7 by omega), truthy, hne, Bool.not_false, if_true,
      bind, Except.bind, pure, Except.pure, Designation.columns, ljust]
    simp [List.replicate]

/-- **C01–C07 (reader).** The documented columns of every valid designation read back as that designation. -/
theorem unpack_valid {d : Designation} (h : d.Valid) : Reads d.columns d := by
  simp only [Reads]
  cases d with
  | perm p =>
    cases p with
    | minor n =>
      have := unpack_minorlike (p := some n) (q := none) (by simp; exact h) trivial (by simp)
      simpa [pCols, tCols, Designation.columns, Perm.tail, Designation.permText, trkRead, Designation.trkText, Designation.provText, Perm.text, dec_eq,
        List.replicate] using this
    | comet n ty =>
      obtain ⟨h1, h2, h3⟩ := h
      have := unpack_comet (n := some n) (ty := ty) (q := .blank) (by simpa using ⟨h1, h2⟩) (by rcases h3 with h | h <;> simp [h])
        (fun _ => h3) trivial (by simp)
      simpa [c4, CTail.cols, CTail.permFrag, CTail.prov, Designation.columns, Perm.tail, Perm.cols, Designation.permText, trkRead, Designation.trkText,
        Designation.provText, Perm.text, dec_eq, List.replicate] using this
    | fragment n ty frag =>
      obtain ⟨h1, h2, h3, h4, h5⟩ := h
      have hup : ∀ c ∈ frag, asciiUpper (lower c) = c := by
        intro c hc
        have : upperCase.all (fun f => asciiUpper (lower f) == f) = true := by decide +kernel
        simpa using all_mem this (h5 c hc)
      match frag, h4 with
      | [a], _ =>
        have := unpack_comet (n := some n) (ty := ty) (q := .frag1 (lower a)) (by simpa using ⟨h1, h2⟩) (by rcases h3 with h | h <;> simp [h])
          (fun _ => h3) (lower_mem (h5 a (by simp))) (by simp)
        simpa [c4, CTail.cols, CTail.permFrag, CTail.prov, Designation.columns, Perm.tail, Perm.cols, Designation.permText, trkRead, Designation.trkText,
          Designation.provText, Perm.text, dec_eq, List.replicate, List.leftpad, hup a (by simp)] using this
      | [a, b], _ =>
        have := unpack_comet (n := some n) (ty := ty) (q := .frag2 (lower a) (lower b)) (by simpa using ⟨h1, h2⟩) (by rcases h3 with h | h <;> simp [h])
          (fun _ => h3) ⟨lower_mem (h5 a (by simp)), lower_mem (h5 b (by simp))⟩ (by simp)
        simpa [c4, CTail.cols, CTail.permFrag, CTail.prov, Designation.columns, Perm.tail, Perm.cols, Designation.permText, trkRead, Designation.trkText,
          Designation.provText, Perm.text, dec_eq, List.replicate, List.leftpad, hup a (by simp), hup b (by simp)] using this
    | satellite p n =>
      have := unpack_sat (r := some (p, n)) (q := none) (by simp; exact h) (by simp) (by simp)
      simpa [s4, s7, Designation.columns, Perm.tail, Perm.cols, Designation.permText, trkRead, Designation.trkText,
        Designation.provText, Perm.text, dec_eq, List.replicate] using this
  | prov q =>
    cases q with
    | minor y half order c =>
      have := unpack_minorlike (p := none) (q := some (.minor y half order c)) (by simp) h (by simp)
      have e : List.replicate 4 ' ' ++ (Prov.minor y half order c).cols = pCols none ++ tCols (some (.minor y half order c)) := by
        simp only [Prov.cols, tCols, pCols]; split <;> rfl
      simp only [Designation.columns, e, this]; rfl
    | survey n s =>
      have := unpack_minorlike (p := none) (q := some (.survey n s)) (by simp) h (by simp)
      have e : List.replicate 4 ' ' ++ (Prov.survey n s).cols = pCols none ++ tCols (some (.survey n s)) := rfl
      simp only [Designation.columns, e, this]; rfl
    | comet ty y half order c =>
      obtain ⟨h1, h2, h3, h4, h5, h6⟩ := h
      have hlast : LastOk (order.getD '0') := by
        cases order with
        | none => exact Or.inl rfl
        | some o => exact Or.inr (Or.inl (h5 o rfl))
      have := unpack_comet (n := none) (ty := ty) (q := .body y half c (order.getD '0')) (by simp) h1 (by simp) ⟨h3, h4, h6, hlast⟩
        (by simp [CTail.prov])
      have e : List.replicate 4 ' ' ++ (Prov.comet ty y half order c).cols = c4 none ++ [ty] ++ (CTail.body y half c (order.getD '0')).cols := by
        simp [Prov.cols, c4, CTail.cols, List.replicate]
      have z2 : '0' ∉ Spec.upperCase := by decide +kernel
      have z3 : '0' ∉ lowers := by decide +kernel
      simp only [Designation.columns, e, this, Designation.permText, trkRead, Designation.trkText, Designation.provText, CTail.prov, Option.map_none, Prov.text, dec_eq, count_eq]
      cases order with
      | none => simp [z2, z3]
      | some o =>
        have ho := h5 o rfl
        have : o ∉ lowers := fun h' => (lowers_not h').2 ho
        simp [ho, this]
    | fragment ty y half c f =>
      obtain ⟨h1, h2, h3, h4, h5, h6, h7⟩ := h
      have hlo := lower_mem h7
      have hup : asciiUpper (lower f) = f := by
        have : upperCase.all (fun f => asciiUpper (lower f) == f) = true := by decide +kernel
        simpa using all_mem this h7
      have := unpack_comet (n := none) (ty := ty) (q := .body y half c (lower f)) (by simp) (by simp at h1 ⊢; exact Or.inr h1)
        (by simp) ⟨h3, h4, h6, Or.inr (Or.inr hlo)⟩ (by simp [CTail.prov])
      have e : List.replicate 4 ' ' ++ (Prov.fragment ty y half c f).cols = c4 none ++ [ty] ++ (CTail.body y half c (lower f)).cols := by
        simp [Prov.cols, c4, CTail.cols, List.replicate]
      simp only [Designation.columns, e, this, Designation.permText, trkRead, Designation.trkText, Designation.provText, CTail.prov, Option.map_none, Prov.text, dec_eq, count_eq]
      simp [hlo, (lowers_not hlo).2, hup]
    | satellite y p c =>
      obtain ⟨h1, h2, h3, h4⟩ := h
      have := unpack_sat (r := none) (q := some (y, p, c)) (by simp) (by simpa using ⟨h2, h4⟩) (by simp)
      have e : List.replicate 4 ' ' ++ (Prov.satellite y p c).cols = s4 none ++ ['S'] ++ s7 (some (y, p, c)) := by
        simp [Prov.cols, s4, s7, List.replicate]
      simp only [Designation.columns, e, this, Designation.permText, trkRead, Designation.trkText, Designation.provText, Option.map_none, Option.map_some, Prov.text, dec_eq]
      simp [numOrBlank, show c ≠ 0 by omega]
  | both p q =>
    obtain ⟨h1, h2, h3⟩ := h
    cases p with
    | minor n =>
      have hq : ProvMinorLike (some q) := by
        cases q with
        | minor => exact h2
        | survey => exact h2
        | comet ty y half order c =>
          obtain ⟨a, b, c', d⟩ := h3
          obtain ⟨_, _, _, e, _, f⟩ := h2
          exact ⟨a, b, c', e, d, f⟩
        | fragment => exact h3
        | satellite => exact h3
      have := unpack_minorlike (p := some n) (q := some q) (by simp; exact h1) hq (by simp)
      simp only [Designation.columns]
      rw [show (Perm.minor n).cols ++ List.drop 1 q.cols = pCols (some n) ++ tCols (some q) from rfl, this]
      simp [Designation.permText, trkRead, Designation.trkText, Designation.provText, Perm.text, dec_eq]
    | comet n ty =>
      obtain ⟨g1, g2, g3⟩ := h1
      cases q with
      | comet ty' y half order c =>
        have : ty = ty' := h3
        subst this
        obtain ⟨h1, h2, h3, h4, h5, h6⟩ := h2
        have hlast : LastOk (order.getD '0') := by
          cases order with
          | none => exact Or.inl rfl
          | some o => exact Or.inr (Or.inl (h5 o rfl))
        have := unpack_comet (n := some n) (ty := ty) (q := .body y half c (order.getD '0')) (by simpa using ⟨g1, g2⟩) h1 (fun _ => g3)
          ⟨h3, h4, h6, hlast⟩ (by simp)
        have e : (Perm.comet n ty).cols ++ List.drop 1 (Prov.comet ty y half order c).cols =
            c4 (some n) ++ [ty] ++ (CTail.body y half c (order.getD '0')).cols := by
          simp [Prov.cols, Perm.cols, c4, CTail.cols]
        have z2 : '0' ∉ Spec.upperCase := by decide +kernel
        have z3 : '0' ∉ lowers := by decide +kernel
        simp only [Designation.columns, e, this, Designation.permText, trkRead, Designation.trkText, Designation.provText, CTail.prov, CTail.permFrag, Option.map_some,
          Prov.text, Perm.text, dec_eq, count_eq]
        cases order with
        | none => simp [z2, z3]
        | some o =>
          have ho := h5 o rfl
          have : o ∉ lowers := fun h' => (lowers_not h').2 ho
          simp [ho, this]
      | minor => exact h3.elim
      | survey => exact h3.elim
      | fragment => exact h3.elim
      | satellite => exact h3.elim
    | fragment n ty frag =>
      obtain ⟨g1, g2, g3, g4, g5⟩ := h1
      cases q with
      | fragment ty' y half c f =>
        obtain ⟨k1, k2⟩ := h3
        subst k1 k2
        obtain ⟨h1, h2, h3, h4, h5, h6, h7⟩ := h2
        have hlo := lower_mem h7
        have hup : asciiUpper (lower f) = f := by
          have : upperCase.all (fun f => asciiUpper (lower f) == f) = true := by decide +kernel
          simpa using all_mem this h7
        have := unpack_comet (n := some n) (ty := ty) (q := .body y half c (lower f)) (by simpa using ⟨g1, g2⟩) (by simp at h1 ⊢; exact Or.inr h1)
          (fun _ => g3) ⟨h3, h4, h6, Or.inr (Or.inr hlo)⟩ (by simp [CTail.prov])
        have e : (Perm.fragment n ty [f]).cols ++ List.drop 1 (Prov.fragment ty y half c f).cols =
            c4 (some n) ++ [ty] ++ (CTail.body y half c (lower f)).cols := by
          simp [Prov.cols, Perm.cols, c4, CTail.cols]
        simp only [Designation.columns, e, this, Designation.permText, trkRead, Designation.trkText, Designation.provText, CTail.prov, CTail.permFrag, Option.map_some,
          Prov.text, Perm.text, dec_eq, count_eq]
        simp [hlo, (lowers_not hlo).2, hup]
      | minor => exact h3.elim
      | survey => exact h3.elim
      | comet => exact h3.elim
      | satellite => exact h3.elim
    | satellite p n =>
      cases q with
      | satellite y p' c =>
        obtain ⟨g1, g2⟩ := h1
        obtain ⟨h1, h2, h3, h4⟩ := h2
        have := unpack_sat (r := some (p, n)) (q := some (y, p', c)) (by simpa using ⟨g1, g2⟩) (by simpa using ⟨h2, h4⟩) (by simp)
        have e : (Perm.satellite p n).cols ++ List.drop 1 (Prov.satellite y p' c).cols = s4 (some (p, n)) ++ ['S'] ++ s7 (some (y, p', c)) := by
          simp [Prov.cols, Perm.cols, s4, s7]
        simp only [Designation.columns, e, this, Designation.permText, trkRead, Designation.trkText, Designation.provText, Option.map_some, Prov.text, Perm.text, dec_eq]
        simp [numOrBlank, show c ≠ 0 by omega]
      | minor => exact h3.elim
      | survey => exact h3.elim
      | comet => exact h3.elim
      | fragment => exact h3.elim
  | tracklet t =>
    obtain ⟨h1, h2, h3, h4⟩ := h
    exact unpack_trk h1 h2 h3 h4


/-! #### the texts determine the designation -/

theorem natStr_inj {m n : Nat} (h : natStr m = natStr n) : m = n := by
  have h1 := pyNat_natStr m
  rw [h, pyNat_natStr n] at h1
  injection h1 with h1; exact h1.symm

theorem numOrBlank_inj {m n : Nat} (h : numOrBlank m = numOrBlank n) : m = n := by
  have h1 := pyNat_zero_num m
  rw [h, pyNat_zero_num n] at h1
  injection h1 with h1; exact h1.symm

theorem takeWhile_num {ds t : Str} (hd : ∀ c ∈ ds, isDec c = true) (ht : ∀ c ∈ t.head?, isDec c = false) :
    (ds ++ t).takeWhile isDec = ds ∧ (ds ++ t).dropWhile isDec = t := by
  induction ds with
  | nil =>
    cases t with
    | nil => simp
    | cons c t => simp [ht c rfl]
  | cons c ds ih =>
    have := ih (fun c hc => hd c (by simp [hc]))
    simp [hd c (by simp), this]

theorem num_append_inj {a b s t : Str} (ha : ∀ c ∈ a, isDec c = true) (hb : ∀ c ∈ b, isDec c = true)
    (hs : ∀ c ∈ s.head?, isDec c = false) (ht : ∀ c ∈ t.head?, isDec c = false) (h : a ++ s = b ++ t) : a = b ∧ s = t := by
  have h1 := takeWhile_num ha hs
  have h2 := takeWhile_num hb ht
  rw [h] at h1
  exact ⟨h1.1.symm.trans h2.1, h1.2.symm.trans h2.2⟩

def permHead : Perm → Nat
  | .minor n => n
  | .comet n _ => n
  | .fragment n _ _ => n
  | .satellite _ n => n
def permRest : Perm → Str
  | .minor _ => []
  | .comet _ ty => [ty]
  | .fragment _ ty f => [ty, '-'] ++ f
  | .satellite .. => []

theorem perm_text_inj {p p' : Perm} (h : p.Valid) (h' : p'.Valid) (e : p.text = p'.text) : p = p' := by
  have hrest : ∀ p : Perm, p.Valid → ∀ c ∈ (permRest p).head?, isDec c = false := by
    intro p h
    cases p with
    | minor => simp [permRest]
    | comet n ty => rcases h.2.2 with h | h <;> simp [permRest, h] <;> decide
    | fragment n ty f => rcases h.2.2.1 with h | h <;> simp [permRest, h] <;> decide
    | satellite => simp [permRest]
  have htext : ∀ p : Perm, (∃ q n, p = .satellite q n) ∨ p.text = natStr (permHead p) ++ permRest p := by
    intro p
    cases p with
    | satellite q n => exact Or.inl ⟨q, n, rfl⟩
    | _ => right; simp [Perm.text, dec_eq, permHead, permRest]
  have hsat : ∀ q n, ∃ s, (Perm.satellite q n).text = q.letter :: s ∧ isDec q.letter = false := by
    intro q n
    refine ⟨q.name.drop 1 ++ [' '] ++ dec n, ?_, ?_⟩ <;> cases q <;> first | rfl | decide
  have hnum : ∀ p : Perm, (¬ ∃ q n, p = .satellite q n) → ∃ c s, p.text = c :: s ∧ isDec c = true := by
    intro p hn
    obtain ⟨c, s, hc, hm⟩ := natStr_cons (permHead p)
    refine ⟨c, s ++ permRest p, ?_, isDec_of_mem hm⟩
    rw [(htext p).resolve_left hn, hc]; rfl
  by_cases hs : ∃ q n, p = .satellite q n
  · obtain ⟨q, n, rfl⟩ := hs
    by_cases hs' : ∃ q n, p' = .satellite q n
    · obtain ⟨q', n', rfl⟩ := hs'
      have hq : q = q' := by
        obtain ⟨s, hs, _⟩ := hsat q n
        obtain ⟨s', hs', _⟩ := hsat q' n'
        rw [hs, hs'] at e
        injection e with e1 e2
        cases q <;> cases q' <;> first | rfl | (exfalso; revert e1; decide)
      subst hq
      simp only [Perm.text, dec_eq, List.append_assoc, List.append_cancel_left_eq] at e
      rw [natStr_inj e]
    · obtain ⟨s, hs, hd⟩ := hsat q n
      obtain ⟨c, s', hs', hd'⟩ := hnum p' hs'
      rw [hs, hs'] at e
      injection e with e1 e2
      rw [e1, hd'] at hd; exact absurd hd (by simp)
  · by_cases hs' : ∃ q n, p' = .satellite q n
    · obtain ⟨q, n, rfl⟩ := hs'
      obtain ⟨s, hs2, hd⟩ := hsat q n
      obtain ⟨c, s', hs3, hd'⟩ := hnum p hs
      rw [hs2, hs3] at e
      injection e with e1 e2
      rw [← e1, hd'] at hd; exact absurd hd (by simp)
    · rw [(htext p).resolve_left hs, (htext p').resolve_left hs'] at e
      obtain ⟨e1, e2⟩ := num_append_inj (natStr_isDec _) (natStr_isDec _) (hrest p h) (hrest p' h') e
      have e1 := natStr_inj e1
      cases p <;> cases p' <;> simp_all [permHead, permRest]

theorem fixed4_inj {m n : Nat} (hm : m ≤ 9999) (hn : n ≤ 9999) (h : fixed 4 m = fixed 4 n) : m = n := by
  have f : ∀ {m}, m ≤ 9999 → pyNat (fixed 4 m) = .ok m := by
    intro m hm
    rw [fixed4 (by omega), pyNat4 (by omega) (by omega) (by omega) (by omega)]; congr 1; omega
  have h1 := f hm
  rw [h, f hn] at h1
  injection h1 with h1; exact h1.symm

theorem year_len {y : Nat} (h1 : 1000 ≤ y) (h2 : y ≤ 9999) : (natStr y).length = 4 := by rw [year4 h1 h2]; rfl

theorem dash_not_upper : '-' ∉ upperCase := by decide +kernel
theorem dash_not_digit : '-' ∉ digits10 := by decide +kernel

theorem prov_text_inj {q q' : Prov} (h : q.Valid) (h' : q'.Valid) (e : q.text = q'.text) : q = q' := by
  have key : ∀ {a b : Str} {y y' : Nat}, 1000 ≤ y → y ≤ 9999 → 1000 ≤ y' → y' ≤ 9999 → natStr y ++ a = natStr y' ++ b → y = y' ∧ a = b := by
    intro a b y y' h1 h2 h3 h4 e
    obtain ⟨e1, e2⟩ := List.append_inj e (by rw [year_len h1 h2, year_len h3 h4])
    exact ⟨natStr_inj e1, e2⟩
  have tyne : ∀ {ty : Char} {a b : Str} {y : Nat}, ty ∈ (c! "ACDPXS") → ty :: a = natStr y ++ b → False := by
    intro ty a b y ht e
    obtain ⟨c, s, hc, hm⟩ := natStr_cons y
    rw [hc, List.cons_append] at e
    injection e with e1 _
    subst e1
    have : (c! "ACDPXS").all (fun c => !digits10.contains c) = true := by decide +kernel
    have := all_mem this ht
    simp [hm] at this
  have fixne : ∀ {ty : Char} {a b : Str} {n : Nat}, ty ∈ (c! "ACDPXS") → n ≤ 9999 → ty :: a = fixed 4 n ++ b → False := by
    intro ty a b n ht hn e
    obtain ⟨c1, c2, c3, c4, hc, hm, _⟩ := fixed4_fams (show n < 10000 by omega)
    rw [hc, List.cons_append] at e
    injection e with e1 _
    subst e1
    have : (c! "ACDPXS").all (fun c => !digits10.contains c) = true := by decide +kernel
    have := all_mem this ht
    simp [hm] at this
  have sub5 : ∀ {ty : Char}, ty ∈ (c! "ACDPX") → ty ∈ (c! "ACDPXS") ∧ ty ≠ 'S' := by
    intro ty ht
    have : (c! "ACDPX").all (fun c => decide (c ∈ (c! "ACDPXS") ∧ c ≠ 'S')) = true := by decide +kernel
    exact of_decide_eq_true (all_mem this ht)
  have sub4 : ∀ {ty : Char}, ty ∈ (c! "CDPX") → ty ∈ (c! "ACDPXS") ∧ ty ≠ 'S' := by
    intro ty ht
    have : (c! "CDPX").all (fun c => decide (c ∈ (c! "ACDPXS") ∧ c ≠ 'S')) = true := by decide +kernel
    exact of_decide_eq_true (all_mem this ht)
  have odash : ∀ {o : Char}, o ∈ orders → o ≠ '-' := by
    intro o ho
    have : orders.all (fun c => decide (c ≠ '-')) = true := by decide +kernel
    exact of_decide_eq_true (all_mem this ho)
  have cne : ∀ {o : Option Char} {c n : Nat} {f : Char}, (∀ x ∈ o, x ∈ upperCase) → o.toList ++ numOrBlank c = numOrBlank n ++ ['-', f] → False := by
    intro o c n f ho e
    have hm : '-' ∈ o.toList ++ numOrBlank c := by rw [e]; simp
    rw [List.mem_append] at hm
    rcases hm with hm | hm
    · rw [Option.mem_toList] at hm; exact dash_not_upper (ho _ hm)
    · exact dash_not_digit (numOrBlank_mem c _ hm)
  have cinj : ∀ {o o' : Option Char} {c n : Nat}, (∀ x ∈ o, x ∈ upperCase) → (∀ x ∈ o', x ∈ upperCase) →
      o.toList ++ numOrBlank c = o'.toList ++ numOrBlank n → o = o' ∧ c = n := by
    intro o o' c n ho ho' e
    have nu : ∀ {x : Char} {s : Str} {c : Nat}, x ∈ upperCase → numOrBlank c = x :: s → False := by
      intro x s c hx e
      have hm := numOrBlank_mem c x (by rw [e]; simp)
      have := upper_notDec hx
      rw [isDec_of_mem hm] at this; exact absurd this (by simp)
    cases o with
    | none =>
      cases o' with
      | none => exact ⟨rfl, numOrBlank_inj (by simpa using e)⟩
      | some x => exact (nu (ho' x rfl) (by simpa using e)).elim
    | some x =>
      cases o' with
      | none => exact (nu (ho x rfl) (by simpa using e.symm)).elim
      | some z =>
        simp only [Option.toList_some, List.singleton_append, List.cons.injEq] at e
        exact ⟨by rw [e.1], numOrBlank_inj e.2⟩
  cases q with
  | minor y hf o c =>
    obtain ⟨h1, h2, h3, h4, h5⟩ := h
    cases q' with
    | minor y' hf' o' c' =>
      obtain ⟨g1, g2, g3, g4, g5⟩ := h'
      simp only [Prov.text, dec_eq, count_eq, List.append_assoc] at e
      replace e := key (by omega) (by omega) (by omega) (by omega) e
      obtain ⟨hy, e⟩ := e
      subst hy
      simp only [List.cons_append, List.nil_append, List.cons.injEq, true_and] at e
      obtain ⟨rfl, rfl, e⟩ := e
      rw [numOrBlank_inj e]
    | survey n s =>
      have g : n ≤ 9999 := h'
      simp only [Prov.text, dec_eq, count_eq, List.append_assoc] at e
      obtain ⟨_, e⟩ := List.append_inj e (by rw [year_len (by omega) (by omega), fixed4 (by omega)]; rfl)
      simp only [List.cons_append, List.nil_append, List.cons.injEq, true_and] at e
      exact absurd e.2.1 (odash h4)
    | comet ty y' hf' o' c' =>
      simp only [Prov.text, dec_eq, List.append_assoc, List.cons_append, List.nil_append] at e
      exact (tyne (sub5 h'.1).1 e.symm).elim
    | fragment ty y' hf' c' f =>
      simp only [Prov.text, dec_eq, List.append_assoc, List.cons_append, List.nil_append] at e
      exact (tyne (sub4 h'.1).1 e.symm).elim
    | satellite y' p c' =>
      simp only [Prov.text, dec_eq, List.append_assoc, List.cons_append, List.nil_append] at e
      exact (tyne (ty := 'S') (by simp) e.symm).elim
  | survey n s =>
    have h1 : n ≤ 9999 := h
    cases q' with
    | minor y' hf' o' c' =>
      obtain ⟨g1, g2, g3, g4, g5⟩ := h'
      simp only [Prov.text, dec_eq, count_eq, List.append_assoc] at e
      obtain ⟨_, e⟩ := List.append_inj e (by rw [year_len (by omega) (by omega), fixed4 (by omega)]; rfl)
      simp only [List.cons_append, List.nil_append, List.cons.injEq, true_and] at e
      exact absurd e.2.1.symm (odash g4)
    | survey n' s' =>
      have g : n' ≤ 9999 := h'
      simp only [Prov.text] at e
      obtain ⟨e1, e⟩ := List.append_inj e (by rw [fixed4 (by omega), fixed4 (by omega)]; rfl)
      rw [fixed4_inj h1 g e1]
      cases s <;> cases s' <;> first | rfl | (exfalso; revert e; decide)
    | comet ty y' hf' o' c' =>
      simp only [Prov.text, dec_eq, List.append_assoc, List.cons_append, List.nil_append] at e
      exact (fixne (sub5 h'.1).1 h1 e.symm).elim
    | fragment ty y' hf' c' f =>
      simp only [Prov.text, dec_eq, List.append_assoc, List.cons_append, List.nil_append] at e
      exact (fixne (sub4 h'.1).1 h1 e.symm).elim
    | satellite y' p c' =>
      simp only [Prov.text, dec_eq, List.append_assoc, List.cons_append, List.nil_append] at e
      exact (fixne (ty := 'S') (by simp) h1 e.symm).elim
  | comet ty y hf o c =>
    obtain ⟨h1, h2, h3, h4, h5, h6⟩ := h
    cases q' with
    | minor y' hf' o' c' =>
      simp only [Prov.text, dec_eq, List.append_assoc, List.cons_append, List.nil_append] at e
      exact (tyne (sub5 h1).1 e).elim
    | survey n s =>
      simp only [Prov.text, dec_eq, List.append_assoc, List.cons_append, List.nil_append] at e
      exact (fixne (sub5 h1).1 h' e).elim
    | comet ty' y' hf' o' c' =>
      obtain ⟨g1, g2, g3, g4, g5, g6⟩ := h'
      simp only [Prov.text, dec_eq, count_eq, List.append_assoc, List.cons_append, List.nil_append, List.cons.injEq, true_and] at e
      obtain ⟨rfl, e⟩ := e
      replace e := key h2 (by omega) g2 (by omega) e
      obtain ⟨hy, e⟩ := e
      subst hy
      simp only [List.cons.injEq, true_and] at e
      obtain ⟨rfl, e⟩ := e
      obtain ⟨rfl, rfl⟩ := cinj h5 g5 e
      rfl
    | fragment ty' y' hf' c' f =>
      obtain ⟨g1, g2, g3, g4, g5, g6, g7⟩ := h'
      simp only [Prov.text, dec_eq, count_eq, List.append_assoc, List.cons_append, List.nil_append, List.cons.injEq, true_and] at e
      obtain ⟨rfl, e⟩ := e
      replace e := key h2 (by omega) g2 (by omega) e
      obtain ⟨hy, e⟩ := e
      subst hy
      simp only [List.cons.injEq, true_and] at e
      exact (cne h5 e.2).elim
    | satellite y' p c' =>
      simp only [Prov.text, dec_eq, count_eq, List.append_assoc, List.cons_append, List.nil_append, List.cons.injEq, true_and] at e
      exact absurd e.1 (sub5 h1).2
  | fragment ty y hf c f =>
    obtain ⟨h1, h2, h3, h4, h5, h6, h7⟩ := h
    cases q' with
    | minor y' hf' o' c' =>
      simp only [Prov.text, dec_eq, List.append_assoc, List.cons_append, List.nil_append] at e
      exact (tyne (sub4 h1).1 e).elim
    | survey n s =>
      simp only [Prov.text, dec_eq, List.append_assoc, List.cons_append, List.nil_append] at e
      exact (fixne (sub4 h1).1 h' e).elim
    | comet ty' y' hf' o' c' =>
      obtain ⟨g1, g2, g3, g4, g5, g6⟩ := h'
      simp only [Prov.text, dec_eq, count_eq, List.append_assoc, List.cons_append, List.nil_append, List.cons.injEq, true_and] at e
      obtain ⟨rfl, e⟩ := e
      replace e := key h2 (by omega) g2 (by omega) e
      obtain ⟨hy, e⟩ := e
      subst hy
      simp only [List.cons.injEq, true_and] at e
      exact (cne g5 e.2.symm).elim
    | fragment ty' y' hf' c' f' =>
      obtain ⟨g1, g2, g3, g4, g5, g6, g7⟩ := h'
      simp only [Prov.text, dec_eq, count_eq, List.append_assoc, List.cons_append, List.nil_append, List.cons.injEq, true_and] at e
      obtain ⟨rfl, e⟩ := e
      replace e := key h2 (by omega) g2 (by omega) e
      obtain ⟨hy, e⟩ := e
      subst hy
      simp only [List.cons.injEq, true_and] at e
      obtain ⟨rfl, e⟩ := e
      obtain ⟨e1, e2⟩ := List.append_inj' e rfl
      simp at e2
      rw [numOrBlank_inj e1, e2]
    | satellite y' p c' =>
      simp only [Prov.text, dec_eq, count_eq, List.append_assoc, List.cons_append, List.nil_append, List.cons.injEq, true_and] at e
      exact absurd e.1 (sub4 h1).2
  | satellite y p c =>
    obtain ⟨h1, h2, h3, h4⟩ := h
    cases q' with
    | minor y' hf' o' c' =>
      simp only [Prov.text, dec_eq, List.append_assoc, List.cons_append, List.nil_append] at e
      exact (tyne (ty := 'S') (by simp) e).elim
    | survey n s =>
      simp only [Prov.text, dec_eq, List.append_assoc, List.cons_append, List.nil_append] at e
      exact (fixne (ty := 'S') (by simp) h' e).elim
    | comet ty' y' hf' o' c' =>
      simp only [Prov.text, dec_eq, count_eq, List.append_assoc, List.cons_append, List.nil_append, List.cons.injEq, true_and] at e
      exact absurd e.1.symm (sub5 h'.1).2
    | fragment ty' y' hf' c' f' =>
      simp only [Prov.text, dec_eq, count_eq, List.append_assoc, List.cons_append, List.nil_append, List.cons.injEq, true_and] at e
      exact absurd e.1.symm (sub4 h'.1).2
    | satellite y' p' c' =>
      obtain ⟨g1, g2, g3, g4⟩ := h'
      simp only [Prov.text, dec_eq, List.append_assoc, List.cons_append, List.nil_append, List.cons.injEq, true_and] at e
      replace e := key h1 (by omega) g1 (by omega) e
      obtain ⟨hy, e⟩ := e
      subst hy
      simp only [List.cons.injEq, true_and] at e
      rw [natStr_inj e.2]
      have hp : p = p' := by
        have := e.1
        cases p <;> cases p' <;> first | rfl | (exfalso; revert this; decide)
      rw [hp]

theorem designation_inj {d d' : Designation} (h : d.Valid) (h' : d'.Valid) (e1 : d.permText = d'.permText)
    (e2 : d.provText = d'.provText) (e3 : d.trkText = d'.trkText) : d = d' := by
  cases d <;> cases d' <;> simp [Designation.permText, Designation.provText, Designation.trkText] at e1 e2 e3
  · rw [perm_text_inj h h' e1]
  · rw [prov_text_inj h h' e2]
  · rw [perm_text_inj h.1 h'.1 e1, prov_text_inj h.2.1 h'.2.1 e2]
  · rw [e3]

end Verif
