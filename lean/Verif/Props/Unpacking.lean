import Verif.Lemmas.UnpackingFixed
import Verif.Props.Total
/-!
  C54: what `unpackPackedID` makes of every text.

  `Spec.Unpacking` says what columns stand for (`Unpacks`).
-/
set_option linter.unusedSimpArgs false
namespace Verif
open Verif.PackUtil Verif.Spec Verif.Spec.Packing Verif.Spec.Unpacking Verif.Packing Verif.Unpacking

namespace Unpacking

theorem none_of {r : Re} {P : Str → Caps → Prop} (h : ∀ {s m}, reMatch r s = some m ↔ P s m) {s : Str} (hn : ∀ m, ¬ P s m) : reMatch r s = none := by
  rw [Option.eq_none_iff_forall_ne_some]
  exact fun m hm => hn m (h.1 hm)

theorem comet_none {s : Str} (h : ∀ m, ¬ ReadC s m) (ids : IDs) : unpackComet s ids = .ok ids := by simp only [unpackComet, none_of comet_match h]
theorem sat_none {s : Str} (h : ∀ m, ¬ ReadS s m) (ids : IDs) : unpackSat s ids = .ok ids := by simp only [unpackSat, none_of sat_match h]

theorem truthy_dec (n : Nat) : truthy (some (dec n)) = true := by rw [dec_eq]; exact truthy_natStr n

theorem truthy_append {a b : Str} (h : b ≠ []) : truthy (some (a ++ b)) = true := by
  cases a with
  | nil => cases b with
    | nil => exact absurd rfl h
    | cons => rfl
  | cons => rfl

theorem finish_ok {p q t : Option Str} (h : truthy p = true ∨ truthy q = true ∨ truthy t = true) :
    (if !truthy p && !truthy q && !truthy t then raiseRT else .ok ⟨p, q, t⟩ : Py IDs) = .ok ⟨p, q, t⟩ := by
  rcases h with h | h | h <;> simp [h]

theorem minor7_truthy {r q : Str} (h : Minor7 r q) : truthy (some q) = true := by
  cases h with
  | normal => rw [List.append_assoc]; exact truthy_append (by simp)
  | old => rfl
  | survey => exact truthy_append (by simp)
  | extended => rw [List.append_assoc]; exact truthy_append (by simp)

theorem minor_run {a r e : Str} {k1 k2 : Caps} (h1 : H5 a k1) (h2 : T124 r k2) (he : End e) :
    ∃ n q, Number5 a n ∧ Minor7 r q ∧ unpackPackedID (a ++ r ++ e) = if n = some 0 then raiseRT else .ok ⟨n.map dec, some q, none⟩ := by
  obtain ⟨n, hn, ep⟩ := h1.number
  obtain ⟨q, hq, eq⟩ := T124.text h2
  refine ⟨n, q, hn, hq, ?_⟩
  have hr : Read T124 (a ++ r ++ e) (k1 ++ k2) := ⟨a, k1, r, k2, e, h1, h2, he, rfl, rfl⟩
  have hm := minor_match.2 (.inl hr)
  have ep' : permPart (k1 ++ k2) = permPart k1 := permPart_congr fun i hi => caps_left (T124.groups h2 (.inl hi))
  have eq' : provPart (k1 ++ k2) = provPart k2 := provPart_congr fun i hi _ => caps_right (h1.groups hi)
  have g12 : group (k1 ++ k2) 12 = none := by rw [caps_right (h1.groups (by omega)), T124.groups h2 (.inr rfl)]
  have hc := comet_none (s := a ++ r ++ e) fun m hm => not_minor_comet hr hm
  have hs := sat_none (s := a ++ r ++ e) fun m hm => not_minor_sat hr hm
  unfold unpackPackedID
  rw [unpackMinor_some hm, ep', eq', eq, ep, g12]
  by_cases hz : n = some 0
  · rw [if_pos hz, if_pos hz]; rfl
  · rw [if_neg hz, if_neg hz]
    simp only [bind, Except.bind, hc, hs, pure, Except.pure]
    have t3 : truthy none = false := rfl
    simp [minor7_truthy hq, t3]

theorem name_run {a r e : Str} {k1 k2 : Caps} (h1 : H5 a k1) (h2 : T3 r k2) (h3 : ∀ k, ¬ T124 r k) (he : End e) {t : Str} {j : Nat} (hr : r = t ++ spaces j) (ht : ∀ c ∈ t, c ∈ trkChars) (hk : k2 = [(12, t)]) :
    ∃ n, Number5 a n ∧ unpackPackedID (a ++ r ++ e) = if n = some 0 ∨ (n = none ∧ t = []) then raiseRT else .ok ⟨n.map dec, none, some t⟩ := by
  obtain ⟨n, hn, ep⟩ := h1.number
  refine ⟨n, hn, ?_⟩
  have hr : Read (fun r k => T3 r k ∧ ∀ k', ¬ T124 r k') (a ++ r ++ e) (k1 ++ k2) := ⟨a, k1, r, k2, e, h1, ⟨h2, h3⟩, he, rfl, rfl⟩
  have hm := minor_match.2 (.inr hr)
  have ep' : permPart (k1 ++ k2) = permPart k1 := permPart_congr fun i hi => caps_left (h2.groups (by omega))
  have eq' : provPart (k1 ++ k2) = .ok none := by
    rw [provPart_congr (m' := []) fun i hi h12 => by rw [caps_right (h1.groups hi), h2.groups h12]; rfl]
    rfl
  have g12 : group (k1 ++ k2) 12 = some t := by rw [caps_right (h1.groups (by omega)), hk]; rfl
  have hc := comet_none (s := a ++ r ++ e) fun m hm => not_minor_comet hr hm
  have hs := sat_none (s := a ++ r ++ e) fun m hm => not_minor_sat hr hm
  unfold unpackPackedID
  rw [unpackMinor_some hm, ep', eq', ep, g12, Option.map_some, strip_trk ht]
  by_cases hz : n = some 0
  · rw [if_pos hz, if_pos (.inl hz)]; rfl
  · rw [if_neg hz]
    simp only [bind, Except.bind, hc, hs, pure, Except.pure, ite_self]
    cases n with
    | none =>
      cases t with
      | nil => rfl
      | cons c t => rfl
    | some n =>
      have hR : (if some n = some 0 ∨ (some n = none ∧ t = []) then raiseRT else .ok ⟨Option.map dec (some n), none, some t⟩ : Py IDs) = .ok ⟨Option.map dec (some n), none, some t⟩ :=
        if_neg (by simpa using hz)
      rw [hR]
      exact finish_ok (.inl (truthy_dec n))

theorem comet_run' {a r e : Str} {k1 k2 : Caps} {ty : Char} (h1 : C4 a k1) (hty : ty ∈ c! "APCDXI") (h2 : C7 r k2) (he : End e) :
    ∃ n q f, Number4 a n ∧ Comet7 ty r q f ∧ unpackPackedID (a ++ [ty] ++ r ++ e) =
      if n = some 0 ∨ (n ≠ none ∧ ty ≠ 'P' ∧ ty ≠ 'D') ∨ (n = none ∧ q = none) then raiseRT else .ok ⟨n.map fun n => dec n ++ [ty] ++ f, q, none⟩ := by
  have hr : ReadC (a ++ [ty] ++ r ++ e) (k1 ++ [(2, [ty])] ++ k2) := ⟨a, k1, ty, r, k2, e, h1, hty, h2, he, rfl, rfl⟩
  obtain ⟨n, q, f, hn, hq, er⟩ := comet_run h1 h2 (comet_match.2 hr)
  refine ⟨n, q, f, hn, hq, ?_⟩
  have hm : reMatch minorplanetPackedIDRegex (a ++ [ty] ++ r ++ e) = none := none_of minor_match fun m hm => by
    rcases hm with hm | hm <;> exact not_minor_comet hm hr
  have hs := sat_none (s := a ++ [ty] ++ r ++ e) fun m hm => not_comet_sat hr hm
  unfold unpackPackedID
  rw [unpackMinor_none hm]
  show (bind (unpackComet _ _) _) = _
  rw [er]
  by_cases c1 : n = some 0 ∨ (n ≠ none ∧ ty ≠ 'P' ∧ ty ≠ 'D')
  · rw [if_pos c1, if_pos (by tauto)]; rfl
  · rw [if_neg c1]
    simp only [bind, Except.bind, hs, pure, Except.pure]
    have tq : ∀ x, q = some x → truthy (some x) = true := by
      rintro x rfl
      cases hq <;> rfl
    have key : ∀ P : Prop, ∀ [Decidable P], ¬ P → (truthy (n.map fun n => dec n ++ [ty] ++ f) = true ∨ truthy q = true) →
        (if !truthy (n.map fun n => dec n ++ [ty] ++ f) && !truthy q && !truthy none then raiseRT else .ok ⟨n.map fun n => dec n ++ [ty] ++ f, q, none⟩ : Py IDs) =
          if P then raiseRT else .ok ⟨n.map fun n => dec n ++ [ty] ++ f, q, none⟩ := by
      intro P _ hP ht
      rw [if_neg hP]
      exact finish_ok (by tauto)
    cases n with
    | none =>
      cases q with
      | none => simp [truthy]
      | some q => exact key _ (by simp) (.inr (tq q rfl))
    | some n => exact key _ (by simpa using c1) (.inl (by rw [Option.map_some, List.append_assoc]; exact truthy_append (by simp)))

theorem sat_run' {a r e : Str} {k1 k2 : Caps} (h1 : S4 a k1) (h2 : S7 r k2) (he : End e) :
    ∃ n q, Sat4 a n ∧ Sat7 r q ∧ unpackPackedID (a ++ ['S'] ++ r ++ e) =
      if (∃ x ∈ n, x.2 = 0) ∨ (n = none ∧ q = none) then raiseRT else .ok ⟨n.map fun x => x.1.name ++ [' '] ++ dec x.2, q, none⟩ := by
  have hr : ReadS (a ++ ['S'] ++ r ++ e) (k1 ++ k2) := ⟨a, k1, r, k2, e, h1, h2, he, rfl, rfl⟩
  obtain ⟨n, q, hn, hq, er⟩ := sat_run h1 h2 (sat_match.2 hr)
  refine ⟨n, q, hn, hq, ?_⟩
  have hm : reMatch minorplanetPackedIDRegex (a ++ ['S'] ++ r ++ e) = none := none_of minor_match fun m hm => by
    rcases hm with hm | hm <;> exact not_minor_sat hm hr
  have hc := comet_none (s := a ++ ['S'] ++ r ++ e) fun m hm => not_comet_sat hm hr
  unfold unpackPackedID
  rw [unpackMinor_none hm]
  show (bind (unpackComet _ _) _) = _
  rw [hc]
  show (bind (unpackSat _ _) _) = _
  rw [er]
  by_cases c1 : ∃ x ∈ n, x.2 = 0
  · rw [if_pos c1, if_pos (.inl c1)]; rfl
  · rw [if_neg c1]
    simp only [bind, Except.bind, pure, Except.pure]
    have tq : ∀ x, q = some x → truthy (some x) = true := by
      rintro x rfl
      cases hq <;> rfl
    have key : ∀ P : Prop, ∀ [Decidable P], ¬ P → (truthy (n.map fun x => x.1.name ++ [' '] ++ dec x.2) = true ∨ truthy q = true) →
        (if !truthy (n.map fun x => x.1.name ++ [' '] ++ dec x.2) && !truthy q && !truthy none then raiseRT else .ok ⟨n.map fun x => x.1.name ++ [' '] ++ dec x.2, q, none⟩ : Py IDs) =
          if P then raiseRT else .ok ⟨n.map fun x => x.1.name ++ [' '] ++ dec x.2, q, none⟩ := by
      intro P _ hP ht
      rw [if_neg hP]
      exact finish_ok (by tauto)
    cases n with
    | none =>
      cases q with
      | none => simp [truthy]
      | some q => exact key _ (by simp) (.inr (tq q rfl))
    | some x => exact key _ (by simpa using c1) (.inl (by rw [Option.map_some, List.append_assoc]; exact truthy_append (by simp)))

theorem nothing_run {s : Str} (h1 : ∀ m, ¬ (Read T124 s m ∨ Read (fun r k => T3 r k ∧ ∀ k', ¬ T124 r k') s m)) (h2 : ∀ m, ¬ ReadC s m) (h3 : ∀ m, ¬ ReadS s m) : unpackPackedID s = raiseRT := by
  unfold unpackPackedID
  rw [unpackMinor_none (none_of minor_match h1)]
  show (bind (unpackComet _ _) _) = _
  rw [comet_none h2]
  show (bind (unpackSat _ _) _) = _
  rw [sat_none h3]
  rfl

/-- every text is read as one of these or as nothing -/
theorem reading (s : Str) : (∃ m, Read T124 s m) ∨ (∃ m, Read (fun r k => T3 r k ∧ ∀ k', ¬ T124 r k') s m) ∨ (∃ m, ReadC s m) ∨ (∃ m, ReadS s m) ∨ unpackPackedID s = raiseRT := by
  by_cases h1 : ∃ m, Read T124 s m
  · exact .inl h1
  by_cases h2 : ∃ m, Read (fun r k => T3 r k ∧ ∀ k', ¬ T124 r k') s m
  · exact .inr (.inl h2)
  by_cases h3 : ∃ m, ReadC s m
  · exact .inr (.inr (.inl h3))
  by_cases h4 : ∃ m, ReadS s m
  · exact .inr (.inr (.inr (.inl h4)))
  refine .inr (.inr (.inr (.inr (nothing_run ?_ ?_ ?_))))
  · rintro m (h | h)
    · exact h1 ⟨m, h⟩
    · exact h2 ⟨m, h⟩
  · exact fun m h => h3 ⟨m, h⟩
  · exact fun m h => h4 ⟨m, h⟩

theorem ite_ok {α : Type} {c : Prop} [Decidable c] {x y : α} : (if c then raiseRT else .ok x : Py α) = .ok y ↔ ¬ c ∧ x = y := by
  by_cases h : c
  · simp [h, raiseRT]
  · simp [h]

end Unpacking

/-- **C54.** Unpacking a text gives designations iff its columns stand for them -/
theorem C54_unpacks {s : Str} {p q t : Option Str} : unpackPackedID s = .ok ⟨p, q, t⟩ ↔ Unpacks s p q t := by
  constructor
  · intro h
    rcases reading s with ⟨m, a, k1, r, k2, e, h1, h2, he, rfl, rfl⟩ | ⟨m, a, k1, r, k2, e, h1, ⟨h2, h3⟩, he, rfl, rfl⟩ | ⟨m, a, k1, ty, r, k2, e, h1, hty, h2, he, rfl, rfl⟩ | ⟨m, a, k1, r, k2, e, h1, h2, he, rfl, rfl⟩ | hr
    · obtain ⟨n, q', hn, hq, er⟩ := minor_run h1 h2 he
      rw [er, ite_ok] at h
      obtain ⟨hz, h⟩ := h
      injection h with e1 e2 e3
      subst e1 e2 e3
      exact .minor hn hz hq he
    · have h2' := h2
      cases h2 with
      | @mk t' j hl ht =>
        obtain ⟨n, hn, er⟩ := name_run h1 h2' h3 he rfl ht rfl
        rw [er, ite_ok] at h
        obtain ⟨hz, h⟩ := h
        injection h with e1 e2 e3
        subst e1 e2 e3
        rw [not_or, not_and] at hz
        refine .name hn hz.1 hl ht (fun q hq => ?_) hz.2 he
        obtain ⟨k, hk, -⟩ := Minor7.run hq
        exact h3 k hk
    · obtain ⟨n, q', f, hn, hq, er⟩ := comet_run' h1 hty h2 he
      rw [er, ite_ok] at h
      obtain ⟨hz, h⟩ := h
      injection h with e1 e2 e3
      subst e1 e2 e3
      simp only [not_or, not_and] at hz
      obtain ⟨z1, z2, z3⟩ := hz
      refine .comet hn z1 hty (fun h => ?_) hq ?_ he
      · by_cases hp : ty = 'P'
        · exact .inl hp
        · exact .inr (Decidable.byContradiction fun hd => z2 h hp hd)
      · by_cases hn : n = none
        · exact .inr (z3 hn)
        · exact .inl hn
    · obtain ⟨n, q', hn, hq, er⟩ := sat_run' h1 h2 he
      rw [er, ite_ok] at h
      obtain ⟨hz, h⟩ := h
      injection h with e1 e2 e3
      subst e1 e2 e3
      rw [not_or, not_and] at hz
      refine .satellite hn (fun x hx h => hz.1 ⟨x, hx, h⟩) hq ?_ he
      by_cases hn : n = none
      · exact .inr (hz.2 hn)
      · exact .inl hn
    · rw [hr] at h; simp [raiseRT] at h
  · intro h
    cases h with
    | minor hn hz hq he =>
      obtain ⟨k1, h1⟩ := Number5.caps hn
      obtain ⟨k2, h2, -⟩ := Minor7.run hq
      obtain ⟨n', q', hn', hq', er⟩ := minor_run h1 h2 he
      rw [er, Number5.unique hn' hn, Minor7.unique hq' hq, if_neg hz]
    | @name a t e n j hn hz hl ht hno hne he =>
      obtain ⟨k1, h1⟩ := Number5.caps hn
      obtain ⟨n', hn', er⟩ := name_run h1 (T3.mk j hl ht) (fun k hk => by obtain ⟨q, hq, -⟩ := T124.text hk; exact hno q hq) he rfl ht rfl
      rw [er, Number5.unique hn' hn, if_neg (by rw [not_or, not_and]; exact ⟨hz, hne⟩)]
    | comet hn hz hty hpd hq hne he =>
      obtain ⟨k1, h1⟩ := Number4.caps hn
      obtain ⟨k2, h2, -⟩ := Comet7.run hq
      obtain ⟨n', q', f', hn', hq', er⟩ := comet_run' h1 hty h2 he
      rw [er, Number4.unique hn' hn, (Comet7.unique hq' hq).1, (Comet7.unique hq' hq).2, if_neg]
      simp only [not_or, not_and]
      refine ⟨hz, fun h1 h2 h3 => ?_, fun h1 h2 => ?_⟩
      · rcases hpd h1 with h | h
        · exact h2 h
        · exact h3 h
      · rcases hne with h | h
        · exact h h1
        · exact h h2
    | satellite hn hz hq hne he =>
      obtain ⟨k1, h1⟩ := Sat4.caps hn
      obtain ⟨k2, h2⟩ := Sat7.caps hq
      obtain ⟨n', q', hn', hq', er⟩ := sat_run' h1 h2 he
      rw [er, Sat4.unique hn' hn, Sat7.unique hq' hq, if_neg]
      rintro (⟨x, hx, h⟩ | ⟨h1, h2⟩)
      · exact hz x hx h
      · rcases hne with h | h
        · exact h h1
        · exact h h2


/-- **C54.** Any other text is refused with a RuntimeError. -/
theorem C54_refused {s : Str} : unpackPackedID s = .error .runtimeError ↔ ∀ p q t, ¬ Unpacks s p q t := by
  constructor
  · intro h p q t hu
    rw [C54_unpacks.2 hu] at h; simp at h
  · intro h
    cases hr : unpackPackedID s with
    | ok ids => exact absurd (C54_unpacks.1 hr) (h ids.permID ids.provID ids.trkSub)
    | error e => rw [C10_unpack_only_RuntimeError s e hr]

/-- **C54.** Columns stand for one triple at most: the readings of `Unpacks` never compete. -/
theorem C54_one {s : Str} {p q t p' q' t' : Option Str} (h : Unpacks s p q t) (h' : Unpacks s p' q' t') : p = p' ∧ q = q' ∧ t = t' := by
  have := (C54_unpacks.2 h).symm.trans (C54_unpacks.2 h')
  injection this with this
  injection this with e1 e2 e3
  exact ⟨e1, e2, e3⟩

/-! ### every kind of columns -/

namespace SampleColumns

theorem two {a b : Char} (ha : isDec a = true) (hb : isDec b = true) : Unpacking.Digits 2 [a, b] := ⟨rfl, by simp [ha, hb]⟩

/-- a numbered minor planet with its designation, and the same without the number, with digits of another script and a line feed after it -/
example : unpackPackedID (c! "99942K04M04N") = .ok ⟨some (c! "99942"), some (c! "2004 MN4"), none⟩ := by
  have h : Unpacks (c! "99942K04M04N") (some (dec 99942)) (some (dec 2004 ++ c! " MN" ++ count 4)) none :=
    Unpacks.minor (a := c! "99942") (r := c! "K04M04N") (e := []) (n := some 99942) (Number5.low (k := 9) (ds := c! "9942") (by decide) ⟨rfl, by decide⟩) (by decide)
      (Minor7.normal (c := 20) (yy := c! "04") (k := 0) (d := '4') (by decide) (by decide) (two (by decide) (by decide)) (by unfold HalfMonth; decide) (by decide) (by decide) (by unfold Second; decide)) (.inl rfl)
  exact C54_unpacks.2 h
example : unpackPackedID (c! "     K٠٤M0٤N\n") = .ok ⟨none, some (c! "2004 MN4"), none⟩ := by
  have h : Unpacks (c! "     K٠٤M0٤N\n") none (some (dec 2004 ++ c! " MN" ++ count 4)) none :=
    Unpacks.minor (a := spaces 5) (r := c! "K٠٤M0٤N") (e := c! "\n") (n := none) Number5.blank (by decide)
      (Minor7.normal (c := 20) (yy := c! "٠٤") (k := 0) (d := '٤') (by decide) (by decide) (two (by decide) (by decide)) (by unfold HalfMonth; decide) (by decide) (by decide) (by unfold Second; decide)) (.inr rfl)
  exact C54_unpacks.2 h
/-- number, designation and name -/
example : unpackPackedID (c! "00433abc") = .ok ⟨some (c! "433"), none, some (c! "abc")⟩ := by decide +kernel
/-- the designations that begin with `A/`, of a survey, and of a half-month with more than 15499 objects -/
example : unpackPackedID (c! "     J96N020") = .ok ⟨none, some (c! "A/1996 N2"), none⟩ ∧ unpackPackedID (c! "     PLS2040") = .ok ⟨none, some (c! "2040 P-L"), none⟩
    ∧ unpackPackedID (c! "     _QC0000") = .ok ⟨none, some (c! "2026 CA620"), none⟩ ∧ unpackPackedID (c! "     abc-1") = .ok ⟨none, none, some (c! "abc-1")⟩ := by decide +kernel
/-- comets and satellites -/
example : unpackPackedID (c! "0073P     af") = .ok ⟨some (c! "73P-AF"), none, none⟩ ∧ unpackPackedID (c! "    PJ94P01b") = .ok ⟨none, some (c! "P/1994 P1-B"), none⟩
    ∧ unpackPackedID (c! "0073PJ94P01b") = .ok ⟨some (c! "73P-B"), some (c! "P/1994 P1-B"), none⟩ ∧ unpackPackedID (c! "J005SK10J010") = .ok ⟨some (c! "Jupiter 5"), some (c! "S/2010 J 1"), none⟩ := by decide +kernel
/-- what stands for designations that do not exist: a comet of type I, of the year 5, a fragment and a satellite without a count -/
example : unpackPackedID (c! "    IK17U010") = .ok ⟨none, some (c! "I/2017 U1"), none⟩ ∧ unpackPackedID (c! "    C005A010") = .ok ⟨none, some (c! "C/5 A1"), none⟩
    ∧ unpackPackedID (c! "    CK17U00b") = .ok ⟨none, some (c! "C/2017 U-B"), none⟩ ∧ unpackPackedID (c! "    SK10J000") = .ok ⟨none, some (c! "S/2010 J "), none⟩ := by decide +kernel
/-- and columns that stand for nothing: the number 0, a numbered comet of type C, and blanks -/
example : ∀ p q t, ¬ Unpacks (c! "00000       ") p q t := C54_refused.1 (by decide +kernel)
example : ∀ p q t, ¬ Unpacks (c! "0073CJ94P010") p q t := C54_refused.1 (by decide +kernel)
example : ∀ p q t, ¬ Unpacks (spaces 12) p q t := C54_refused.1 (by decide +kernel)

end SampleColumns

/-! ### columns that come back -/

/-- **C54.** The texts that packing gives back after unpacking are the columns of the designations that exist (`Designation.Valid`), and no others. -/
theorem C54_fixed {s : Str} : (∃ ids, unpackPackedID s = .ok ids ∧ packTupleID ids = .ok s) ↔ ∃ d : Designation, d.Valid ∧ s = d.columns := by
  constructor
  · rintro ⟨⟨p, q, t⟩, h1, h2⟩
    exact fixed_valid (C54_unpacks.1 h1) h2
  · rintro ⟨d, hd, rfl⟩
    refine ⟨_, unpack_valid hd, Unpacking.Designation.packed hd rfl rfl fun h1 h2 => ?_⟩
    cases d with
    | perm p => simp [Designation.permText] at h1
    | prov q => simp [Designation.provText] at h2
    | both p q => simp [Designation.permText] at h1
    | tracklet t => rfl

/-- **C54.** The triples that unpacking gives back after packing are the texts of the designations that exist, and no others.  (With a bare number there comes
    an empty name of the observer's own, `trkRead`.) -/
theorem C54_texts {ids : IDs} : (∃ s, packTupleID ids = .ok s ∧ unpackPackedID s = .ok ids) ↔ ∃ d : Designation, d.Valid ∧ ids = ⟨d.permText, d.provText, trkRead d⟩ := by
  constructor
  · rintro ⟨s, h1, h2⟩
    obtain ⟨d, hd, rfl⟩ := C54_fixed.1 ⟨ids, h2, h1⟩
    have h3 := (unpack_valid hd).symm.trans h2
    injection h3 with h3
    exact ⟨d, hd, h3.symm⟩
  · rintro ⟨d, hd, rfl⟩
    obtain ⟨ids, h1, h2⟩ := C54_fixed.2 ⟨d, hd, rfl⟩
    have h3 := (unpack_valid hd).symm.trans h1
    injection h3 with h3
    rw [h3]
    exact ⟨d.columns, h2, h1⟩

/-- columns that come back, and columns that come back differently: without the name beside a number, with the type in column 5 -/
example : ∃ ids, unpackPackedID (c! "0073PJ94P01b") = .ok ids ∧ packTupleID ids = .ok (c! "0073PJ94P01b") :=
  C54_fixed.2 ⟨.both (.fragment 73 'P' ['B']) (.fragment 'P' 1994 'P' 1 'B'),
    ⟨⟨by decide, by decide, .inl rfl, .inl rfl, by decide⟩, ⟨by decide, by decide, by decide, by decide, by decide, by decide, by decide⟩, ⟨rfl, rfl⟩⟩, by decide +kernel⟩
example : packTupleID ⟨some (c! "433"), none, some (c! "abc")⟩ = .ok (c! "00433       ") ∧ packTupleID ⟨none, some (c! "A/1996 N2"), none⟩ = .ok (c! "    AJ96N020") := by decide +kernel
example : ∃ s, packTupleID ⟨some (c! "433"), none, some []⟩ = .ok s ∧ unpackPackedID s = .ok ⟨some (c! "433"), none, some []⟩ :=
  C54_texts.2 ⟨.perm (.minor 433), ⟨by decide, by decide⟩, by decide +kernel⟩
/-- so `00433abc` is not the columns of any designation -/
example : ¬ ∃ d : Designation, d.Valid ∧ c! "00433abc" = d.columns := by
  rw [← C54_fixed]
  rintro ⟨ids, h1, h2⟩
  have h3 : unpackPackedID (c! "00433abc") = .ok ⟨some (c! "433"), none, some (c! "abc")⟩ := by decide +kernel
  rw [h3] at h1
  injection h1 with h1
  subst h1
  revert h2
  decide +kernel

end Verif
