import Verif.Lemmas.IsoTime
import Verif.Props.Written80
import Verif.Lemmas.Sent
/-
  C48: which observation times xmltompc80col accepts.
-/
namespace Verif
open Verif.Mpc80 Verif.PackUtil Verif.Spec.Mpc80 Verif.Xml Verif.ToMpc80 Verif.Sex
open Verif.Spec hiding Item Group fileText Group.lines contextElem

/-- A time "YYYY-MM-DDThh:mm:ss", with or without a fraction, is converted exactly if it exists, is no leap second, and has at most six digits in the fraction
    (at least one after a point); otherwise there is a ValueError. -/
theorem C48_times {y mo d h mi s : Nat} (h1 : 1000 ≤ y) (h2 : y ≤ 9999) (hmo : mo < 100) (hd : d < 100) (hh : h < 100) (hmi : mi < 100) (hs : s < 100) {t : Str} {f : Option Str}
    (ht : IsoEnd t f) {prec : Num} (hp : 0 < prec.f.val) :
    ((∃ r, isoToSexDate (isoText y mo d h mi s t) prec = .ok r) ↔ TimeOk y mo d h mi s ∧ ∀ ds, f = some ds → 1 ≤ ds.length ∧ ds.length ≤ 6)
    ∧ (¬ (TimeOk y mo d h mi s ∧ ∀ ds, f = some ds → 1 ≤ ds.length ∧ ds.length ≤ 6) → isoToSexDate (isoText y mo d h mi s t) prec = .error .valueError) := by
  have bad : ¬ (TimeOk y mo d h mi s ∧ ∀ ds, f = some ds → 1 ≤ ds.length ∧ ds.length ≤ 6) → isoToSexDate (isoText y mo d h mi s t) prec = .error .valueError := by
    intro hb
    by_cases hv : TimeOk y mo d h mi s
    · cases ht with
      | whole => exact absurd ⟨hv, by simp⟩ hb
      | @fraction ds hds =>
        refine fraction_refused h1 h2 hmo hd hh hmi hs hds ?_ prec
        by_contra hc
        refine hb ⟨hv, ?_⟩
        rintro _ ⟨⟩
        have h0 : ds ≠ [] := fun e => hc (.inl e)
        have := List.length_pos_iff.2 h0
        exact ⟨this, by by_contra h6; exact hc (.inr (by omega))⟩
    · cases ht with
      | whole => exact iso_refused h1 h2 hmo hd hh hmi hs hv prec
      | fraction hds => exact iso_refused h1 h2 hmo hd hh hmi hs hv prec
  refine ⟨⟨fun ⟨r, hr⟩ => ?_, fun ⟨hv, hf⟩ => ?_⟩, bad⟩
  · by_contra hc
    rw [bad hc] at hr
    cases hr
  · obtain ⟨v1, v2, v3, v4, v5, v6, v7⟩ := hv
    have hw : h * 3600 + mi * 60 + s < 86400 := by omega
    rw [isoText_eq v6 v7]
    have core : ∀ dt, ∃ r, backCore dt prec = .ok r := by
      intro dt
      unfold backCore
      rw [if_neg (by exact not_le.2 hp)]
      exact ⟨_, rfl⟩
    cases ht with
    | whole =>
      obtain ⟨f0, f1⟩ := strptime_whole h1 h2 v1 v2 v3 v4 hw
      rw [back_whole f0 f1]
      exact core _
    | @fraction ds hds =>
      obtain ⟨l1, l6⟩ := hf ds rfl
      have hn : ∃ us, pyNat (ds ++ List.replicate (6 - ds.length) '0') = .ok us := by
        have h0 : ds ++ List.replicate (6 - ds.length) '0' ≠ [] := by
          intro c
          have := (List.append_eq_nil_iff.1 c).1
          simp [this] at l1
        refine ⟨_, ToMpc80.pyNat_digits (fun c hc => ?_) h0⟩
        rcases List.mem_append.1 hc with hc | hc
        · exact hds c hc
        · rw [(List.mem_replicate.1 hc).2]; decide
      obtain ⟨us, hus⟩ := hn
      rw [back_frac (strptime_frac h1 h2 v1 v2 v3 v4 hw hds l1 l6 hus)]
      exact core _

/-- the conversion of an observation ends with an exception before anything is written -/
def Stops (op : Opts) (e : Elem) : Prop := ∃ x, alone op e = ⟨[], [], some x⟩

/-- an exception comes of it -/
def Raises {α : Type} (m : Py α) : Prop := ∃ x, m = .error x

theorem raises_bind {α β : Type} {m : Py α} {f : α → Py β} (h : ∀ v, m = .ok v → Raises (f v)) : Raises (m >>= f) := by
  cases hm : m with
  | error x => exact ⟨x, rfl⟩
  | ok v => exact h v hm

theorem stops_of {op : Opts} {e : Elem} (hk : e.tag = c! "optical" ∨ e.tag = c! "occultation" ∨ e.tag = c! "radar")
    (ht : ∀ t, Psv.getItem (ToPsv.subDict e) (c! "obsTime") = .ok t → ∀ prec, 0 < prec.f.val → Raises (isoToSexDate t prec)) : Stops op e := by
  have low : ∀ t prec, ¬ 0 < prec.f.val → Raises (isoToSexDate t prec) := by
    intro t prec hp
    unfold isoToSexDate
    simp only [if_pos (not_lt.1 hp)]
    split
    · exact ⟨_, rfl⟩
    · exact raises_bind fun v _ => ⟨_, rfl⟩
    · exact ⟨_, rfl⟩
  have ht' : ∀ t, Psv.getItem (ToPsv.subDict e) (c! "obsTime") = .ok t → ∀ prec, Raises (isoToSexDate t prec) := fun t h prec => by
    by_cases hp : 0 < prec.f.val
    · exact ht t h prec hp
    · exact low t prec hp
  have o : Raises (opticalFirst op (ToPsv.subDict e)) := by
    unfold opticalFirst
    refine raises_bind fun _ _ => raises_bind fun _ _ => raises_bind fun _ _ => raises_bind fun _ _ => raises_bind fun p _ => raises_bind fun t h => raises_bind fun v hv => ?_
    obtain ⟨x, hx⟩ := ht' t h (.flt _)
    rw [hx] at hv; cases hv
  have r : Raises (radarLines (ToPsv.subDict e)) := by
    unfold radarLines
    refine raises_bind fun _ _ => raises_bind fun t h => raises_bind fun v hv => ?_
    obtain ⟨x, hx⟩ := ht' t h (.int 1)
    rw [hx] at hv; cases hv
  unfold Stops
  rw [alone_record (by rcases hk with h | h | h <;> rw [h] <;> decide)]
  unfold recordOut printData
  by_cases hq : e.tag = c! "optical" ∨ e.tag = c! "occultation"
  · rw [if_pos hq]
    obtain ⟨x, hx⟩ := o
    refine ⟨x, ?_⟩
    unfold printOpticalLine
    rw [hx]
    rfl
  · have : e.tag = c! "radar" := by
      rcases hk with h | h | h
      · exact absurd (.inl h) hq
      · exact absurd (.inr h) hq
      · exact h
    rw [if_neg hq, if_pos this]
    obtain ⟨x, hx⟩ := r
    refine ⟨x, ?_⟩
    unfold printRadarLine
    rw [hx]
    rfl

/-- An optical, occultation or radar observation without a time, or with one that does not exist, a leap second or a fraction of more than six digits: the
    conversion ends with an exception, and nothing is written for the observation. -/
theorem C48_refused (op : Opts) {e : Elem} (hk : e.tag = c! "optical" ∨ e.tag = c! "occultation" ∨ e.tag = c! "radar")
    (ht : fieldOf e (c! "obsTime") = none ∨ ∃ y mo d h mi s t f, fieldOf e (c! "obsTime") = some (isoText y mo d h mi s t) ∧ 1000 ≤ y ∧ y ≤ 9999 ∧ mo < 100 ∧ d < 100 ∧ h < 100 ∧
      mi < 100 ∧ s < 100 ∧ IsoEnd t f ∧ ¬ (TimeOk y mo d h mi s ∧ ∀ ds, f = some ds → 1 ≤ ds.length ∧ ds.length ≤ 6)) : Stops op e := by
  refine stops_of hk fun t hg prec hp => ?_
  rcases ht with ht | ⟨y, mo, d, h, mi, s, z, f, ht, h1, h2, hmo, hd, hh, hmi, hs, hz, hb⟩
  · exfalso
    unfold Psv.getItem at hg
    rw [field_get, ht] at hg
    cases hg
  · rw [item_field ht] at hg
    cases hg
    exact ⟨_, (C48_times h1 h2 hmo hd hh hmi hs hz hp).2 hb⟩

/-- the text of a time in the last second of 2016, which the schema of ADES allows, and one that exists with seven digits in the fraction -/
def leapSecond : Elem := .mk (c! "optical") none [] [.mk (c! "obsTime") (some (c! "2016-12-31T23:59:60.5Z")) [] []]
def sevenDigits : Elem := .mk (c! "radar") none [] [.mk (c! "obsTime") (some (c! "2016-12-31T23:59:59.1234567Z")) [] []]

theorem C48_samples (op : Opts) : Stops op leapSecond ∧ Stops op sevenDigits := by
  constructor
  · refine C48_refused op (.inl rfl) (.inr ⟨2016, 12, 31, 23, 59, 60, c! ".5Z", some (c! "5"), by decide +kernel, by omega, by omega, by omega, by omega, by omega, by omega, by omega,
      .fraction (ds := c! "5") (by decide), fun h => ?_⟩)
    have := h.1
    unfold TimeOk at this
    omega
  · refine C48_refused op (.inr (.inr rfl)) (.inr ⟨2016, 12, 31, 23, 59, 59, c! ".1234567Z", some (c! "1234567"), by decide +kernel, by omega, by omega, by omega, by omega, by omega, by omega, by omega,
      .fraction (ds := c! "1234567") (by decide), fun h => ?_⟩)
    have := (h.2 _ rfl).2
    revert this
    decide

end Verif
