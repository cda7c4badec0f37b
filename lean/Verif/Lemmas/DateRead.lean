import Verif.Lemmas.SexRead
import Verif.Spec.ObsDate
import Mathlib.Tactic.IntervalCases
/-
  Verif.Lemmas.DateRead : the date patterns on well formed dates and ISO times.
-/
namespace Verif.Sex
open Verif Flt

/-- the first match of `r` on `s` consumes `u`, leaves `v` and captures `k` -/
def Hd (r : Re) (s u v : Str) (k : Caps) : Prop := (run r s).head? = some (u, v, k)

theorem Hd.cls {p : Char → Bool} {c : Char} {s : Str} (h : p c = true) : Hd (.cls p) (c :: s) [c] s [] := by simp [Hd, run, h]

theorem Hd.seq {a b : Re} {s u v w t : Str} {k1 k2 : Caps} (h1 : Hd a s u v k1) (h2 : Hd b v w t k2) :
    Hd (.seq a b) s (u ++ w) t (k1 ++ k2) := by
  unfold Hd at *
  simp only [run]
  cases ha : run a s with
  | nil => rw [ha] at h1; simp at h1
  | cons m ms =>
    rw [ha] at h1; simp at h1; subst h1
    cases hb : run b v with
    | nil => rw [hb] at h2; simp at h2
    | cons n ns =>
      rw [hb] at h2; simp at h2; subst h2
      simp [List.flatMap_cons, hb]

theorem Hd.grp {a : Re} {g : Nat} {s u v : Str} {k : Caps} (h : Hd a s u v k) : Hd (.grp g a) s u v ((g, u) :: k) := by
  unfold Hd at *
  simp [run, h]

theorem Hd.rep {lo : Nat} {p : Char → Bool} {ds t : Str} (hds : ∀ c ∈ ds, p c = true) (ht : ∀ c ∈ t.head?, p c = false)
    (hlo : lo ≤ ds.length) : Hd (.rep lo none p) (ds ++ t) ds t [] := by
  unfold Hd
  simp only [run, spanLen_none_append p ds t hds ht]
  have : ∃ l, downTo lo ds.length = ds.length :: l := by
    generalize ds.length = n at *
    cases n with
    | zero => exact ⟨[], by simp [downTo]; omega⟩
    | succ n => exact ⟨downTo lo n, by simp only [downTo, hlo, if_true]⟩
  obtain ⟨l, hl⟩ := this
  simp [hl]

theorem Hd.eos : Hd .eos [] [] [] [] := by simp [Hd, run]

theorem isDec_digitChar {d : Nat} (h : d < 10) : isDec (digitChar d) = true := isDec_of_mem (digitChar_mem h)

/-- two digits, by trying them all -/
macro "hdtwo" : tactic => `(tactic| (unfold Hd; first | rfl | (simp only [run, alts, cat, lit]; rfl)))

theorem hd_month {m : Nat} (h1 : 1 ≤ m) (h2 : m ≤ 12) (t : Str) :
    Hd (alts [cat [.cls (ch '0'), .cls (rng '1' '9')], lit ['1', '0'], lit ['1', '1'], lit ['1', '2']])
      (Spec.fixed 2 m ++ t) (Spec.fixed 2 m) t [] := by
  rw [fixed2 (by omega)]; interval_cases m <;> rfl

theorem hd_day {m : Nat} (h1 : 1 ≤ m) (h2 : m ≤ 31) (t : Str) :
    Hd (alts [cat [.cls (ch '0'), .cls (rng '1' '9')], cat [.cls (oneOf ['1', '2']), .cls isDec], lit ['3', '0'], lit ['3', '1']])
      (Spec.fixed 2 m ++ t) (Spec.fixed 2 m) t [] := by
  rw [fixed2 (by omega)]; interval_cases m <;> rfl

theorem hd_pmonth {m : Nat} (h1 : 1 ≤ m) (h2 : m ≤ 12) (t : Str) :
    Hd (alts [cat [.cls (ch '1'), .cls (rng '0' '2')], cat [.cls (ch '0'), .cls (rng '1' '9')], .cls (rng '1' '9')])
      (Spec.fixed 2 m ++ t) (Spec.fixed 2 m) t [] := by
  rw [fixed2 (by omega)]; interval_cases m <;> rfl

theorem hd_pday {m : Nat} (h1 : 1 ≤ m) (h2 : m ≤ 31) (t : Str) :
    Hd (alts [cat [.cls (ch '3'), .cls (rng '0' '1')], cat [.cls (rng '1' '2'), .cls isDec], cat [.cls (ch '0'), .cls (rng '1' '9')],
     .cls (rng '1' '9'), cat [.cls (ch ' '), .cls (rng '1' '9')]])
      (Spec.fixed 2 m ++ t) (Spec.fixed 2 m) t [] := by
  rw [fixed2 (by omega)]; interval_cases m <;> rfl

theorem hd_phour {m : Nat} (h2 : m < 24) (t : Str) :
    Hd (alts [cat [.cls (ch '2'), .cls (rng '0' '3')], cat [.cls (rng '0' '1'), .cls isDec], .cls isDec])
      (Spec.fixed 2 m ++ t) (Spec.fixed 2 m) t [] := by
  rw [fixed2 (by omega)]; interval_cases m <;> rfl

theorem hd_pminute {m : Nat} (h2 : m < 60) (t : Str) :
    Hd (alts [cat [.cls (rng '0' '5'), .cls isDec], .cls isDec])
      (Spec.fixed 2 m ++ t) (Spec.fixed 2 m) t [] := by
  rw [fixed2 (by omega)]; interval_cases m <;> rfl

theorem hd_psecond {m : Nat} (h2 : m < 60) (t : Str) :
    Hd (alts [cat [.cls (ch '6'), .cls (rng '0' '1')], cat [.cls (rng '0' '5'), .cls isDec], .cls isDec])
      (Spec.fixed 2 m ++ t) (Spec.fixed 2 m) t [] := by
  rw [fixed2 (by omega)]; interval_cases m <;> rfl

theorem hd_century {m : Nat} (h1 : 16 ≤ m) (h2 : m < 100) (t : Str) :
    Hd (alts [lit ['1', '6'], lit ['1', '7'], lit ['1', '8'], lit ['1', '9'], cat [.cls (rng '2' '9'), .cls isDec]])
      ([digitChar (m / 10), digitChar (m % 10)] ++ t) [digitChar (m / 10), digitChar (m % 10)] t [] := by
  interval_cases m <;> rfl

theorem year_text {y : Nat} (h1 : 1000 ≤ y) (h2 : y ≤ 9999) : Spec.dec y =
    [digitChar (y / 100 / 10), digitChar (y / 100 % 10), digitChar (y / 10 % 10), digitChar (y % 10)] := by
  rw [dec_eq, natStr4 (by omega) (by omega)]
  congr 2; omega

theorem hd_year {y : Nat} (h1 : 1600 ≤ y) (h2 : y ≤ 9999) (t : Str) :
    Hd (cat [alts [lit ['1', '6'], lit ['1', '7'], lit ['1', '8'], lit ['1', '9'], cat [.cls (rng '2' '9'), .cls isDec]],
      .cls isDec, .cls isDec]) (Spec.dec y ++ t) (Spec.dec y) t [] := by
  rw [year_text (by omega) h2]
  exact (hd_century (m := y / 100) (by omega) (by omega) _).seq
    ((Hd.cls (isDec_digitChar (by omega))).seq (Hd.cls (isDec_digitChar (by omega))))

theorem hd_pyear {y : Nat} (h1 : 1000 ≤ y) (h2 : y ≤ 9999) (t : Str) : Hd (times 4 isDec) (Spec.dec y ++ t) (Spec.dec y) t [] := by
  rw [year_text (by omega) h2]
  have a := isDec_digitChar (d := y / 100 / 10) (by omega)
  have b := isDec_digitChar (d := y / 100 % 10) (by omega)
  have c := isDec_digitChar (d := y / 10 % 10) (by omega)
  have d := isDec_digitChar (d := y % 10) (by omega)
  simp [Hd, times, run, spanLen, a, b, c, d, downTo]

/-- the captures of a well formed date column -/
theorem date_match {y m d k : Nat} {ds : Str} (hy : 1600 ≤ y) (hy' : y ≤ 9999) (hm : 1 ≤ m) (hm' : m ≤ 12) (hd : 1 ≤ d) (hd' : d ≤ 31)
    (hds : ∀ c ∈ ds, c ∈ digits10) (hne : ds ≠ []) :
    reMatch checkDateRe (Spec.dec y ++ [' '] ++ Spec.fixed 2 m ++ [' '] ++ Spec.fixed 2 d ++ ['.'] ++ ds ++ List.replicate k ' ') =
      some [(1, Spec.dec y), (2, Spec.fixed 2 m), (3, Spec.fixed 2 d), (4, ds)] := by
  have : ∃ u, Hd checkDateRe (Spec.dec y ++ [' '] ++ Spec.fixed 2 m ++ [' '] ++ Spec.fixed 2 d ++ ['.'] ++ ds ++ List.replicate k ' ')
      u [] [(1, Spec.dec y), (2, Spec.fixed 2 m), (3, Spec.fixed 2 d), (4, ds)] := by
    simp only [List.append_assoc]
    refine ⟨_, (hd_year hy hy' _).grp.seq ((Hd.cls rfl).seq ((hd_month hm hm' _).grp.seq ((Hd.cls rfl).seq ((hd_day hd hd' _).grp.seq
      ((Hd.cls rfl).seq ((Hd.grp (u := ds) (k := []) (Hd.rep (fun c h => isDec_of_mem (hds c h)) ?_ ?_)).seq (k2 := []) (w := List.replicate k ' ' ++ []) ?_))))))⟩
    · intro c hc
      have := List.mem_replicate.1 (List.mem_of_mem_head? hc)
      rw [this.2]; decide
    · cases ds with
      | nil => exact absurd rfl hne
      | cons => simp
    · have h1 : Hd (star (ch ' ')) (List.replicate k ' ' ++ []) (List.replicate k ' ') [] [] :=
        Hd.rep (fun c h => by rw [(List.mem_replicate.1 h).2]; rfl) (by simp) (by simp)
      rw [List.append_nil] at h1
      exact h1.seq Hd.eos
  obtain ⟨u, this⟩ := this
  unfold Hd at this
  unfold reMatch
  rw [this]; rfl

theorem cat_hd_append {l : List Re} (hne : l ≠ []) {r : List Re} (hr : r ≠ []) {s u v w t : Str} {k1 k2 : Caps}
    (h1 : Hd (cat l) s u v k1) (h2 : Hd (cat r) v w t k2) : Hd (cat (l ++ r)) s (u ++ w) t (k1 ++ k2) := by
  unfold Hd
  rw [run_cat_append l r hne hr]
  exact h1.seq h2

/-- the captures of the part of an ISO time up to the seconds -/
def isoCaps (y m d w : Nat) : Caps :=
  [(1, Spec.dec y), (2, Spec.fixed 2 m), (3, Spec.fixed 2 d), (4, Spec.fixed 2 (w / 3600)), (5, Spec.fixed 2 (w / 60 % 60)), (6, Spec.fixed 2 (w % 60))]

theorem hd_secs {y m d w : Nat} (hy : 1000 ≤ y) (hy' : y ≤ 9999) (hm : 1 ≤ m) (hm' : m ≤ 12) (hd : 1 ≤ d) (hd' : d ≤ 31) (hw : w < 86400) (t : Str) :
    Hd (cat strptimeSecs) (Spec.isoTime y m d w t) (Spec.isoTime y m d w []) t (isoCaps y m d w) := by
  unfold Spec.isoTime
  simp only [List.append_assoc, List.append_nil]
  exact (hd_pyear hy hy' _).grp.seq ((Hd.cls rfl).seq ((hd_pmonth hm hm' _).grp.seq ((Hd.cls rfl).seq ((hd_pday hd hd' _).grp.seq
      ((Hd.cls rfl).seq ((hd_phour (by omega) _).grp.seq ((Hd.cls rfl).seq ((hd_pminute (by omega) _).grp.seq ((Hd.cls rfl).seq
        (hd_psecond (by omega) _).grp)))))))))

theorem hd_micro {ds : Str} (h : ∀ c ∈ ds, c ∈ digits10) (h1 : 1 ≤ ds.length) (h6 : ds.length ≤ 6) (t : Str) :
    Hd (.rep 1 (some 6) (rng '0' '9')) (ds ++ 'Z' :: t) ds ('Z' :: t) [] := by
  have hr : ∀ c ∈ digits10, rng '0' '9' c = true := by decide
  have hz : rng '0' '9' 'Z' = false := by decide
  have hs : ∀ (ds : Str) (n : Nat), (∀ c ∈ ds, c ∈ digits10) → ds.length ≤ n → spanLen (rng '0' '9') (some n) (ds ++ 'Z' :: t) = ds.length := by
    intro ds
    induction ds with
    | nil => intro n _ _; cases n <;> simp [spanLen, hz]
    | cons c ds ih =>
      intro n hc hl
      cases n with
      | zero => simp at hl
      | succ n =>
        simp only [List.cons_append, spanLen, hr c (hc c (by simp)), if_true, List.length_cons]
        rw [ih n (fun c h => hc c (by simp [h])) (by simpa using hl)]
  unfold Hd
  simp only [run, hs ds 6 h h6]
  have : ∃ l, downTo 1 ds.length = ds.length :: l := by
    generalize ds.length = n at *
    cases n with
    | zero => omega
    | succ n => exact ⟨downTo 1 n, by simp only [downTo, h1, if_true]⟩
  obtain ⟨l, hl⟩ := this
  simp [hl]

/-- reading "…:SS.fffZ" -/
theorem hd_frac {y m d w : Nat} {ds : Str} (hy : 1000 ≤ y) (hy' : y ≤ 9999) (hm : 1 ≤ m) (hm' : m ≤ 12) (hd : 1 ≤ d) (hd' : d ≤ 31) (hw : w < 86400)
    (h : ∀ c ∈ ds, c ∈ digits10) (h1 : 1 ≤ ds.length) (h6 : ds.length ≤ 6) :
    Hd strptimeFrac (Spec.isoTime y m d w ('.' :: ds ++ ['Z'])) (Spec.isoTime y m d w ('.' :: ds ++ ['Z'])) [] (isoCaps y m d w ++ [(7, ds)]) := by
  have := cat_hd_append (l := strptimeSecs) (r := [.cls (ch '.'), .grp 7 (.rep 1 (some 6) (rng '0' '9')), .cls (chI 'Z')]) (by simp [strptimeSecs]) (by simp)
    (hd_secs hy hy' hm hm' hd hd' hw ('.' :: ds ++ ['Z']))
    ((Hd.cls (p := ch '.') rfl).seq ((Hd.grp (g := 7) (hd_micro h h1 h6 [])).seq (Hd.cls (p := chI 'Z') (s := []) rfl)))
  have e : Spec.isoTime y m d w [] ++ (['.'] ++ (ds ++ ['Z'])) = Spec.isoTime y m d w ('.' :: ds ++ ['Z']) := by simp [Spec.isoTime]
  rw [e] at this
  exact this

theorem hd_whole {y m d w : Nat} (hy : 1000 ≤ y) (hy' : y ≤ 9999) (hm : 1 ≤ m) (hm' : m ≤ 12) (hd : 1 ≤ d) (hd' : d ≤ 31) (hw : w < 86400) :
    Hd strptimeWhole (Spec.isoTime y m d w ['Z']) (Spec.isoTime y m d w ['Z']) [] (isoCaps y m d w) := by
  have := cat_hd_append (l := strptimeSecs) (r := [.cls (chI 'Z')]) (by simp [strptimeSecs]) (by simp)
    (hd_secs hy hy' hm hm' hd hd' hw ['Z']) (Hd.cls (p := chI 'Z') (s := []) rfl)
  have e : Spec.isoTime y m d w [] ++ ['Z'] = Spec.isoTime y m d w ['Z'] := by simp [Spec.isoTime]
  rw [e, List.append_nil] at this
  exact this

theorem dot_needed {l r : List Re} (hne : l ≠ []) {s : Str} (h : '.' ∉ s) : run (cat (l ++ .cls (ch '.') :: r)) s = [] := by
  rw [run_cat_append l _ hne (by simp)]
  simp only [run]
  rw [List.flatMap_eq_nil_iff]
  rintro ⟨u, v, k⟩ hm
  rw [run_split hm] at h
  have hv : run (cat (.cls (ch '.') :: r)) v = [] := by
    cases v with
    | nil => cases r <;> simp [cat, run]
    | cons c v =>
      have hc : ch '.' c = false := by
        by_contra hc
        have := (ch_iff '.' c).1 (by simpa using hc)
        subst this; simp at h
      cases r <;> simp [cat, run, hc]
  simp [hv]

theorem daysIn_eq {y m : Nat} (h1 : 1 ≤ m) (h2 : m ≤ 12) : daysIn y m = Spec.monthDays y m := by
  have hl : (isLeap y = true) ↔ Spec.leap y := by
    simp [isLeap, Spec.leap, Nat.dvd_iff_mod_eq_zero]
  unfold daysIn Spec.monthDays
  by_cases h : isLeap y = true
  · have h' := hl.1 h
    interval_cases m <;> simp [h, h']
  · have h' : ¬ Spec.leap y := fun q => h (hl.2 q)
    interval_cases m <;> simp [h, h']

theorem monthDays_le {y m : Nat} : Spec.monthDays y m ≤ 31 := by
  unfold Spec.monthDays
  rcases Nat.lt_or_ge (m - 1) 12 with h | h
  · generalize m - 1 = k at *
    interval_cases k <;> simp
    split <;> omega
  · simp [List.getD, List.getElem?_eq_none (l := [31, if Spec.leap y then 29 else 28, 31, 30, 31, 30, 31, 31, 30, 31, 30, 31]) (i := m - 1) (by simpa using h)]

theorem mkDate_ok {y m d : Nat} (hy : 1 ≤ y) (hy' : y ≤ 9999) (hm : 1 ≤ m) (hm' : m ≤ 12) (hd : 1 ≤ d) (hd' : d ≤ Spec.monthDays y m) :
    mkDate y m d = .ok ⟨y, m, d, 0⟩ := by
  unfold mkDate
  rw [daysIn_eq hm hm', if_pos ⟨hy, hy', hm, hm', hd, hd'⟩]

theorem iso_nodot {y m d w : Nat} : '.' ∉ Spec.isoTime y m d w ['Z'] := by
  intro h
  have hd : '.' ∉ digits10 := by decide
  simp only [Spec.isoTime, List.mem_append, List.mem_cons, List.not_mem_nil, or_false] at h
  have f := fun k n (h : '.' ∈ Spec.fixed k n) => hd (fixed_mem k n _ h)
  have g := fun n (h : '.' ∈ Spec.dec n) => hd (natStr_mem n _ (dec_eq n ▸ h))
  rcases h with ((((((((((h | h) | h) | h) | h) | h) | h) | h) | h) | h) | h) | h
  all_goals first | exact f _ _ h | exact g _ h | exact absurd h (by decide)

theorem group_iso (y m d w : Nat) (e : Caps) : group (isoCaps y m d w ++ e) 1 = some (Spec.dec y) ∧ group (isoCaps y m d w ++ e) 2 = some (Spec.fixed 2 m) ∧
    group (isoCaps y m d w ++ e) 3 = some (Spec.fixed 2 d) ∧ group (isoCaps y m d w ++ e) 4 = some (Spec.fixed 2 (w / 3600)) ∧
    group (isoCaps y m d w ++ e) 5 = some (Spec.fixed 2 (w / 60 % 60)) ∧ group (isoCaps y m d w ++ e) 6 = some (Spec.fixed 2 (w % 60)) ∧
    group (isoCaps y m d w ++ e) 7 = group e 7 := by
  refine ⟨rfl, rfl, rfl, rfl, rfl, rfl, ?_⟩
  simp [group, isoCaps]

theorem split_seconds (w : Nat) : w / 3600 * 3600 + w / 60 % 60 * 60 + w % 60 = w := by omega

theorem strptime_frac {y m d w us : Nat} {ds : Str} (hy : 1000 ≤ y) (hy' : y ≤ 9999) (hm : 1 ≤ m) (hm' : m ≤ 12) (hd : 1 ≤ d) (hd' : d ≤ Spec.monthDays y m)
    (hw : w < 86400) (h : ∀ c ∈ ds, c ∈ digits10) (h1 : 1 ≤ ds.length) (h6 : ds.length ≤ 6)
    (hus : pyNat (ds ++ List.replicate (6 - ds.length) '0') = .ok us) :
    strptime strptimeFrac (Spec.isoTime y m d w ('.' :: ds ++ ['Z'])) = .ok ⟨y, m, d, w * 1000000 + us⟩ := by
  have h31 := monthDays_le (y := y) (m := m)
  have hh := hd_frac hy hy' hm hm' hd (by omega) hw h h1 h6
  unfold Hd at hh
  unfold strptime
  rw [hh]
  obtain ⟨g1, g2, g3, g4, g5, g6, g7⟩ := group_iso y m d w [(7, ds)]
  have g7' : group (isoCaps y m d w ++ [(7, ds)]) 7 = some ds := by rw [g7]; rfl
  simp only [g1, g2, g3, g4, g5, g6, g7', Option.getD_some, dec_eq, pyInt_fixed, pyInt_natStr, bind, Except.bind, ne_eq, not_true_eq_false, if_false,
    hus, Int.toNat_natCast, mkDate_ok (by omega) hy' hm hm' hd hd']
  rw [if_pos (by omega), split_seconds]

theorem strptime_whole {y m d w : Nat} (hy : 1000 ≤ y) (hy' : y ≤ 9999) (hm : 1 ≤ m) (hm' : m ≤ 12) (hd : 1 ≤ d) (hd' : d ≤ Spec.monthDays y m)
    (hw : w < 86400) :
    strptime strptimeFrac (Spec.isoTime y m d w ['Z']) = .error .valueError ∧
    strptime strptimeWhole (Spec.isoTime y m d w ['Z']) = .ok ⟨y, m, d, w * 1000000⟩ := by
  have h31 := monthDays_le (y := y) (m := m)
  constructor
  · have : run strptimeFrac (Spec.isoTime y m d w ['Z']) = [] := dot_needed (by simp [strptimeSecs]) iso_nodot
    unfold strptime
    rw [this]; rfl
  · have hh := hd_whole hy hy' hm hm' hd (by omega) hw
    unfold Hd at hh
    unfold strptime
    rw [hh]
    obtain ⟨g1, g2, g3, g4, g5, g6, g7⟩ := group_iso y m d w []
    rw [List.append_nil] at g1 g2 g3 g4 g5 g6 g7
    have hz : pyNat ((group ([] : Caps) 7).getD [] ++ List.replicate (6 - ((group ([] : Caps) 7).getD []).length) '0') = .ok 0 := by decide
    simp only [g1, g2, g3, g4, g5, g6, g7, hz, Option.getD_some, dec_eq, pyInt_fixed, pyInt_natStr, bind, Except.bind, ne_eq, not_true_eq_false, if_false,
      Int.toNat_natCast, mkDate_ok (by omega) hy' hm hm' hd hd']
    rw [if_pos (by omega), split_seconds, Nat.add_zero]

end Verif.Sex
