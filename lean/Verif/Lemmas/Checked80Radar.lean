import Verif.Lemmas.Checked80Obs
import Verif.Lemmas.RadarBack
/-!
  Lemmas.Checked80Radar : when the elements of radar observations are valid.
-/
namespace Verif.Checked
open Verif.Xml Verif.Spec Verif.Check Verif.Xsd Verif.Fields Verif.Submission Verif.PackUtil Verif.Mpc80
open Verif.Spec.Mpc80 (leafOf nodeOf val Radar withPoint number signedNumber)

theorem trim_dot {t : Str} (h : '.' ∈ t) : '.' ∈ Spec.Mpc80.trim t := by
  unfold Spec.Mpc80.trim
  have drop : ∀ l : Str, '.' ∈ l → '.' ∈ l.dropWhile (· = ' ') := by
    intro l hl
    induction l with
    | nil => exact hl
    | cons c s ih =>
      rw [List.dropWhile_cons]
      split
      · rename_i hc
        rcases List.mem_cons.1 hl with e | e
        · subst e; simp at hc
        · exact ih e
      · exact hl
  simpa using drop _ (by simpa using drop t h)

theorem number_nil {k : Nat} {t : Str} : number k t = [] ↔ Spec.Mpc80.trim t = [] := by
  unfold number
  by_cases h : Spec.Mpc80.trim t = []
  · simp [h]
  · rw [if_neg h]
    refine ⟨fun e => ?_, fun e => absurd e h⟩
    have : '.' ∈ Spec.Mpc80.trim (withPoint k t) := trim_dot (by simp [withPoint])
    rw [e] at this; simp at this

theorem signed_nil {k : Nat} {t : Str} (hk : 1 ≤ k) (ht : 1 ≤ t.length) : signedNumber k t = [] ↔ Spec.Mpc80.trim t = [] := by
  unfold signedNumber
  by_cases h : Spec.Mpc80.trim t = []
  · simp [h]
  · rw [if_neg h]
    refine ⟨fun e => ?_, fun e => absurd e h⟩
    have : '.' ∈ Spec.Mpc80.trim ((withPoint k t).drop 1) := trim_dot (by
      cases t with
      | nil => simp at ht
      | cons c s =>
        obtain ⟨k, rfl⟩ : ∃ j, k = j + 1 := ⟨k - 1, by omega⟩
        simp [withPoint])
    have e' := (List.append_eq_nil_iff.1 e).2
    rw [e'] at this; simp at this

theorem names_val {n m t : Str} : n ∈ (val m t).map (·.1) ↔ n = m ∧ t ≠ [] := by
  by_cases h : t = [] <;> simp [val, h]

theorem radar_has (r : Radar) (time : Str) :
    (c! "doppler" ∈ (r.values time).map (·.1) ↔ signedNumber 11 r.doppler ≠ []) ∧ (c! "rmsDoppler" ∈ (r.values time).map (·.1) ↔ number 11 r.rmsDoppler ≠ []) ∧
    (c! "delay" ∈ (r.values time).map (·.1) ↔ number 5 r.delay ≠ []) ∧ (c! "rmsDelay" ∈ (r.values time).map (·.1) ↔ number 10 r.rmsDelay ≠ []) := by
  refine ⟨?_, ?_, ?_, ?_⟩ <;>
  · simp only [Radar.values, List.map_append, List.mem_append, names_val, List.map_cons, List.map_nil]
    simp (decide := true) only [false_and, true_and, false_or, or_false]

theorem radar_plain : plainType (c! "RadarType") = true := by decide +kernel
theorem radar_only : fieldsOnly (c! "RadarType") [c! "localUse"] = true := by decide +kernel
theorem radar_named : needs S (fun n => n = c! "permID" || n = c! "provID" || n = c! "artSat") 80 (.seq (contentOf (c! "RadarType"))) = true := by decide +kernel
theorem radar_measured : needs S (fun n => n = c! "doppler" || n = c! "delay") 80 (.seq (contentOf (c! "RadarType"))) = true := by decide +kernel
theorem doppler_rms : pairs S (· = c! "doppler") (· = c! "rmsDoppler") 80 (.seq (contentOf (c! "RadarType"))) = true := by decide +kernel
theorem rms_doppler : pairs S (· = c! "rmsDoppler") (· = c! "doppler") 80 (.seq (contentOf (c! "RadarType"))) = true := by decide +kernel
theorem delay_rms : pairs S (· = c! "delay") (· = c! "rmsDelay") 80 (.seq (contentOf (c! "RadarType"))) = true := by decide +kernel
theorem rms_delay : pairs S (· = c! "rmsDelay") (· = c! "delay") 80 (.seq (contentOf (c! "RadarType"))) = true := by decide +kernel
theorem doppler_delay : apart (c! "doppler") (c! "delay") 80 (.seq (contentOf (c! "RadarType"))) = true := by decide +kernel

theorem radar_tags (r : Radar) : r.elem.kids.map Elem.tag = (r.values r.time).map (·.1) := by
  show (((r.values r.time).map fun x => leafOf x.1 x.2).map Elem.tag) = _
  rw [List.map_map]; rfl

theorem radar_time {r : Radar} (h : r.Valid) : Field (c! "obsTime") r.time := by
  obtain ⟨y1, y2, m1, m2, dd1, dd2, -, -, -⟩ := h.date
  exact iso_field (f := []) y1 y2 m1 m2 dd1 dd2 h.whole.1 (.inl rfl)

/-- the text of a value that is given -/
theorem radar_text {r : Radar} (h : r.Valid) {n t : Str} (ht : t ≠ []) (hx : (val n t).Sublist (r.values r.time)) : Spec.Xsd.trim t = t := by
  have := ToMpc80.radar_good h (n, t) (hx.subset (by rw [val_some ht]; simp))
  exact trim_of_strip this.2

theorem radar_subs (r : Radar) : (val (c! "doppler") (signedNumber 11 r.doppler)).Sublist (r.values r.time) ∧ (val (c! "rmsDoppler") (number 11 r.rmsDoppler)).Sublist (r.values r.time) ∧
    (val (c! "delay") (number 5 r.delay)).Sublist (r.values r.time) ∧ (val (c! "rmsDelay") (number 10 r.rmsDelay)).Sublist (r.values r.time) := by
  refine ⟨?_, ?_, ?_, ?_⟩ <;> unfold Radar.values <;> simp only [List.append_assoc]
  · exact (List.sublist_append_left _ _).trans ((List.sublist_append_right _ _).trans ((List.sublist_append_right _ _).trans ((List.sublist_append_right _ _).trans (List.sublist_append_right _ _))))
  · exact (List.sublist_append_left _ _).trans ((List.sublist_append_right _ _).trans ((List.sublist_append_right _ _).trans ((List.sublist_append_right _ _).trans ((List.sublist_append_right _ _).trans (List.sublist_append_right _ _)))))
  · exact (List.sublist_append_left _ _).trans ((List.sublist_append_right _ _).trans ((List.sublist_append_right _ _).trans ((List.sublist_append_right _ _).trans ((List.sublist_append_right _ _).trans
      ((List.sublist_append_right _ _).trans (List.sublist_append_right _ _))))))
  · exact (List.sublist_append_left _ _).trans ((List.sublist_append_right _ _).trans ((List.sublist_append_right _ _).trans ((List.sublist_append_right _ _).trans ((List.sublist_append_right _ _).trans
      ((List.sublist_append_right _ _).trans ((List.sublist_append_right _ _).trans (List.sublist_append_right _ _)))))))

theorem radar_ref {r : Radar} (h : r.Valid) (hn : Spec.Mpc80.trim r.ref ≠ []) : Field (c! "ref") (Spec.Mpc80.trim r.ref) ↔ '|' ∉ Spec.Mpc80.trim r.ref := by
  have := (ToMpc80.trim_sublist r.ref).length_le
  have := h.ref.1
  exact ref_field (by omega) (trim_solid h.ref.2 hn)

theorem radar_frq {r : Radar} (h : r.Valid) : Field (c! "frq") (Spec.Mpc80.trim (withPoint 5 r.frq)) ↔ Frequency (Spec.Mpc80.trim (withPoint 5 r.frq)) := by
  rw [general_field (P := fun v => Frequency (Spec.Xsd.trim v)) (by in_list fieldValue) (by decide), xtrim_plain (withPoint_plain (digits_plain h.frq) 5)]

theorem name_local {r : Radar} {x : Str × Str} (hx : x ∈ r.values r.time) : x.1 ∉ [c! "localUse"] := by
  intro hl
  have hm : c! "localUse" ∈ (r.values r.time).map (·.1) := List.mem_map.2 ⟨x, hx, by simpa using hl⟩
  simp only [Radar.values, List.map_append, List.mem_append, names_val, List.map_cons, List.map_nil] at hm
  simp (decide := true) only [false_and, or_false] at hm

theorem radar_desig {r : Radar} (hd : ∃ n, (n = c! "permID" ∨ n = c! "provID" ∨ n = c! "artSat") ∧ n ∈ (r.values r.time).map (·.1)) : ∀ t, r.desig ≠ .tracklet t := by
  intro t e
  obtain ⟨n, hn, hm⟩ := hd
  simp only [Radar.values, e, Designation.permText, Designation.provText, Option.getD_none, val_nil, List.nil_append, List.map_append, List.mem_append, names_val, List.map_cons, List.map_nil] at hm
  rcases hn with rfl | rfl | rfl <;> simp (decide := true) only [false_and, or_false] at hm

theorem radar_iff {r : Radar} (h : r.Valid) : Valid xsd S (.typed (c! "RadarType") r.elem) ↔ r.Sound := by
  have good := ToMpc80.radar_good h
  obtain ⟨s1, s2, s3, s4⟩ := radar_subs r
  obtain ⟨t1, t2, t3, t4⟩ := radar_has r r.time
  have hdl : 1 ≤ r.doppler.length := by
    obtain ⟨-, c, -, hc⟩ := h.doppler
    cases hd : r.doppler with
    | nil => rw [hd] at hc; simp at hc
    | cons => simp
  have z1 := signed_nil (k := 11) (t := r.doppler) (by decide) hdl
  have z2 := number_nil (k := 11) (t := r.rmsDoppler)
  have z3 := number_nil (k := 5) (t := r.delay)
  have z4 := number_nil (k := 10) (t := r.rmsDelay)
  have f1 : signedNumber 11 r.doppler ≠ [] → (Field (c! "doppler") (signedNumber 11 r.doppler) ↔ Signed 13 (signedNumber 11 r.doppler)) := fun hn => by
    rw [general_field (P := fun v => Signed 13 (Spec.Xsd.trim v)) (by in_list fieldValue) (by decide), radar_text h hn s1]
  have f2 : number 11 r.rmsDoppler ≠ [] → (Field (c! "rmsDoppler") (number 11 r.rmsDoppler) ↔ PositiveNumber 6 (number 11 r.rmsDoppler)) := fun hn => by
    rw [general_field (P := fun v => PositiveNumber 6 (Spec.Xsd.trim v)) (by in_list fieldValue) (by decide), radar_text h hn s2]
  have f3 : number 5 r.delay ≠ [] → (Field (c! "delay") (number 5 r.delay) ↔ PositiveNumber 14 (number 5 r.delay)) := fun hn => by
    rw [general_field (P := fun v => PositiveNumber 14 (Spec.Xsd.trim v)) (by in_list fieldValue) (by decide), radar_text h hn s3]
  have f4 : number 10 r.rmsDelay ≠ [] → (Field (c! "rmsDelay") (number 10 r.rmsDelay) ↔ PositiveNumber 6 (number 10 r.rmsDelay)) := fun hn => by
    rw [general_field (P := fun v => PositiveNumber 6 (Spec.Xsd.trim v)) (by in_list fieldValue) (by decide), radar_text h hn s4]
  have mem : ∀ {n t : Str}, t ≠ [] → (val n t).Sublist (r.values r.time) → (n, t) ∈ r.values r.time := fun ht hs => hs.subset (by rw [val_some ht]; simp)
  have pos_ne : ∀ {k : Nat} {t : Str}, PositiveNumber k t → t ≠ [] := by
    intro k t ht
    obtain ⟨n, h1, h2, -, h4, h5, -⟩ := ht
    exact signed_ne ⟨n, h1, h2, h4, h5⟩
  constructor
  · intro hv
    have fld : ∀ x ∈ r.values r.time, Field x.1 x.2 := fun x hx => record_field radar_plain radar_only hv hx (good x hx).1 (name_local hx)
    have n1 := node_needs radar_plain hv radar_named
    have n2 := node_needs radar_plain hv radar_measured
    have p1 := node_pairs radar_plain hv doppler_rms
    have p2 := node_pairs radar_plain hv rms_doppler
    have p3 := node_pairs radar_plain hv delay_rms
    have p4 := node_pairs radar_plain hv rms_delay
    have a1 := node_apart radar_plain hv (by decide) doppler_delay
    rw [radar_tags] at n1 n2 p1 p2 p3 p4 a1
    rw [t1, t2] at p1 p2
    rw [t3, t4] at p3 p4
    rw [t1, t3] at a1
    refine ⟨radar_desig ?_, ?_, ?_, ?_, ?_, ?_⟩
    · obtain ⟨n, hn, hm⟩ := n1
      exact ⟨n, by simpa [or_assoc] using hn, hm⟩
    · exact (stn_field (n := c! "trx") h.trx.1 (by decide)).1 (fld (c! "trx", r.trx) (by simp [Radar.values]))
    · exact (stn_field (n := c! "rcv") h.rcv.1 (by decide)).1 (fld (c! "rcv", r.rcv) (by simp [Radar.values]))
    · by_cases hd : signedNumber 11 r.doppler = []
      · have hl : number 5 r.delay ≠ [] := by
          obtain ⟨n, hn, hm⟩ := n2
          simp only [Bool.or_eq_true, decide_eq_true_eq] at hn
          rcases hn with rfl | rfl
          · exact absurd hd (t1.1 hm)
          · exact t3.1 hm
        have hl' := p3 hl
        refine .inr ⟨(f3 hl).1 (fld _ (mem hl s3)), (f4 hl').1 (fld _ (mem hl' s4)), z1.1 hd, z2.1 ?_⟩
        by_cases e : number 11 r.rmsDoppler = []
        · exact e
        · exact absurd hd (p2 e)
      · have hd' := p1 hd
        have hl : number 5 r.delay = [] := by
          by_cases e : number 5 r.delay = []
          · exact e
          · exact absurd ⟨hd, e⟩ a1
        refine .inl ⟨(f1 hd).1 (fld _ (mem hd s1)), (f2 hd').1 (fld _ (mem hd' s2)), z3.1 hl, z4.1 ?_⟩
        by_cases e : number 10 r.rmsDelay = []
        · exact e
        · exact absurd hl (p4 e)
    · exact (radar_frq h).1 (fld (c! "frq", Spec.Mpc80.trim (withPoint 5 r.frq)) (by simp [Radar.values]))
    · by_cases hn : Spec.Mpc80.trim r.ref = []
      · simp [hn]
      · exact (radar_ref h hn).1 (fld (c! "ref", Spec.Mpc80.trim r.ref) (by
          unfold Radar.values
          rw [val_some hn]
          exact List.mem_append_right _ List.mem_cons_self))
  · intro s
    have hw : Matches S (.seq radarValue) ((val (c! "doppler") (signedNumber 11 r.doppler) ++ val (c! "rmsDoppler") (number 11 r.rmsDoppler) ++
        val (c! "delay") (number 5 r.delay) ++ val (c! "rmsDelay") (number 10 r.rmsDelay)).map L) := by
      rcases s.measured with ⟨k1, k2, k3, k4⟩ | ⟨k1, k2, k3, k4⟩
      · rw [val_some (signed_ne k1), val_some (pos_ne k2), z3.2 k3, z4.2 k4, val_nil, val_nil]
        exact doppler_word
      · rw [val_some (pos_ne k1), val_some (pos_ne k2), z1.2 k3, z2.2 k4, val_nil, val_nil]
        exact delay_word
    refine record_of radar_plain (radar_word h.desig s.named hw) fun x hx => ⟨(good x hx).1, ?_⟩
    have hid : ∀ x ∈ idVals r.desig, Field x.1 x.2 := id_fields h.desig h.noExt.1
    simp only [idVals, List.forall_mem_append, all_val] at hid
    revert x
    simp only [Radar.values, List.forall_mem_append, all_val, List.forall_mem_cons, List.not_mem_nil, false_imp_iff, implies_true, and_true]
    refine ⟨⟨⟨⟨⟨⟨⟨hid, (stn_field h.trx.1 (by decide)).2 s.trx, (stn_field h.rcv.1 (by decide)).2 s.rcv, radar_time h⟩, ?_⟩, ?_⟩, ?_⟩, ?_⟩, ?_, (radar_frq h).2 s.frq⟩, fun hn => (radar_ref h hn).2 s.ref⟩
    · intro hn
      rcases s.measured with ⟨k1, k2, k3, k4⟩ | ⟨k1, k2, k3, k4⟩
      · exact (f1 hn).2 k1
      · exact absurd (z1.2 k3) hn
    · intro hn
      rcases s.measured with ⟨k1, k2, k3, k4⟩ | ⟨k1, k2, k3, k4⟩
      · exact (f2 hn).2 k2
      · exact absurd (z2.2 k4) hn
    · intro hn
      rcases s.measured with ⟨k1, k2, k3, k4⟩ | ⟨k1, k2, k3, k4⟩
      · exact absurd (z3.2 k3) hn
      · exact (f3 hn).2 k1
    · intro hn
      rcases s.measured with ⟨k1, k2, k3, k4⟩ | ⟨k1, k2, k3, k4⟩
      · exact absurd (z4.2 k4) hn
      · exact (f4 hn).2 k2
    · cases r.com
      · exact sys_field (by decide)
      · exact sys_field (by decide)

end Verif.Checked
