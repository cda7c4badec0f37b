import Verif.Lemmas.BackNormal
import Verif.Props.Radar
/-
  Lemmas for C45: the lines written for radar elements.
-/
namespace Verif.ToMpc80
open Verif Verif.ToPsv Verif.Mpc80 Verif.PackUtil Verif.Spec.Mpc80 Verif.Xml
open Verif.Spec hiding Item Group fileText Group.lines contextElem

/-! ### numbers -/

theorem split_unique {a b a' b' : Str} (ha : '.' ∉ a) (ha' : '.' ∉ a') (h : a ++ '.' :: b = a' ++ '.' :: b') : a = a' ∧ b = b' := by
  have e1 := (takeWhile_dot (b := b) ha)
  have e2 := (takeWhile_dot (b := b') ha')
  rw [h] at e1
  have k1 := e1.1.symm.trans e2.1
  have k2 := e1.2.symm.trans e2.2
  exact ⟨k1, by simpa using k2⟩

/-- a number cut out of its columns is put back into the same columns -/
theorem point_restored {a b : Str} (ha : '.' ∉ a) (hb : '.' ∉ b) {w p : Nat} (hw : w = a.length + 1 + b.length) (hp : p = a.length + 1) :
    ∃ x y, applyPJ (trim (a ++ '.' :: b)) (w : Int) .D (p : Int) = .ok (a ++ '.' :: b, x, y) := by
  obtain ⟨i, j, e⟩ := trim_split (a ++ '.' :: b)
  have hm : '.' ∈ trim (a ++ '.' :: b) := by
    have : '.' ∈ List.replicate i ' ' ++ trim (a ++ '.' :: b) ++ List.replicate j ' ' := by rw [← e]; simp
    simpa [List.mem_replicate] using this
  obtain ⟨a', b', e', ha'⟩ := exists_split hm
  rw [e'] at e ⊢
  have e2 : a ++ '.' :: b = (List.replicate i ' ' ++ a') ++ '.' :: (b' ++ List.replicate j ' ') := by rw [e]; simp
  obtain ⟨k1, k2⟩ := split_unique ha (by simp [ha', List.mem_replicate]) e2
  have hb' : '.' ∉ b' := by intro h; exact hb (by rw [k2]; simp [h])
  have l1 : a.length = i + a'.length := by rw [k1]; simp
  have l2 : b.length = b'.length + j := by rw [k2]; simp
  rw [applyPJ_point ha' hb' _ _ (by omega)]
  refine ⟨_, _, congrArg Except.ok (Prod.ext ?_ rfl)⟩
  rw [e2]
  simp only [blanks]
  rw [show ((p : Int) - 1 - a'.length).toNat = i by omega, show ((w : Int) - max (p : Int) ((a'.length : Int) + 1) - b'.length).toNat = j by omega]
  simp

theorem cut_back {a b : Str} {k : Nat} (h : a.length = k) : cutPoint k (a ++ '.' :: b) = a ++ b := by
  unfold cutPoint
  have e1 : (a ++ '.' :: b).take k = a := by rw [← h, List.take_left]
  have e2 : (a ++ '.' :: b).drop (k + 1) = b := by
    have : (a ++ ['.']).length = k + 1 := by simp [h]
    rw [show a ++ '.' :: b = (a ++ ['.']) ++ b by simp, ← this, List.drop_left]
  rw [e1, e2]

theorem blanks_of {t : Str} (h : trim t = []) : t = List.replicate t.length ' ' := by
  obtain ⟨i, j, e⟩ := trim_split t
  rw [h, List.append_nil, List.replicate_append_replicate] at e
  have := congrArg List.length e
  simp at this
  rw [this]; exact e

theorem withPoint_eq (k : Nat) (t : Str) : withPoint k t = t.take k ++ '.' :: t.drop k := by simp [withPoint]

/-- columns of `w` characters with the point after `k` of them, if something stands there -/
theorem number_there {t : Str} {w k : Nat} (hl : t.length = w) (hk : k ≤ w) (hd : '.' ∉ t) :
    ∃ u x y, applyPJ (trim (withPoint k t)) ((w + 1 : Nat) : Int) .D ((k + 1 : Nat) : Int) = .ok (u, x, y) ∧ cutPoint k u = t := by
  have h1 : '.' ∉ t.take k := fun h => hd (List.mem_of_mem_take h)
  have h2 : '.' ∉ t.drop k := fun h => hd (List.mem_of_mem_drop h)
  rw [withPoint_eq]
  obtain ⟨x, y, e⟩ := point_restored h1 h2 (w := w + 1) (p := k + 1) (by simp [hl]; omega) (by simp [hl]; omega)
  exact ⟨_, x, y, e, by rw [cut_back (by simp [hl]; omega), List.take_append_drop]⟩

/-- the same, or nothing -/
theorem number_back {t : Str} {w k : Nat} (hl : t.length = w) (hk : k < w) (hd : '.' ∉ t) :
    ∃ u x y, applyPJ ((opt (number k t)).getD (List.replicate w ' ')) ((w + 1 : Nat) : Int) .D ((k + 1 : Nat) : Int) = .ok (u, x, y) ∧ cutPoint k u = t := by
  unfold number
  by_cases h : trim t = []
  · rw [if_pos h]
    refine ⟨_, _, _, applyPJ_nopoint (a := List.replicate w ' ') (by simp [List.mem_replicate]) _ _ (by omega), ?_⟩
    have e := blanks_of h
    simp only [blanks, List.length_replicate, cutPoint]
    rw [show (((k + 1 : Nat) : Int) - 1 - (w : Int)).toNat = 0 by omega, show (((w + 1 : Nat) : Int) - max ((k + 1 : Nat) : Int) ((w : Int) + 1) + 1).toNat = 1 by omega, e, hl]
    rw [List.replicate_zero, List.nil_append, List.replicate_append_replicate, List.take_replicate, List.drop_replicate, List.replicate_append_replicate]
    congr 1; omega
  · rw [if_neg h, opt_some (trim_point (point_in k t))]
    exact number_there hl (by omega) hd

/-! ### the Doppler shift -/

theorem char_cons (c : Char) (s : Str) : charAt (c :: s) 0 = .ok c := rfl

theorem unsigned_back {t : Str} (h : ∀ c ∈ t.head?, c ∉ c! "0123456789+-") (hn : t ≠ []) {u : Str} {x : Nat} {y : Int} (e : applyPJ t 16 .D 12 = .ok (u, x, y)) : unPackSigned t 16 12 = .ok u := by
  cases t with
  | nil => exact absurd rfl hn
  | cons c t =>
    have hc := h c (by simp)
    have h1 : (c! "0123456789").contains c = false := by
      rw [Bool.eq_false_iff]; intro k; refine hc ?_; have := List.contains_iff_mem.1 k; revert this; simp; grind
    have h2 : (c! "+-").contains c = false := by
      rw [Bool.eq_false_iff]; intro k; refine hc ?_; have := List.contains_iff_mem.1 k; revert this; simp; grind
    unfold unPackSigned
    rw [char_cons, Sex.okBind]
    simp only [h1, Bool.false_eq_true, if_false, h2, not_false_eq_true, if_true, e, Sex.okBind]
    rfl

theorem sign_back {s : Char} (hs : s = '+' ∨ s = '-') {t u : Str} {x : Nat} {y : Int} (e : applyPJ t 15 .D 11 = .ok (u, x, y)) : unPackSigned (s :: t) 16 12 = .ok (s :: u) := by
  have h1 : (c! "0123456789").contains s = false := by rcases hs with rfl | rfl <;> rfl
  have h2 : (c! "+-").contains s = true := by rcases hs with rfl | rfl <;> rfl
  unfold unPackSigned
  rw [char_cons, Sex.okBind]
  simp only [h1, Bool.false_eq_true, if_false, h2, not_true, List.drop_one, List.tail_cons]
  rw [show (16 : Int) - 1 = 15 from rfl, show (12 : Int) - 1 = 11 from rfl, e]
  rfl

theorem digit_back {c : Char} (hc : c ∈ c! "0123456789") {t u : Str} {x : Nat} {y : Int} (e : applyPJ (c :: t) 15 .D 11 = .ok (u, x, y)) : unPackSigned (c :: t) 16 12 = .ok ('+' :: u) := by
  have h1 : (c! "0123456789").contains c = true := List.contains_iff_mem.2 hc
  unfold unPackSigned
  rw [char_cons, Sex.okBind]
  simp only [h1, if_true]
  rw [show ((c! "+-").contains '+') = true from rfl]
  simp only [not_true, if_false, List.drop_one, List.tail_cons]
  rw [show (16 : Int) - 1 = 15 from rfl, show (12 : Int) - 1 = 11 from rfl, e]
  rfl

theorem doppler_back {r : Radar} (h : r.Valid) (hd : '.' ∉ r.doppler) :
    ∃ u, unPackSigned ((opt (signedNumber 11 r.doppler)).getD (List.replicate 15 ' ')) 16 12 = .ok u ∧ cutPoint 11 u = plusSign r.doppler := by
  obtain ⟨⟨l1, l2⟩, s, hs, l3⟩ := h.doppler
  generalize r.doppler = t at *
  cases t with
  | nil => simp at l3
  | cons c t =>
    have hc : c = s := by simpa using l3
    subst hc
    clear l3
    simp only [List.drop_one, List.tail_cons] at l1 l2
    simp only [List.mem_cons, not_or] at hd
    have hd2 := hd.2
    have h1 : '.' ∉ t.take 10 := fun h => hd2 (List.mem_of_mem_take h)
    have h2 : '.' ∉ t.drop 10 := fun h => hd2 (List.mem_of_mem_drop h)
    have lt : (t.take 10).length = 10 := by simp [l1]
    have ld : (t.drop 10).length = 4 := by simp [l1]
    have ew : (withPoint 11 (c :: t)).drop 1 = t.take 10 ++ '.' :: t.drop 10 := by simp [withPoint]
    have et : t.take 10 ++ t.drop 10 = t := List.take_append_drop _ _
    unfold signedNumber
    by_cases hb : trim (c :: t) = []
    · rw [if_pos hb]
      have e := blanks_of hb
      have hc : c = ' ' := by rw [List.length_cons, List.replicate_succ] at e; exact (List.cons.inj e).1
      refine ⟨_, unsigned_back (t := List.replicate 15 ' ') (by decide) (by decide) (applyPJ_nopoint (by decide) 16 12 (by decide)), ?_⟩
      have hp : plusSign (c :: t) = c :: t := by
        unfold plusSign
        rw [if_neg]
        rintro ⟨_, h⟩
        refine h ?_
        rw [e, List.length_cons, l1]; decide
      rw [hp, e, List.length_cons, l1]
      decide
    · rw [if_neg hb, ew]
      have hm : '.' ∈ t.take 10 ++ '.' :: t.drop 10 := by simp
      have hne : trim (t.take 10 ++ '.' :: t.drop 10) ≠ [] := trim_point hm
      rw [opt_some (by intro e; exact hne (List.append_eq_nil_iff.1 e).2), Option.getD_some, List.take_succ_cons, List.take_zero]
      have a15 := point_restored h1 h2 (w := 15) (p := 11) (by omega) (by omega)
      obtain ⟨x, y, a15⟩ := a15
      have cut : ∀ s : Char, cutPoint 11 (s :: (t.take 10 ++ '.' :: t.drop 10)) = s :: t := by
        intro s
        have := cut_back (a := s :: t.take 10) (b := t.drop 10) (k := 11) (by simp [lt])
        rw [List.cons_append] at this
        rw [this, List.cons_append, et]
      simp only [List.mem_cons, List.not_mem_nil, or_false] at hs
      by_cases hsp : c = ' '
      · subst hsp
        rw [show trim [' '] = [] from rfl, List.nil_append]
        by_cases ht : trim (t.take 10) = []
        · have e10 := blanks_of ht
          rw [lt] at e10
          have a16 := point_restored (a := ' ' :: t.take 10) (by simp [h1]) h2 (w := 16) (p := 12) (by simp; omega) (by simp; omega)
          obtain ⟨x, y, a16⟩ := a16
          rw [List.cons_append, trim_blank] at a16
          refine ⟨_, unsigned_back ?_ hne a16, ?_⟩
          · rw [e10]
            have e : trim (List.replicate 10 ' ' ++ '.' :: t.drop 10) = trim ('.' :: t.drop 10) := by
              show rtrim ((List.replicate 10 ' ' ++ '.' :: t.drop 10).dropWhile (· = ' ')) = _
              rw [drop_rep]; rfl
            rw [e]
            obtain ⟨i, j, e2⟩ := trim_split ('.' :: t.drop 10)
            cases hx : trim ('.' :: t.drop 10) with
            | nil => simp
            | cons z zs =>
              rw [hx] at e2
              cases i with
              | zero =>
                simp only [List.replicate_zero, List.nil_append, List.cons_append, List.cons.injEq] at e2
                intro c hc
                simp at hc
                rw [← hc, ← e2.1]; decide
              | succ i =>
                rw [List.replicate_succ] at e2
                simp at e2
          · have hp : plusSign (' ' :: t) = ' ' :: t := by
              unfold plusSign
              rw [if_neg]
              rintro ⟨_, h⟩
              refine h ?_
              rw [List.take_succ_cons, trim_blank, ht]
            rw [hp, cut]
        · have hp : plusSign (' ' :: t) = '+' :: t := by
            unfold plusSign
            rw [if_pos ⟨rfl, by rw [List.take_succ_cons, trim_blank]; exact ht⟩]
            rfl
          rw [hp]
          cases hx : trim (t.take 10 ++ '.' :: t.drop 10) with
          | nil => exact absurd hx hne
          | cons z zs =>
            have hz : z ∈ c! "0123456789" := by
              obtain ⟨i, j, e1⟩ := trim_split (t.take 10 ++ '.' :: t.drop 10)
              obtain ⟨i', j', e2⟩ := trim_split (t.take 10)
              have n1 := (trim_ends (t.take 10 ++ '.' :: t.drop 10)).1
              have n2 := (trim_ends (t.take 10)).1
              rw [hx] at e1 n1
              cases hy : trim (t.take 10) with
              | nil => exact absurd hy ht
              | cons q qs =>
                rw [hy] at e2 n2
                have f1 : (t.take 10 ++ '.' :: t.drop 10).dropWhile (· = ' ') = z :: (zs ++ List.replicate j ' ') := by
                  rw [e1, List.append_assoc, drop_rep, List.cons_append, drop_none]
                  simpa using n1
                have f2 : (t.take 10 ++ '.' :: t.drop 10).dropWhile (· = ' ') = q :: (qs ++ List.replicate j' ' ' ++ '.' :: t.drop 10) := by
                  conv => lhs; arg 2; arg 1; rw [e2]
                  rw [List.append_assoc, List.append_assoc, drop_rep, List.cons_append, drop_none]
                  · simp
                  · simpa using n2
                have hq : z = q := by rw [f1] at f2; exact (List.cons.inj f2).1
                have q1 : q ∈ t.take 10 := by rw [e2]; simp
                have q2 := l2 q (List.mem_of_mem_take q1)
                have q3 : q ≠ ' ' := n2 q (by simp)
                have q4 : q ≠ '.' := fun e => h1 (e ▸ q1)
                rw [hq]
                clear * - q2 q3 q4
                revert q2 q3 q4
                simp
                grind
            rw [hx] at a15
            exact ⟨_, digit_back hz a15, cut _⟩
      · have hp : plusSign (c :: t) = c :: t := by
          unfold plusSign
          rw [if_neg]
          rintro ⟨h, _⟩
          exact hsp (by simpa using h)
        rw [hp, trim_one, if_neg hsp, List.cons_append, List.nil_append]
        exact ⟨_, sign_back (hs.resolve_left hsp) a15, cut _⟩

/-! ### the dictionary -/

theorem radar_time (r : Radar) : strip r.time = r.time := by
  refine nospace_strip fun c hc => ?_
  simp only [Radar.time, isoTime, List.mem_append, List.mem_cons, List.not_mem_nil, or_false] at hc
  have hd := fun n h => dec_nospace n c h
  have hf := fun k n h => fixed_nospace k n c h
  rcases hc with ((((((((((hc | rfl) | hc) | rfl) | hc) | rfl) | hc) | rfl) | hc) | rfl) | hc) | rfl
  all_goals first | exact hd _ hc | exact hf _ _ hc | rfl

theorem radar_good {r : Radar} (h : r.Valid) : Good (r.values r.time) := by
  obtain ⟨d1, d2, d3⟩ := desig_strip h.desig
  have ht : strip r.time = r.time := radar_time r
  have n1 : r.time ≠ [] := by simp [Radar.time, isoTime]
  have n2 : r.trx ≠ [] := by intro e; have := h.trx.1; rw [e] at this; simp at this
  have n3 : r.rcv ≠ [] := by intro e; have := h.rcv.1; rw [e] at this; simp at this
  have hn : ∀ {w k : Nat} {t : Str}, Digits w t → strip (number k t) = number k t := by
    intro w k t hd
    unfold number
    split
    · rfl
    · exact trim_strip (withPoint_plain (digits_plain hd) k)
  have hs : strip (signedNumber 11 r.doppler) = signedNumber 11 r.doppler := (shown_str _).symm.trans (signed_shown h)
  unfold Radar.values
  refine ((((((((((Good.val d1).app (.val d2)).app (.val (by rw [← d3, strip_idem]))).app (.cons n2 (nospace_strip h.trx.2) (.cons n3 (nospace_strip h.rcv.2) (.one n1 ht)))).app (.val hs)).app
    (.val (hn h.rmsDoppler))).app (.val (hn h.delay))).app (.val (hn h.rmsDelay))).app (.cons ?_ ?_ (.one ?_ ?_))).app (.val (trim_strip h.ref.2)))
  · cases r.com <;> decide
  · cases r.com <;> decide
  · exact trim_point (point_in 5 r.frq)
  · exact trim_strip (withPoint_plain (digits_plain h.frq) 5)

theorem radar_names (r : Radar) (time : Str) : ((r.values time).map (·.1)).Nodup := by
  have : ((r.values time).map (·.1)).Sublist [c! "permID", c! "provID", c! "trkSub", c! "trx", c! "rcv", c! "obsTime", c! "doppler", c! "rmsDoppler", c! "delay", c! "rmsDelay", c! "com", c! "frq", c! "ref"] := by
    unfold Radar.values
    simp only [List.map_append]
    exact (((((((((val_names _ _).append (val_names _ _)).append (val_names _ _)).append (List.Sublist.refl [c! "trx", c! "rcv", c! "obsTime"])).append (val_names _ _)).append (val_names _ _)).append
      (val_names _ _)).append (val_names _ _)).append (List.Sublist.refl [c! "com", c! "frq"])).append (val_names _ _)
  exact List.Nodup.sublist this (by decide)

theorem radar_dict {r : Radar} (h : r.Valid) : ToPsv.subDict r.elem = r.values r.time := by
  have hg := radar_good h
  have hk : r.elem.kids = (r.values r.time).map fun x => leafOf x.1 x.2 := rfl
  have hl : ∀ x : Str × Str, x.2 ≠ [] → (leafOf x.1 x.2).text = some x.2 := fun x hx => by simp [leafOf, hx, Elem.text]
  have ht : ∀ x : Str × Str, (leafOf x.1 x.2).tag = x.1 := fun x => rfl
  have := ToPsv.subDict_aux r.elem.kids [] (by
    rw [hk]
    intro k hk'
    obtain ⟨x, hx, rfl⟩ := List.mem_map.1 hk'
    exact ⟨x.2, hl x (hg x hx).1, hg x hx⟩) (by
    rw [hk]
    simpa [Function.comp_def, ht] using radar_names r r.time)
  rw [ToPsv.subDict, this, List.nil_append, ToPsv.pairs, hk, List.map_map]
  conv => rhs; rw [← List.map_id (r.values r.time)]
  refine List.map_congr_left fun x hx => ?_
  simp [ht, hl x (hg x hx).1]

/-- what the dictionary of a radar element holds -/
structure RadarHolds (r : Radar) (d : Dict) : Prop where
  permID : dictGet d (c! "permID") = opt (r.desig.permText.getD [])
  provID : dictGet d (c! "provID") = opt (r.desig.provText.getD [])
  trkSub : dictGet d (c! "trkSub") = opt (r.desig.trkText.getD [])
  trx : dictGet d (c! "trx") = some r.trx
  rcv : dictGet d (c! "rcv") = some r.rcv
  obsTime : dictGet d (c! "obsTime") = some r.time
  doppler : dictGet d (c! "doppler") = opt (signedNumber 11 r.doppler)
  rmsDoppler : dictGet d (c! "rmsDoppler") = opt (number 11 r.rmsDoppler)
  delay : dictGet d (c! "delay") = opt (number 5 r.delay)
  rmsDelay : dictGet d (c! "rmsDelay") = opt (number 10 r.rmsDelay)
  com : dictGet d (c! "com") = some (if r.com then c! "1" else c! "0")
  frq : dictGet d (c! "frq") = some (trim (withPoint 5 r.frq))
  ref : dictGet d (c! "ref") = opt (trim r.ref)
  disc : dictGet d (c! "disc") = none
  notes : dictGet d (c! "notes") = none

theorem radar_holds (r : Radar) : RadarHolds r (r.values r.time) := by
  constructor
  all_goals
    unfold Radar.values
    simp only [get_append, get_cons, get_nil, get_val]
    simp

theorem radar_id {r : Radar} (h : r.Valid) {d : Dict} (hd : RadarHolds r d) : packTupleID ⟨dictGet d (c! "permID"), dictGet d (c! "provID"), dictGet d (c! "trkSub")⟩ = .ok r.desig.columns := by
  rw [hd.permID, hd.provID, hd.trkSub]
  have hp := pack_valid h.desig
  have e : (⟨opt (r.desig.permText.getD []), opt (r.desig.provText.getD []), opt (r.desig.trkText.getD [])⟩ : IDs) = ades r.desig := by
    have hv := h.desig
    cases hx : r.desig with
    | perm p => simp [ades, Designation.permText, Designation.provText, Designation.trkText, opt, perm_ne]
    | prov p => simp [ades, Designation.permText, Designation.provText, Designation.trkText, opt, prov_ne]
    | both p q => simp [ades, Designation.permText, Designation.provText, Designation.trkText, opt, prov_ne, perm_ne]
    | tracklet t =>
      rw [hx] at hv
      have : t ≠ [] := by rintro rfl; simp [Designation.Valid] at hv
      simp [ades, Designation.permText, Designation.provText, Designation.trkText, opt, this]
  simp only [e, hp]

/-! ### the date -/

theorem redated {r : Radar} (h : r.Valid) : ∃ d, r.Redated d ∧ Sex.isoToSexDate r.time (.int 1) = .ok d.column := by
  have o := Sex.Ok.of h.date
  have hw := h.whole.1
  have h31 := o.day31
  have hm' := o.hm'
  have hy := o.hy
  obtain ⟨f0, f1⟩ := Sex.strptime_whole (by omega) o.hy' o.hm o.hm' o.hd o.hd' hw
  obtain ⟨k, k1, k2⟩ := Sex.back_any (y := r.date.year) (m := r.date.month) (d := r.date.day) (w := nearestSecond r.date) (us := 0) (n := 6) (by omega) (by omega) hw (by omega) (by omega) o.hy' (by omega) (by omega)
  generalize hnw : nearestSecond r.date = w at *
  have wq : (w : ℚ) ≤ 86399 := by exact_mod_cast (by omega : w ≤ 86399)
  rw [abs_le] at k1
  have kq : (k : ℚ) < 1000000 := by
    have := k1.1
    push_cast at this
    linarith
  have kn : k < 1000000 := by exact_mod_cast kq
  have b1 : (w : ℤ) * 1000000 - 86400 * k ≤ 43200 := by
    have : ((w : ℚ) * 1000000 - 86400 * k) < 43201 := by
      have := k1.2
      push_cast at this
      linarith
    have : ((w : ℤ) * 1000000 - 86400 * k) < 43201 := by exact_mod_cast this
    omega
  have b2 : 86400 * (k : ℤ) - w * 1000000 ≤ 43200 := by
    have : (86400 * (k : ℚ) - (w : ℚ) * 1000000) < 43201 := by
      have := k1.1
      push_cast at this
      linarith
    have : (86400 * (k : ℤ) - (w : ℤ) * 1000000) < 43201 := by exact_mod_cast this
    omega
  refine ⟨⟨r.date.year, r.date.month, r.date.day, 6, k⟩, ⟨⟨rfl, rfl, rfl⟩, ⟨rfl, kn⟩, ?_⟩, ?_⟩
  · have c1 : (w : ℚ) * 1000000 - 86400 * k ≤ 43200 := by exact_mod_cast b1
    have c2 : 86400 * (k : ℚ) - w * 1000000 ≤ 43200 := by exact_mod_cast b2
    rw [hnw]
    constructor <;> (simp only; linarith)
  · rw [Radar.time, hnw, Sex.back_whole f0 f1]
    rw [Nat.add_zero, Nat.mod_eq_of_lt (show k < 10 ^ 6 from kn)] at k2
    exact k2

/-- a date with six digits comes back as it was -/
theorem redated_same {r : Radar} (h : r.Valid) (h6 : r.date.digits = 6) {d : ObsDate} (hd : r.Redated d) : d = r.date := by
  obtain ⟨_, w1, w2⟩ := h.whole
  have hn := hd.near
  have e : r.date.seconds = (r.date.frac : ℚ) * 86400 / 1000000 := by
    simp [ObsDate.seconds, h6]; ring
  rw [h6, e] at w1 w2
  push_cast at w1 w2
  have a1 : (86400 * d.frac : ℚ) - 86400 * r.date.frac < 86400 := by linarith [hn.2]
  have a2 : (86400 * r.date.frac : ℚ) - 86400 * d.frac < 86400 := by linarith [hn.1]
  have b1 : (86400 * d.frac : ℤ) - 86400 * r.date.frac < 86400 := by exact_mod_cast a1
  have b2 : (86400 * r.date.frac : ℤ) - 86400 * d.frac < 86400 := by exact_mod_cast a2
  have : d.frac = r.date.frac := by omega
  obtain ⟨y, m, dd, n, f⟩ := d
  obtain ⟨⟨h1, h2, h3⟩, ⟨h4, _⟩, _⟩ := hd
  simp only at h1 h2 h3 h4 this
  rw [h1, h2, h3, h4, this, ← h6]

/-! ### the lines -/

theorem radar_write {r : Radar} (h : r.Valid) (hp : '.' ∉ r.delay ∧ '.' ∉ r.doppler ∧ '.' ∉ r.frq ∧ '.' ∉ r.rmsDelay ∧ '.' ∉ r.rmsDoppler) (hne : trim r.ref ≠ []) {pr : Str}
    (hpr : packRef (trim r.ref) = .ok pr) {d : ObsDate} (hd : Sex.isoToSexDate r.time (.int 1) = .ok d.column) {D : Dict} (hD : RadarHolds r D) :
    radarLines D = .ok ((r.normal d).first, .ok (r.normal d).second) := by
  obtain ⟨p1, p2, p3, p4, p5⟩ := hp
  obtain ⟨u1, a1, a2⟩ := doppler_back h p2
  obtain ⟨u2, x2, y2, b1, b2⟩ := number_back h.rmsDoppler.1 (k := 11) (by omega) p5
  obtain ⟨u3, x3, y3, c1, c2⟩ := number_back h.delay.1 (k := 5) (by omega) p1
  obtain ⟨u4, x4, y4, d1, d2⟩ := number_back h.rmsDelay.1 (k := 10) (by omega) p4
  obtain ⟨u5, x5, y5, e1, e2⟩ := number_there h.frq.1 (k := 5) (by omega) p3
  unfold radarLines
  rw [radar_id h hD, Sex.okBind]
  simp only [hasKeyOrVal, hD.disc, hD.notes, hD.ref, hD.doppler, hD.rmsDoppler, hD.delay, hD.rmsDelay, hD.frq, hD.com, Option.getD_none, Option.getD_some]
  rw [item_of hD.obsTime, Sex.okBind, hd, Sex.okBind, opt_some hne, Option.getD_some, hpr, Sex.okBind, a1, Sex.okBind]
  rw [show applyPJ _ 16 .D 12 = _ from b1, Sex.okBind]
  simp only
  rw [show applyPJ _ 16 .D 6 = _ from c1, Sex.okBind]
  simp only
  rw [show applyPJ _ 15 .D 11 = _ from d1, Sex.okBind]
  simp only
  rw [show applyPJ _ 7 .D 6 = _ from e1, Sex.okBind]
  simp only
  rw [item_of hD.trx, Sex.okBind, item_of (hD.ref.trans (opt_some hne)), Sex.okBind, item_of hD.rcv, Sex.okBind]
  rw [a2, b2, c2, d2, e2]
  have hs : (if (if r.com then c! "1" else c! "0") = ['1'] then some 'C' else if (if r.com then c! "1" else c! "0") = ['0'] then some 'S' else none) = some (if r.com then 'C' else 'S') := by cases r.com <;> rfl
  rw [hs]
  simp only [pure, Except.pure, Radar.first, Radar.second, Radar.normal, List.append_assoc, List.cons_append, List.nil_append]
  rfl

/-- a radar observation is written as its normal form -/
theorem writes_radar {r : Radar} (h : r.Valid) (hp : '.' ∉ r.delay ∧ '.' ∉ r.doppler ∧ '.' ∉ r.frq ∧ '.' ∉ r.rmsDelay ∧ '.' ∉ r.rmsDoppler) (hne : trim r.ref ≠ []) {pr : Str}
    (hpr : packRef (trim r.ref) = .ok pr) (op : Opts) : ∃ d, r.Redated d ∧ Writes (printData op (r.elem.tag, ToPsv.subDict r.elem)) (r.normal d).lines := by
  obtain ⟨d, h1, h2⟩ := redated h
  refine ⟨d, h1, ?_⟩
  have ht : r.elem.tag = c! "radar" := rfl
  rw [radar_dict h, ht]
  unfold printData
  rw [if_neg (by simp), if_pos rfl]
  unfold printRadarLine
  refine writes_lift (radar_write h hp hne hpr h2 (radar_holds r)) ?_
  refine (writes_print _).seq (b := [(r.normal d).second]) ?_
  exact writes_lift rfl (writes_print _)

theorem restorable_ref {r : Radar} (hr : r.Restorable) : trim r.ref ≠ [] ∧ packRef (trim r.ref) = .ok (ljust 5 (trim r.ref)) :=
  ⟨by intro e; have := hr.ref.1; rw [e] at this; simp at this, packRef_other (Nat.le_of_eq hr.ref.1) hr.ref.2.1 hr.ref.2.2⟩

/-- without reference nothing is written -/
theorem radar_noref {r : Radar} (h : r.Valid) (hp : '.' ∉ r.delay ∧ '.' ∉ r.doppler ∧ '.' ∉ r.frq ∧ '.' ∉ r.rmsDelay ∧ '.' ∉ r.rmsDoppler) (hne : trim r.ref = []) (op : Opts) (s : Out) :
    printData op (r.elem.tag, ToPsv.subDict r.elem) s = .error .keyError s := by
  obtain ⟨p1, p2, p3, p4, p5⟩ := hp
  obtain ⟨d, _, hd⟩ := redated h
  have ht : r.elem.tag = c! "radar" := rfl
  have hD := radar_holds r
  rw [radar_dict h, ht]
  obtain ⟨u1, a1, a2⟩ := doppler_back h p2
  obtain ⟨u2, x2, y2, b1, b2⟩ := number_back h.rmsDoppler.1 (k := 11) (by omega) p5
  obtain ⟨u3, x3, y3, c1, c2⟩ := number_back h.delay.1 (k := 5) (by omega) p1
  obtain ⟨u4, x4, y4, d1, d2⟩ := number_back h.rmsDelay.1 (k := 10) (by omega) p4
  obtain ⟨u5, x5, y5, e1, e2⟩ := number_there h.frq.1 (k := 5) (by omega) p3
  have key : radarLines (r.values r.time) = .error .keyError := by
    have hg : Psv.getItem (r.values r.time) (c! "ref") = .error .keyError := by simp [Psv.getItem, hD.ref, hne, opt]
    unfold radarLines
    rw [radar_id h hD, Sex.okBind]
    simp only [hasKeyOrVal, hD.disc, hD.notes, hD.ref, hD.doppler, hD.rmsDoppler, hD.delay, hD.rmsDelay, hD.frq, hD.com, Option.getD_none, Option.getD_some]
    rw [item_of hD.obsTime, Sex.okBind, hd, Sex.okBind, opt_none hne, Option.getD_none, show packRef [' '] = .ok (c! "     ") by decide +kernel, Sex.okBind, a1, Sex.okBind]
    rw [show applyPJ _ 16 .D 12 = _ from b1, Sex.okBind]
    simp only
    rw [show applyPJ _ 16 .D 6 = _ from c1, Sex.okBind]
    simp only
    rw [show applyPJ _ 15 .D 11 = _ from d1, Sex.okBind]
    simp only
    rw [show applyPJ _ 7 .D 6 = _ from e1, Sex.okBind]
    simp only
    rw [item_of hD.trx, Sex.okBind, hg]
    rfl
  unfold printData
  rw [if_neg (by simp), if_pos rfl]
  unfold printRadarLine
  simp only [bind, EStateM.bind, lift, key]

/-! ### the parts of a split observation -/

theorem split_restorable {r : Radar} (h : r.Restorable) : ∀ x ∈ r.split, x.Restorable := by
  intro x hx
  unfold Radar.split at hx
  have hb : ∀ {n m : Nat} {t : Str}, '.' ∉ t → '.' ∉ List.replicate n ' ' ++ t.drop m ∧ '.' ∉ t.take m ++ List.replicate n ' ' := by
    intro n m t ht
    simp only [List.mem_append, List.mem_replicate, not_or]
    exact ⟨⟨by simp, fun h => ht (List.mem_of_mem_drop h)⟩, fun h => ht (List.mem_of_mem_take h), by simp⟩
  obtain ⟨p1, p2, p3, p4, p5⟩ := h.points
  split at hx
  · simp only [List.mem_cons, List.not_mem_nil, or_false] at hx
    rcases hx with rfl | rfl
    · exact ⟨⟨p1, (hb p2).1, p3, p4, (hb p5).1⟩, h.ref⟩
    · exact ⟨⟨(hb p1).2, p2, p3, (hb p4).2, p5⟩, h.ref⟩
  · simp only [List.mem_cons, List.not_mem_nil, or_false] at hx
    subst hx; exact h

/-! ### runs that end with an exception -/

/-- what has been done when the first blocks are read: their observations, but for those of the last one, are written -/
theorem children_prefix {tabs : Master.Tables} (ht : TabsOk tabs) {op : Opts} (rest : List Elem) : ∀ {bs : List (List (Str × Str) × List Elem × List Str)} {last : Option Str} {s : Out} {L0 : List Str},
    (∀ b ∈ bs, (∀ h ∈ b.1, Plain h.2) ∧ (∃ tag ∈ dataTags, ∀ e ∈ b.2.1, e.tag = tag) ∧ b.2.1 ≠ [] ∧ Writes (each (printData op) (b.2.1.map fun e => (e.tag, subDict e))) b.2.2) →
    Writes (each (printData op) s.dataDicts) L0 →
    ∃ s' last' L, processChildren op tabs last (bs.map (fun b => (Block.mk b.1 b.2.1).elem) ++ rest) s = processChildren op tabs last' rest s' ∧
      Writes (each (printData op) s'.dataDicts) L ∧ s'.out ++ L = s.out ++ L0 ++ bs.flatMap (blockLines op) ∧ s'.msgs = s.msgs
  | [], last, s, L0, _, h0 => ⟨s, last, L0, rfl, h0, by simp, rfl⟩
  | b :: bs, last, s, L0, h, h0 => by
    obtain ⟨l, a1, a2⟩ := ht.ades
    obtain ⟨b1, b2, b3, b4⟩ := h b (by simp)
    have t1 : (Block.mk b.1 b.2.1).elem.tag = c! "obsBlock" := rfl
    obtain ⟨s', last', L, k1, k2, k3, k4⟩ := children_prefix ht rest (bs := bs) (last := some (c! "obsBlock"))
      (s := ⟨b.2.1.map fun e => (e.tag, subDict e), s.out ++ L0 ++ (if op.noHeader then [] else (normalHeaders b.1).map headLine), s.msgs⟩) (fun x hx => h x (by simp [hx])) b4
    refine ⟨s', last', L, ?_, k2, ?_, k4⟩
    · rw [← k1, List.map_cons, List.cons_append]
      rw [processChildren, bindW (liftW (item_of a1)), if_neg (by rw [t1]; exact fun h => h a2), if_pos t1, bindW (printDicts_back h0), bindW (block_back ht b1 b2 b3 _)]
    · rw [k3]
      simp [blockLines, List.append_assoc]

theorem raiseW {α β : Type} {m : W α} {f : α → W β} {s s' : Out} {e : PyErr} (h : m s = .error e s') : (m >>= f) s = .error e s' := by
  simp [bind, EStateM.bind, h]

/-- observations of two kinds in one block -/
theorem obsData_mixed {tabs : Master.Tables} {tag : Str} (ha : ∃ l, dictGet tabs.allowed (c! "obsData") = some l ∧ tag ∈ l) {e : Elem} (he : e.tag ≠ tag) {rest : List Elem} :
    ∀ {es : List Elem} {t : Option Str} (s : Out), (∀ x ∈ es, x.tag = tag) → (t = none ∨ t = some tag) → es ≠ [] ∨ t ≠ none →
    ∃ s', processObsData tabs t (es ++ e :: rest) s = .error .runtimeError s' ∧ s'.out = s.out ∧ s'.msgs = s.msgs
  | [], t, s, _, ht, hn => by
    have : t = some tag := by
      rcases ht with h | h
      · simp [h] at hn
      · exact h
    subst this
    refine ⟨s, ?_, rfl, rfl⟩
    rw [List.nil_append, processObsData, if_pos he]
    rfl
  | x :: es, t, s, h, ht, _ => by
    obtain ⟨l, a1, a2⟩ := ha
    have hx := h x (by simp)
    have ih := fun s => obsData_mixed ⟨l, a1, a2⟩ he (rest := rest) (es := es) (t := some tag) s (fun x hx => h x (by simp [hx])) (Or.inr rfl) (Or.inr (by simp))
    rcases ht with rfl | rfl
    · rw [List.cons_append, processObsData]
      simp only [bind, EStateM.bind, lift, item_of a1, hx, a2, not_true, if_false]
      simp only [processDataElement, modify, modifyGet, MonadStateOf.modifyGet, EStateM.modifyGet]
      exact ih _
    · rw [List.cons_append, processObsData]
      simp only [hx, ne_eq, not_true, if_false, bind, EStateM.bind]
      simp only [processDataElement, modify, modifyGet, MonadStateOf.modifyGet, EStateM.modifyGet]
      exact ih _

theorem block_mixed {tabs : Master.Tables} (ht : TabsOk tabs) {op : Opts} {hs : List (Str × Str)} {es rest : List Elem} {e : Elem} (hp : ∀ h ∈ hs, Plain h.2) {tag : Str} (hg : tag ∈ dataTags)
    (he : ∀ e ∈ es, e.tag = tag) (hn : es ≠ []) (hx : e.tag ≠ tag) (s : Out) :
    ∃ s', processObsBlock op tabs none (Block.mk hs (es ++ e :: rest)).elem.kids s = .error .runtimeError s' ∧
      s'.out = s.out ++ (if op.noHeader then [] else (normalHeaders hs).map headLine) ∧ s'.msgs = s.msgs := by
  obtain ⟨l, b1, b2, b3⟩ := ht.block
  have hk : (Block.mk hs (es ++ e :: rest)).elem.kids = [contextElem hs, nodeOf (c! "obsData") (es ++ e :: rest)] := rfl
  have t1 : (contextElem hs).tag = c! "obsContext" := rfl
  have t2 : (nodeOf (c! "obsData") (es ++ e :: rest)).tag = c! "obsData" := rfl
  have hd : ∀ s : Out, ∃ s', processObsBlock op tabs none [nodeOf (c! "obsData") (es ++ e :: rest)] s = .error .runtimeError s' ∧ s'.out = s.out ∧ s'.msgs = s.msgs := by
    intro s
    obtain ⟨s', m1, m2, m3⟩ := obsData_mixed (ht.data tag hg) hx (rest := rest) s he (Or.inl rfl) (Or.inl hn)
    refine ⟨s', ?_, m2, m3⟩
    unfold processObsBlock
    rw [bindW (liftW (item_of b1)), if_neg (by rw [t2]; exact fun h => h b3), if_neg (by rw [t2]; simp), if_pos t2, kids_node, raiseW m1]
  rw [hk]
  unfold processObsBlock
  rw [bindW (liftW (item_of b1)), if_neg (by rw [t1]; exact fun h => h b2)]
  by_cases hh : op.noHeader = true
  · rw [if_neg (by simp [hh]), if_neg (by rw [t1]; decide)]
    obtain ⟨s', m1, m2, m3⟩ := hd s
    exact ⟨s', m1, by simp [m2, hh], m3⟩
  · have hw : Writes (processObsContext (contextElem hs)) ((normalHeaders hs).map headLine) := by
      unfold processObsContext
      rw [context_back hp]
      have := writes_each (f := print) (l := (normalHeaders hs).map headLine) (g := fun x => [x]) fun x _ => writes_print x
      simpa using this
    rw [if_pos ⟨t1, by simpa using hh⟩, bindW (hw s)]
    obtain ⟨s', m1, m2, m3⟩ := hd { s with out := s.out ++ (normalHeaders hs).map headLine }
    exact ⟨s', m1, by simp [m2, hh], m3⟩

/-- a document one of whose blocks has observations of two kinds -/
theorem document_mixed {tabs : Master.Tables} (ht : TabsOk tabs) {op : Opts} {bs : List (List (Str × Str) × List Elem × List Str)}
    (h : ∀ b ∈ bs, (∀ h ∈ b.1, Plain h.2) ∧ (∃ tag ∈ dataTags, ∀ e ∈ b.2.1, e.tag = tag) ∧ b.2.1 ≠ [] ∧ Writes (each (printData op) (b.2.1.map fun e => (e.tag, subDict e))) b.2.2)
    {hs : List (Str × Str)} {es rest : List Elem} {e : Elem} (hp : ∀ h ∈ hs, Plain h.2) {tag : Str} (hg : tag ∈ dataTags) (he : ∀ e ∈ es, e.tag = tag) (hn : es ≠ []) (hx : e.tag ≠ tag) (more : List Elem) :
    xmltompc80col op tabs (adesDoc (bs.map (fun b => (Block.mk b.1 b.2.1).elem) ++ (Block.mk hs (es ++ e :: rest)).elem :: more)) =
      ⟨bs.flatMap (blockLines op) ++ (if op.noHeader then [] else (normalHeaders hs).map headLine), [], some .runtimeError⟩ := by
  obtain ⟨s', last', L, k1, k2, k3, k4⟩ := children_prefix ht ((Block.mk hs (es ++ e :: rest)).elem :: more) (last := none) (s := ⟨[], [], []⟩) (L0 := []) h writes_nil
  obtain ⟨l, a1, a2⟩ := ht.ades
  obtain ⟨s2, m1, m2, m3⟩ := block_mixed ht (op := op) hp hg he hn hx (rest := rest) { s' with out := s'.out ++ L }
  have t1 : (Block.mk hs (es ++ e :: rest)).elem.tag = c! "obsBlock" := rfl
  have hr : processChildren op tabs last' ((Block.mk hs (es ++ e :: rest)).elem :: more) s' = .error .runtimeError s2 := by
    rw [processChildren, bindW (liftW (item_of a1)), if_neg (by rw [t1]; exact fun h => h a2), if_pos t1, bindW (printDicts_back k2), raiseW m1]
  have e2 : processAdesElement op tabs (adesDoc (bs.map (fun b => (Block.mk b.1 b.2.1).elem) ++ (Block.mk hs (es ++ e :: rest)).elem :: more)) ⟨[], [], []⟩ = .error .runtimeError s2 := by
    unfold processAdesElement
    rw [if_neg (by simp [adesDoc, Elem.tag]), bindW (m := modify fun s => { s with dataDicts := [] }) (a := ()) (s' := ⟨[], [], []⟩) rfl]
    refine raiseW ?_
    exact (k1.trans hr)
  unfold xmltompc80col
  rw [e2]
  have q : s2.out = bs.flatMap (blockLines op) ++ (if op.noHeader then [] else (normalHeaders hs).map headLine) := by
    rw [m2]; simp only; rw [k3]; rfl
  have q2 : s2.msgs = [] := by rw [m3, k4]
  simp only [q, q2]

/-- a document with an observation at which writing stops -/
theorem document_stopped {tabs : Master.Tables} (ht : TabsOk tabs) {op : Opts} {bs : List (List (Str × Str) × List Elem × List Str)}
    (h : ∀ b ∈ bs, (∀ h ∈ b.1, Plain h.2) ∧ (∃ tag ∈ dataTags, ∀ e ∈ b.2.1, e.tag = tag) ∧ b.2.1 ≠ [] ∧ Writes (each (printData op) (b.2.1.map fun e => (e.tag, subDict e))) b.2.2)
    {hs : List (Str × Str)} {es rest : List Elem} {e : Elem} (hp : ∀ h ∈ hs, Plain h.2) (he : ∃ tag ∈ dataTags, ∀ x ∈ es ++ e :: rest, x.tag = tag) {ls : List Str}
    (hw : Writes (each (printData op) (es.map fun e => (e.tag, subDict e))) ls) {er : PyErr} (hx : ∀ s, printData op (e.tag, subDict e) s = .error er s)
    (more : List (List (Str × Str) × List Elem)) :
    xmltompc80col op tabs (adesDoc (bs.map (fun b => (Block.mk b.1 b.2.1).elem) ++ (Block.mk hs (es ++ e :: rest)).elem :: more.map (fun b => (Block.mk b.1 b.2).elem))) =
      ⟨bs.flatMap (blockLines op) ++ (if op.noHeader then [] else (normalHeaders hs).map headLine) ++ ls, [], some er⟩ := by
  obtain ⟨s', last', L, k1, k2, k3, k4⟩ := children_prefix ht ((Block.mk hs (es ++ e :: rest)).elem :: more.map (fun b => (Block.mk b.1 b.2).elem)) (last := none) (s := ⟨[], [], []⟩) (L0 := []) h writes_nil
  obtain ⟨l, a1, a2⟩ := ht.ades
  have t1 : ∀ hs es, (Block.mk hs es).elem.tag = c! "obsBlock" := fun _ _ => rfl
  have hstop : ∀ (l : List Elem) (ls : List Str), Writes (each (printData op) (l.map fun e => (e.tag, subDict e))) ls → ∀ s, each (printData op) ((l ++ e :: rest).map fun e => (e.tag, subDict e)) s = .error er { s with out := s.out ++ ls } := by
    clear hw
    intro l ls hw s
    have : ∀ (a b : List (Str × Dict)) (s : Out), each (printData op) (a ++ b) s = (each (printData op) a >>= fun _ => each (printData op) b) s := by
      intro a
      induction a with
      | nil => intro b s; rfl
      | cons x a ih =>
        intro b s
        rw [List.cons_append, each, each, bind_assoc]
        simp only [bind, EStateM.bind]
        cases printData op x s with
        | ok u s1 => simp only; rw [ih]; rfl
        | error e' s1 => rfl
    rw [List.map_append, this, bindW (hw s), List.map_cons, each]
    exact raiseW (hx _)
  generalize hS : (⟨(es ++ e :: rest).map fun e => (e.tag, subDict e), s'.out ++ L ++ (if op.noHeader then [] else (normalHeaders hs).map headLine), s'.msgs⟩ : Out) = S
  have hpd : printDataDicts op S = .error er { S with out := S.out ++ ls } := by
    simp only [printDataDicts, bind, EStateM.bind, get, getThe, MonadStateOf.get, EStateM.get]
    rw [← hS]
    exact hstop es ls hw _
  have hr : (processChildren op tabs last' ((Block.mk hs (es ++ e :: rest)).elem :: more.map (fun b => (Block.mk b.1 b.2).elem)) >>= fun _ => printDataDicts op) s' = .error er { S with out := S.out ++ ls } := by
    rw [processChildren, bind_assoc, bindW (liftW (item_of a1)), if_neg (by rw [t1]; exact fun h => h a2), if_pos (t1 _ _), bind_assoc, bindW (printDicts_back k2), bind_assoc,
      bindW (block_back ht hp he (by simp) _)]
    simp only
    rw [hS]
    cases more with
    | nil =>
      simp only [List.map_nil, processChildren, pure_bind]
      exact hpd
    | cons b more =>
      rw [List.map_cons, processChildren, bind_assoc, bindW (liftW (item_of a1)), if_neg (by rw [t1]; exact fun h => h a2), if_pos (t1 _ _), bind_assoc, raiseW hpd]
  have e2 : processAdesElement op tabs (adesDoc (bs.map (fun b => (Block.mk b.1 b.2.1).elem) ++ (Block.mk hs (es ++ e :: rest)).elem :: more.map (fun b => (Block.mk b.1 b.2).elem))) ⟨[], [], []⟩ =
      .error er { S with out := S.out ++ ls } := by
    unfold processAdesElement
    rw [if_neg (by simp [adesDoc, Elem.tag]), bindW (m := modify fun s => { s with dataDicts := [] }) (a := ()) (s' := ⟨[], [], []⟩) rfl, ← hr]
    have : ∀ {x : W Unit} {y : W Unit} {f : Unit → W Unit} {s t : Out}, x s = y t → (x >>= f) s = (y >>= f) t := by
      intro x y f s t h
      simp [bind, EStateM.bind, h]
    exact this k1
  unfold xmltompc80col
  rw [e2]
  have q : S.out = bs.flatMap (blockLines op) ++ (if op.noHeader then [] else (normalHeaders hs).map headLine) := by
    rw [← hS]; simp only; rw [k3]; rfl
  have q2 : S.msgs = [] := by rw [← hS]; exact k4
  simp only [q, q2]

end Verif.ToMpc80
