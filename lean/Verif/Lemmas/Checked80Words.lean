import Verif.Lemmas.Checked80Bounds
/-!
  Lemmas.Checked80Words : the elements of observations come in the order of the schema.
-/
namespace Verif.Checked
open Verif.Xml Verif.Spec Verif.Check Verif.Xsd Verif.Fields Verif.Submission Verif.PackUtil Verif.Mpc80
open Verif.Spec.Mpc80 (leafOf nodeOf val Optical RefCols modeOf catName precText progText bandText)

def L (x : Str × Str) : Letter' := letter x.1

theorem seq_skip {p : Particle} {ps : List Particle} {w : List Letter'} (h : p.opt = true) (h' : Matches S (.seq ps) w) : Matches S (.seq (p :: ps)) w := Matches.cons (w := []) (.skip h) h'
theorem seq_ref {n : Str} {o m : Bool} {ps : List Particle} {w : List Letter'} (h : (lookup S.elements n).isSome = true) (h' : Matches S (.seq ps) w) :
    Matches S (.seq (.elemRef n o m :: ps)) (letter n :: w) := Matches.cons (part_one h) h'
theorem seq_val {n t : Str} {m : Bool} {ps : List Particle} {w : List Letter'} (h : (lookup S.elements n).isSome = true) (h' : Matches S (.seq ps) w) :
    Matches S (.seq (.elemRef n true m :: ps)) ((val n t).map L ++ w) := Matches.cons (part_val h) h'
theorem seq_alone {m : Bool} {ps : List Particle} {w : List Letter'} (h : Matches S (.seq ps) w) : Matches S (.seq [.seq m ps]) w := by
  have := Matches.cons (S := S) (.once (.sequence (m := m) h)) .nil
  rwa [List.append_nil] at this
theorem seq_group {n : Str} {o m : Bool} {ps qs : List Particle} {w w' : List Letter'} (h : lookup S.groups n = some qs) (hq : Matches S (.seq qs) w) (h' : Matches S (.seq ps) w') :
    Matches S (.seq (.groupRef n o m :: ps)) (w ++ w') := Matches.cons (.once (.group h hq)) h'
theorem part_choice {m : Bool} {ps : List Particle} {p : Particle} {w : List Letter'} (hp : p ∈ ps) (h : Matches S (.part p) w) : Matches S (.part (.choice m ps)) w := .once (.choice hp h)
theorem part_seq {m : Bool} {ps : List Particle} {w : List Letter'} (h : Matches S (.seq ps) w) : Matches S (.part (.seq m ps)) w := .once (.sequence h)

/-! ### designations -/

theorem perm_ne (p : Perm) : p.text ≠ [] := by
  have : ∀ n, Spec.dec n ≠ [] := fun n e => by have := dec_pos n; simp [e] at this
  cases p <;> simp [Perm.text, this]
theorem prov_ne (q : Prov) : q.text ≠ [] := by
  cases q <;> simp [Prov.text]
theorem trk_ne {t : Str} (h : (Designation.tracklet t).Valid) : t ≠ [] := by
  intro e; have := h.1; simp [e] at this

/-- names of the values that identify the object -/
def idNames : Designation → List Str
  | .perm _ => [c! "permID"]
  | .prov _ => [c! "provID"]
  | .both _ _ => [c! "permID", c! "provID"]
  | .tracklet _ => [c! "trkSub"]

def idVals (d : Designation) : List (Str × Str) := val (c! "permID") (d.permText.getD []) ++ val (c! "provID") (d.provText.getD []) ++ val (c! "trkSub") (d.trkText.getD [])

theorem val_nil (n : Str) : val n [] = [] := by simp [val]
theorem val_some {n t : Str} (h : t ≠ []) : val n t = [(n, t)] := by simp [val, h]

theorem id_vals {d : Designation} (h : d.Valid) : (idVals d).map L = (idNames d).map letter := by
  cases d with
  | perm p => simp [idVals, Designation.permText, Designation.provText, Designation.trkText, val_nil, val_some (perm_ne p), idNames, L]
  | prov q => simp [idVals, Designation.permText, Designation.provText, Designation.trkText, val_nil, val_some (prov_ne q), idNames, L]
  | both p q => simp [idVals, Designation.permText, Designation.provText, Designation.trkText, val_nil, val_some (perm_ne p), val_some (prov_ne q), idNames, L]
  | tracklet t => simp [idVals, Designation.permText, Designation.provText, Designation.trkText, val_nil, val_some (trk_ne h), idNames, L]

def mpcId : List Particle := [.choice false [.seq false [.elemRef (c! "permID") false false, .elemRef (c! "provID") true false], .seq false [.elemRef (c! "provID") false false], .seq false [.elemRef (c! "artSat") false false]]]
def opticalId : List Particle := [.seq false [.choice false [.seq false [.groupRef (c! "MPCID") false false, .elemRef (c! "trkSub") true false], .seq false [.elemRef (c! "trkSub") false false]],
  .elemRef (c! "obsID") true false, .elemRef (c! "obsSubID") true false, .elemRef (c! "trkID") true false, .elemRef (c! "trkMPC") true false]]
def radarId : List Particle := [.seq false [.groupRef (c! "MPCID") false false, .elemRef (c! "trkSub") true false, .elemRef (c! "obsID") true false]]

theorem mpcId_eq : lookup S.groups (c! "MPCID") = some mpcId := by kernel_rfl
theorem opticalId_eq : lookup S.groups (c! "OpticalID") = some opticalId := by kernel_rfl
theorem radarId_eq : lookup S.groups (c! "RadarID") = some radarId := by kernel_rfl

theorem has_permID : (lookup S.elements (c! "permID")).isSome = true := by decide +kernel
theorem has_provID : (lookup S.elements (c! "provID")).isSome = true := by decide +kernel
theorem has_trkSub : (lookup S.elements (c! "trkSub")).isSome = true := by decide +kernel

theorem mpcId_word {d : Designation} (h : ∀ t, d ≠ .tracklet t) : Matches S (.seq mpcId) ((idNames d).map letter) := by
  have go : ∀ {w : List Letter'}, Matches S (.part (.choice false [.seq false [.elemRef (c! "permID") false false, .elemRef (c! "provID") true false], .seq false [.elemRef (c! "provID") false false],
      .seq false [.elemRef (c! "artSat") false false]])) w → Matches S (.seq mpcId) w := by
    intro w h
    have := Matches.cons h (Matches.nil (S := S))
    rwa [List.append_nil] at this
  cases d with
  | perm p => exact go (part_choice List.mem_cons_self (part_seq (seq_ref has_permID (seq_skip rfl .nil))))
  | prov q => exact go (part_choice (List.mem_cons_of_mem _ List.mem_cons_self) (part_seq (seq_ref has_provID .nil)))
  | both p q => exact go (part_choice List.mem_cons_self (part_seq (seq_ref has_permID (seq_ref has_provID .nil))))
  | tracklet t => exact absurd rfl (h t)

theorem opticalId_word (d : Designation) : Matches S (.seq opticalId) ((idNames d).map letter) := by
  unfold opticalId
  refine seq_alone ?_
  have tail : Matches S (.seq [.elemRef (c! "obsID") true false, .elemRef (c! "obsSubID") true false, .elemRef (c! "trkID") true false, .elemRef (c! "trkMPC") true false]) [] :=
    seq_skip rfl (seq_skip rfl (seq_skip rfl (seq_skip rfl .nil)))
  rw [← List.append_nil (List.map letter (idNames d))]
  refine Matches.cons ?_ tail
  have go : (∀ t, d ≠ .tracklet t) → Matches S (.part (.choice false [.seq false [.groupRef (c! "MPCID") false false, .elemRef (c! "trkSub") true false], .seq false [.elemRef (c! "trkSub") false false]]))
      ((idNames d).map letter) := by
    intro h
    refine part_choice List.mem_cons_self (part_seq ?_)
    rw [← List.append_nil (List.map letter (idNames d))]
    exact seq_group mpcId_eq (mpcId_word h) (seq_skip rfl .nil)
  cases d with
  | perm p => exact go (by simp)
  | prov q => exact go (by simp)
  | both p q => exact go (by simp)
  | tracklet t => exact part_choice (List.mem_cons_of_mem _ List.mem_cons_self) (part_seq (seq_ref has_trkSub .nil))

theorem radarId_word {d : Designation} (h : ∀ t, d ≠ .tracklet t) : Matches S (.seq radarId) ((idNames d).map letter) := by
  unfold radarId
  refine seq_alone ?_
  rw [← List.append_nil (List.map letter (idNames d))]
  exact seq_group mpcId_eq (mpcId_word h) (seq_skip rfl (seq_skip rfl .nil))

/-! ### optical observations -/

def location : List Particle := [.seq false [.elemRef (c! "sys") false false, .elemRef (c! "ctr") false false, .elemRef (c! "pos1") false false, .elemRef (c! "pos2") false false, .elemRef (c! "pos3") false false,
  .elemRef (c! "vel1") true false, .elemRef (c! "vel2") true false, .elemRef (c! "vel3") true false, .elemRef (c! "posCov11") true false, .elemRef (c! "posCov12") true false, .elemRef (c! "posCov13") true false,
  .elemRef (c! "posCov22") true false, .elemRef (c! "posCov23") true false, .elemRef (c! "posCov33") true false]]
def photometry : List Particle := [.seq false [.elemRef (c! "mag") false false, .elemRef (c! "rmsMag") true false, .elemRef (c! "band") false false, .elemRef (c! "fltr") true false, .elemRef (c! "photCat") true false,
  .elemRef (c! "photAp") true false, .elemRef (c! "nucMag") true false]]
def precision : List Particle := [.seq false [.elemRef (c! "precTime") false false, .elemRef (c! "precRA") false false, .elemRef (c! "precDec") false false]]
def opticalContent : List Particle := [.groupRef (c! "OpticalID") false false, .elemRef (c! "mode") false false, .elemRef (c! "stn") false false, .groupRef (c! "Location") true false, .elemRef (c! "prog") true false,
  .elemRef (c! "obsTime") false false, .elemRef (c! "rmsTime") true false, .elemRef (c! "ra") false false, .elemRef (c! "dec") false false, .elemRef (c! "rmsRA") true false, .elemRef (c! "rmsDec") true false,
  .elemRef (c! "rmsCorr") true false, .elemRef (c! "astCat") false false, .groupRef (c! "Photometry") true false, .elemRef (c! "logSNR") true false, .elemRef (c! "seeing") true false, .elemRef (c! "exp") true false,
  .elemRef (c! "rmsFit") true false, .elemRef (c! "nStars") true false, .elemRef (c! "ref") true false, .elemRef (c! "disc") true false, .elemRef (c! "subFrm") true false, .elemRef (c! "subFmt") true false,
  .groupRef (c! "Precision") true false, .elemRef (c! "uncTime") true false, .elemRef (c! "notes") true false, .elemRef (c! "remarks") true false, .groupRef (c! "OpticalResiduals") true false,
  .elemRef (c! "deprecated") true false, .elemRef (c! "localUse") true false]

theorem location_eq : lookup S.groups (c! "Location") = some location := by kernel_rfl
theorem photometry_eq : lookup S.groups (c! "Photometry") = some photometry := by kernel_rfl
theorem precision_eq : lookup S.groups (c! "Precision") = some precision := by kernel_rfl
theorem optical_eq : contentOf (c! "OpticalType") = [.seq false opticalContent] := by kernel_rfl

theorem location_word : Matches S (.seq location) ([c! "sys", c! "ctr", c! "pos1", c! "pos2", c! "pos3"].map letter) :=
  seq_alone (seq_ref (by decide +kernel) (seq_ref (by decide +kernel) (seq_ref (by decide +kernel) (seq_ref (by decide +kernel) (seq_ref (by decide +kernel)
    (seq_skip rfl (seq_skip rfl (seq_skip rfl (seq_skip rfl (seq_skip rfl (seq_skip rfl (seq_skip rfl (seq_skip rfl (seq_skip rfl .nil))))))))))))))
theorem photometry_word : Matches S (.seq photometry) ([c! "mag", c! "band"].map letter) :=
  seq_alone (seq_ref (by decide +kernel) (seq_skip rfl (seq_ref (by decide +kernel) (seq_skip rfl (seq_skip rfl (seq_skip rfl (seq_skip rfl .nil)))))))
theorem precision_word : Matches S (.seq precision) ([c! "precTime", c! "precRA", c! "precDec"].map letter) :=
  seq_alone (seq_ref (by decide +kernel) (seq_ref (by decide +kernel) (seq_ref (by decide +kernel) .nil)))

theorem place_word {place : List (Str × Str)} (hp : place = [] ∨ place.map (·.1) = [c! "sys", c! "ctr", c! "pos1", c! "pos2", c! "pos3"]) : Matches S (.part (.groupRef (c! "Location") true false)) (place.map L) := by
  rcases hp with rfl | hp
  · exact .skip rfl
  · have : place.map L = [c! "sys", c! "ctr", c! "pos1", c! "pos2", c! "pos3"].map letter := by rw [← hp, List.map_map]; rfl
    rw [this]
    exact .once (.group location_eq location_word)

theorem mag_word (mag : Str) (band : Char) : Matches S (.part (.groupRef (c! "Photometry") true false)) ((val (c! "mag") (Spec.Mpc80.trim mag) ++ val (c! "band") (bandText mag band)).map L) := by
  by_cases h : Spec.Mpc80.trim mag = []
  · simp only [bandText, h, if_true, val_nil, List.append_nil, List.map_nil]
    exact .skip rfl
  · have hb : bandText mag band ≠ [] := by
      unfold bandText; rw [if_neg h]; split <;> simp
    rw [val_some h, val_some hb]
    exact .once (.group photometry_eq photometry_word)

theorem optical_word {o : Optical} (h : o.desig.Valid) {place : List (Str × Str)} (hp : place = [] ∨ place.map (·.1) = [c! "sys", c! "ctr", c! "pos1", c! "pos2", c! "pos3"]) {time ra dec : Str} :
    Matches S (.seq (contentOf (c! "OpticalType"))) ((o.values place time ra dec).map L) := by
  rw [optical_eq]
  refine seq_alone ?_
  have e : (o.values place time ra dec).map L = (idNames o.desig).map letter ++ (letter (c! "mode") :: letter (c! "stn") :: (place.map L ++
      ((val (c! "prog") (if o.usesPrograms ∧ o.note ≠ ' ' then progText o.note else [])).map L ++ (letter (c! "obsTime") :: letter (c! "ra") :: letter (c! "dec") :: letter (c! "astCat") ::
      ((val (c! "mag") (Spec.Mpc80.trim o.mag) ++ val (c! "band") (bandText o.mag o.band)).map L ++ ((val (c! "ref") o.ref.text).map L ++ ((val (c! "disc") (Spec.Mpc80.trim [o.disc])).map L ++
      ((val (c! "subFrm") (if o.code = 'A' then c! "B1950.0" else [])).map L ++ (letter (c! "subFmt") :: ([c! "precTime", c! "precRA", c! "precDec"].map letter ++
      ((val (c! "notes") (if o.usesPrograms then [] else Spec.Mpc80.trim [o.note])).map L ++ (val (c! "deprecated") (if o.code = 'X' then c! "X" else [])).map L))))))))))) := by
    rw [← id_vals h]
    simp only [Optical.values, idVals, List.map_append, List.append_assoc, List.map_cons, List.map_nil, List.cons_append, List.nil_append, L]
  rw [e]
  unfold opticalContent
  refine seq_group opticalId_eq (opticalId_word _) (seq_ref (by decide +kernel) (seq_ref (by decide +kernel) (.cons (place_word hp) (seq_val (by decide +kernel) (seq_ref (by decide +kernel)
    (seq_skip rfl (seq_ref (by decide +kernel) (seq_ref (by decide +kernel) (seq_skip rfl (seq_skip rfl (seq_skip rfl (seq_ref (by decide +kernel) (.cons (mag_word _ _) (seq_skip rfl (seq_skip rfl (seq_skip rfl (seq_skip rfl
    (seq_skip rfl (seq_val (by decide +kernel) (seq_val (by decide +kernel) (seq_val (by decide +kernel) (seq_ref (by decide +kernel) (seq_group precision_eq precision_word (seq_skip rfl (seq_val (by decide +kernel)
    (seq_skip rfl (seq_skip rfl ?_)))))))))))))))))))))))))))
  have := seq_val (t := if o.code = 'X' then c! "X" else []) (m := false) (n := c! "deprecated") (by decide +kernel) (seq_skip (p := .elemRef (c! "localUse") true false) rfl Matches.nil)
  rwa [List.append_nil] at this

/-! ### radar observations -/

def radarValue : List Particle := [.choice false [.seq false [.elemRef (c! "doppler") false false, .elemRef (c! "rmsDoppler") false false], .seq false [.elemRef (c! "delay") false false, .elemRef (c! "rmsDelay") false false]]]
def radarContent : List Particle := [.groupRef (c! "RadarID") false false, .elemRef (c! "trx") false false, .elemRef (c! "rcv") false false, .elemRef (c! "prog") true false, .elemRef (c! "obsTime") false false,
  .groupRef (c! "RadarValue") false false, .elemRef (c! "logSNR") true false, .elemRef (c! "com") true false, .elemRef (c! "frq") false false, .elemRef (c! "ref") true false, .elemRef (c! "remarks") true false,
  .groupRef (c! "RadarResiduals") true false, .elemRef (c! "localUse") true false]
theorem radarValue_eq : lookup S.groups (c! "RadarValue") = some radarValue := by kernel_rfl
theorem radar_eq : contentOf (c! "RadarType") = [.seq false radarContent] := by kernel_rfl

theorem doppler_word : Matches S (.seq radarValue) ([c! "doppler", c! "rmsDoppler"].map letter) := by
  have := Matches.cons (part_choice (m := false) (ps := [.seq false [.elemRef (c! "doppler") false false, .elemRef (c! "rmsDoppler") false false], .seq false [.elemRef (c! "delay") false false, .elemRef (c! "rmsDelay") false false]])
    List.mem_cons_self (part_seq (seq_ref (by decide +kernel) (seq_ref (by decide +kernel) .nil)))) (Matches.nil (S := S))
  exact this
theorem delay_word : Matches S (.seq radarValue) ([c! "delay", c! "rmsDelay"].map letter) := by
  have := Matches.cons (part_choice (m := false) (ps := [.seq false [.elemRef (c! "doppler") false false, .elemRef (c! "rmsDoppler") false false], .seq false [.elemRef (c! "delay") false false, .elemRef (c! "rmsDelay") false false]])
    (List.mem_cons_of_mem _ List.mem_cons_self) (part_seq (seq_ref (by decide +kernel) (seq_ref (by decide +kernel) .nil)))) (Matches.nil (S := S))
  exact this

theorem radar_word {r : Spec.Mpc80.Radar} (h : r.desig.Valid) (hn : ∀ t, r.desig ≠ .tracklet t) {time : Str}
    (hm : Matches S (.seq radarValue) ((val (c! "doppler") (Spec.Mpc80.signedNumber 11 r.doppler) ++ val (c! "rmsDoppler") (Spec.Mpc80.number 11 r.rmsDoppler) ++
      val (c! "delay") (Spec.Mpc80.number 5 r.delay) ++ val (c! "rmsDelay") (Spec.Mpc80.number 10 r.rmsDelay)).map L)) :
    Matches S (.seq (contentOf (c! "RadarType"))) ((r.values time).map L) := by
  rw [radar_eq]
  refine seq_alone ?_
  have e : (r.values time).map L = (idNames r.desig).map letter ++ (letter (c! "trx") :: letter (c! "rcv") :: letter (c! "obsTime") ::
      ((val (c! "doppler") (Spec.Mpc80.signedNumber 11 r.doppler) ++ val (c! "rmsDoppler") (Spec.Mpc80.number 11 r.rmsDoppler) ++
      val (c! "delay") (Spec.Mpc80.number 5 r.delay) ++ val (c! "rmsDelay") (Spec.Mpc80.number 10 r.rmsDelay)).map L ++ (letter (c! "com") :: letter (c! "frq") :: ((val (c! "ref") (Spec.Mpc80.trim r.ref)).map L)))) := by
    rw [← id_vals h]
    simp only [Spec.Mpc80.Radar.values, idVals, List.map_append, List.append_assoc, List.map_cons, List.cons_append, List.nil_append, L]
  rw [e]
  unfold radarContent
  refine seq_group radarId_eq (radarId_word hn) (seq_ref (by decide +kernel) (seq_ref (by decide +kernel) (seq_skip rfl (seq_ref (by decide +kernel) (seq_group radarValue_eq hm (seq_skip rfl
    (seq_ref (by decide +kernel) (seq_ref (by decide +kernel) ?_))))))))
  have := seq_val (t := Spec.Mpc80.trim r.ref) (m := false) (n := c! "ref") (by decide +kernel) (seq_skip (p := .elemRef (c! "remarks") true false) rfl
    (seq_skip (p := .groupRef (c! "RadarResiduals") true false) rfl (seq_skip (p := .elemRef (c! "localUse") true false) rfl Matches.nil)))
  rwa [List.append_nil] at this

end Verif.Checked
