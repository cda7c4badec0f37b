import Verif.Lemmas.Submit80
/-!
  Lemmas for C51: a convertible observation of a valid submission is a writable one in the sense of C44.
-/
namespace Verif.Submit80
open Verif.Xml Verif.Master Verif.PackUtil Verif.Spec Verif.Spec.Mpc80 Verif.ToPsv Verif.ToMpc80 Verif.Psv Verif.Submission Verif.Fields
open Verif.Spec.Xsd (white)

variable {t : Str} {e : Elem}

macro "infields" : tactic => `(tactic| (unfold fieldValue; repeat (first | exact List.mem_cons_self | apply List.mem_cons_of_mem)))

theorem needed (h : Ok t e) {n : Str} {P : Str → Prop} (hp : (n, P) ∈ fieldValue) (hs : ∀ w, P w → strip w ≠ [])
    (hn : Check.needs submitSchema (· = n) 40 (.seq (contentOf (typeName t))) = true) : ∃ v, fieldOf e n = some v := by
  obtain ⟨k, hk, rfl⟩ := kid_needed h hn
  exact kid_field hk (hs _ ((C49_fields _ hp _).1 (field_doc h hk)))

theorem paired (h : Ok t e) {n m : Str} {P : Str → Prop} (hp : (m, P) ∈ fieldValue) (hs : ∀ w, P w → strip w ≠ [])
    (hn : Xsd.pairs submitSchema (· = n) (· = m) 40 (.seq (contentOf (typeName t))) = true) {v : Str} (hv : fieldOf e n = some v) : ∃ v, fieldOf e m = some v := by
  obtain ⟨k, hk, hkn, -, -⟩ := field_kid hv
  obtain ⟨j, hj, rfl⟩ := kid_paired h hn hk hkn
  exact kid_field hj (hs _ ((C49_fields _ hp _).1 (field_doc h hj)))

theorem code_filled {k m : Nat} {w : Str} (h : Code (k + 1) m w) : strip w ≠ [] := by
  rw [code_strip h]; intro e; rw [e] at h; exact absurd h.1 (by simp)

theorem text_ne {n : Numeral} (h : n.Valid) : n.text ≠ [] := by
  intro e
  unfold Numeral.text at e
  simp only [List.append_eq_nil_iff] at e
  rcases h.2.2.2 with h | h
  · exact h e.1.2
  · cases hf : n.frac with
    | none => rw [hf] at h; exact h rfl
    | some f => rw [hf] at e; cases e.2

theorem numeral_filled {w : Str} {n : Numeral} (h : n.Valid) (hw : Spec.Xsd.trim w = n.text) : strip w ≠ [] := by
  rw [strip_numeral h hw]; exact text_ne h

/-- a field with a number -/
theorem numeral_of {P : Numeral → Prop} (hv : ∀ n, P n → n.Valid) {w v : Str} (hw : ∃ n, P n ∧ Spec.Xsd.trim w = n.text) (hs : strip w = v) : ∃ n, P n ∧ v = n.text := by
  obtain ⟨n, h1, h2⟩ := hw
  exact ⟨n, h1, by rw [← hs, strip_numeral (hv n h1) h2]⟩

theorem signed_filled {k : Nat} {w : Str} (h : Signed k (Spec.Xsd.trim w)) : strip w ≠ [] := by
  obtain ⟨n, h1, h2, -⟩ := h
  exact numeral_filled h1.1 h2

theorem sys_filled {w : Str} (h : w ∈ [c! "WGS84", c! "ITRF", c! "IAU", c! "ICRF_AU", c! "ICRF_KM"]) : strip w = w ∧ strip w ≠ [] := by
  revert w; decide

theorem time_field (h : Ok t e) (hn : Check.needs submitSchema (· = c! "obsTime") 40 (.seq (contentOf (typeName t))) = true) : ∃ v, fieldOf e (c! "obsTime") = some v := by
  obtain ⟨k, hk, hkn⟩ := kid_needed h hn
  rw [← hkn]
  refine kid_field hk ?_
  have hd := field_doc h hk
  rw [hkn] at hd
  rw [leaf_iff (T := c! "TimeType") (by kernel_rfl) (by kernel_rfl),
    Xsd.hasType_iff (l := [(c! "xsd:dateTime", [(c! "xsd:dateTime", [(c! "xsd:pattern", c! "\\d{4}-\\d{2}-\\d{2}T\\d{2}:\\d{2}:\\d{2}(\\.\\d{1,6})?Z")])]),
      (c! "xsd:string", [(c! "xsd:string", Xsd.leapPatterns.map fun p => (c! "xsd:pattern", p))])]) (f := 9) (by kernel_rfl)] at hd
  simp only [List.mem_cons, List.not_mem_nil, or_false, exists_eq_or_imp, exists_eq_left] at hd
  rcases hd with hd | hd
  · rw [Xsd.has_time] at hd
    rw [strip_around rfl (ordinary_strip hd)]
    obtain ⟨y, mo, d, h, mi, s, f, -, -, -, -, -, -, -, -, e⟩ := hd
    rw [e]; simp
  · rw [leap_strip hd]
    intro e
    rw [e] at hd
    rw [Xsd.has_leap (by intro c hc; cases hc)] at hd
    obtain ⟨y, m, f, -, -, -, e⟩ := hd
    simp at e

/-- a coordinate with a point -/
theorem coord_of {w : Nat} {v x : Str} (hs : Signed 13 (Spec.Xsd.trim x)) (hx : strip x = v) (hp : PointNumber w v) : ∃ c : Coord, c.Valid w ∧ CoordText c v := by
  obtain ⟨m, m1, m2, m3, -⟩ := hs
  obtain ⟨n, n1, rfl, n3, f, n4, n5, n6⟩ := hp
  have : m = n := Xsd.text_inj (.of m1.1) (.of n1) (by rw [← hx, strip_numeral m1.1 m2])
  subst this
  have hf : ∀ c ∈ f, c ∈ digits10 := m1.1.2.2.1 f n4
  have hfl : f ≠ [] := by intro e; rw [e] at n5; simp at n5
  have e1 : Spec.dec (digitsNat m.whole) = m.whole := dec_digitsNat m1.1.2.1 m3 m1.2
  have e2 : fixed f.length (digitsNat f) = f := fixed_digitsNat hf hfl
  refine ⟨⟨decide (m.sign = some '-'), digitsNat m.whole, f.length, digitsNat f⟩, ⟨?_, n5, n6, digitsNat_lt f hf⟩, ?_⟩
  · exact lt_of_lt_of_le (digitsNat_lt _ m1.1.2.1) (Nat.pow_le_pow_right (by omega) n3)
  · unfold CoordText Coord.text Coord.sign
    simp only [e1, e2]
    unfold Numeral.text
    rw [n4]
    cases hg : m.sign with
    | none => right; simp
    | some s =>
      left
      rcases m1.1.1 s hg with rfl | rfl <;> simp

/-- the time, in the words of C44 -/
theorem time_of (h : Ok t e) {v : Str} (hf : fieldOf e (c! "obsTime") = some v) (ha : AsciiText v) (hy : 1600 ≤ digitsNat (v.take 4)) (h24 : (v.drop 11).take 2 ≠ c! "24")
    (h60 : (v.drop 17).take 2 ≠ c! "60") : ∃ (y mo d s : Nat) (f : Option Str), 1600 ≤ y ∧ y ≤ 9999 ∧ (1 ≤ mo ∧ mo ≤ 12) ∧ (1 ≤ d ∧ d ≤ monthDays y mo) ∧ s < 86400 ∧
      (∀ ds ∈ f, 1 ≤ ds.length ∧ ds.length ≤ 6 ∧ ∀ c ∈ ds, c ∈ c! "0123456789") ∧ v = isoTime y mo d s ((match f with | some ds => '.' :: ds | none => []) ++ ['Z']) := by
  rcases time_value h hf ha with ho | ho
  · obtain ⟨y, mo, d, hh, mi, s, f, y1, y2, m1, m2, d1, d2, hf', hd, rfl⟩ := ho
    have l4 : (fixed 4 y).length = 4 := fixed_length (by omega) (by omega)
    have hd2 : d < 100 := by
      have : monthDays y mo ≤ 31 := Sex.monthDays_le
      omega
    have e4 : ∀ x : Str, (fixed 4 y ++ x).take 4 = fixed 4 y := fun x => by rw [List.take_append_of_le_length (by omega), List.take_of_length_le (by omega)]
    simp only [List.append_assoc] at hy
    rw [e4, digitsNat_fixed] at hy
    rcases hd with ⟨q1, q2, q3⟩ | ⟨rfl, -⟩
    · have hs : (hh * 3600 + mi * 60 + s) / 3600 = hh ∧ (hh * 3600 + mi * 60 + s) / 60 % 60 = mi ∧ (hh * 3600 + mi * 60 + s) % 60 = s := by omega
      obtain ⟨o, ho1, ho2⟩ : ∃ o : Option Str, (∀ ds ∈ o, 1 ≤ ds.length ∧ ds.length ≤ 6 ∧ ∀ c ∈ ds, c ∈ c! "0123456789") ∧ f = (match o with | some ds => '.' :: ds | none => []) := by
        rcases hf' with rfl | ⟨ds, a, b, c, rfl⟩
        · exact ⟨none, by simp, rfl⟩
        · exact ⟨some ds, by rintro x ⟨⟩; exact ⟨a, b, c⟩, rfl⟩
      refine ⟨y, mo, d, hh * 3600 + mi * 60 + s, o, hy, y2, ⟨m1, m2⟩, ⟨d1, d2⟩, by omega, ho1, ?_⟩
      unfold isoTime
      rw [hs.1, hs.2.1, hs.2.2, dec_fixed (by omega) y2, ← ho2]
      simp
    · exfalso
      apply h24
      have l2 : (fixed 2 mo).length = 2 := fixed_length (by omega) (by omega)
      have l3 : (fixed 2 d).length = 2 := fixed_length (by omega) (by omega)
      have e : ∀ x : Str, fixed 4 y ++ '-' :: fixed 2 mo ++ '-' :: fixed 2 d ++ 'T' :: x = (fixed 4 y ++ '-' :: fixed 2 mo ++ '-' :: fixed 2 d ++ ['T']) ++ x := by simp
      have l : (fixed 4 y ++ '-' :: fixed 2 mo ++ '-' :: fixed 2 d ++ ['T']).length = 11 := by simp [l4, l2, l3]
      have e' : ∀ x : Str, (fixed 4 y ++ '-' :: fixed 2 mo ++ '-' :: fixed 2 d ++ 'T' :: x).drop 11 = x := fun x => by rw [e, ← l, List.drop_left]
      simp only [List.append_assoc, List.cons_append] at e' ⊢
      rw [e']
      rw [show fixed 2 24 = c! "24" by decide]
      rfl
  · exfalso
    obtain ⟨y, m, f, y2, hm, -, rfl⟩ := ho
    apply h60
    have l4 : (fixed 4 y).length = 4 := fixed_length (by omega) (by omega)
    have lm : m.length = 6 := by rcases hm with ⟨rfl, -⟩ | ⟨rfl, -⟩ <;> rfl
    have e : ∀ x : Str, fixed 4 y ++ m ++ c! "T23:59:60" ++ x = (fixed 4 y ++ m ++ c! "T23:59:") ++ (c! "60" ++ x) := by intro x; simp
    have l : (fixed 4 y ++ m ++ c! "T23:59:").length = 17 := by simp [l4, lm]
    have e' : ∀ x : Str, (fixed 4 y ++ m ++ c! "T23:59:60" ++ x).drop 17 = c! "60" ++ x := fun x => by rw [e, ← l, List.drop_left]
    rw [List.append_assoc _ f, e']
    rfl

/-- the place -/
theorem place_of {unit : Rat} (h : Ok (c! "optical") e) (hc : Convertible unit e) : ∃ p : Place, PlaceFields e p ∧ p.Writable ∧ (p = .ground → fieldOf e (c! "pos1") = none) := by
  cases h1 : fieldOf e (c! "pos1") with
  | none => exact ⟨.ground, h1, trivial, fun _ => rfl⟩
  | some v1 =>
    obtain ⟨v2, h2⟩ := paired h (m := c! "pos2") (by infields) (fun w => signed_filled) (by decide +kernel) h1
    obtain ⟨v3, h3⟩ := paired h (m := c! "pos3") (by infields) (fun w => signed_filled) (by decide +kernel) h1
    obtain ⟨s, hs⟩ := paired h (m := c! "sys") (by infields) (fun w hw => (sys_filled hw).2) (by decide +kernel) h1
    obtain ⟨w1, a1, b1, -⟩ := field_valid h (n := c! "pos1") (by infields) h1
    obtain ⟨w2, a2, b2, -⟩ := field_valid h (n := c! "pos2") (by infields) h2
    obtain ⟨w3, a3, b3, -⟩ := field_valid h (n := c! "pos3") (by infields) h3
    obtain ⟨w, a, b, -⟩ := field_valid h (n := c! "sys") (by infields) hs
    rw [(sys_filled a).1] at b
    subst b
    simp only [List.mem_cons, List.not_mem_nil, or_false] at a
    rcases a with rfl | rfl | rfl | rfl | rfl
    · exact ⟨.rover v1 v2 v3, ⟨hs, h1, h2, h3⟩, ⟨hc.wgs84 hs _ (by simp) _ h1, hc.wgs84 hs _ (by simp) _ h2⟩, fun h => by cases h⟩
    · exact absurd hs hc.sys.1
    · exact absurd hs hc.sys.2
    · obtain ⟨x, x1, x2⟩ := coord_of a1 b1 (hc.icrf_au hs _ (by simp) _ h1)
      obtain ⟨y, y1, y2⟩ := coord_of a2 b2 (hc.icrf_au hs _ (by simp) _ h2)
      obtain ⟨z, z1, z2⟩ := coord_of a3 b3 (hc.icrf_au hs _ (by simp) _ h3)
      exact ⟨.spacecraft true x y z, ⟨hs, ⟨_, x2, h1⟩, ⟨_, y2, h2⟩, ⟨_, z2, h3⟩⟩, ⟨x1, y1, z1⟩, fun h => by cases h⟩
    · obtain ⟨x, x1, x2⟩ := coord_of a1 b1 (hc.icrf_km hs _ (by simp) _ h1)
      obtain ⟨y, y1, y2⟩ := coord_of a2 b2 (hc.icrf_km hs _ (by simp) _ h2)
      obtain ⟨z, z1, z2⟩ := coord_of a3 b3 (hc.icrf_km hs _ (by simp) _ h3)
      exact ⟨.spacecraft false x y z, ⟨hs, ⟨_, x2, h1⟩, ⟨_, y2, h2⟩, ⟨_, z2, h3⟩⟩, ⟨x1, y1, z1⟩, fun h => by cases h⟩

/-- the numerals of the command line's precisions -/
def timeUnit (l : Bool) : Numeral := ⟨none, if l then c! "10" else c! "1", none⟩
def raUnit (l : Bool) : Numeral := ⟨none, c! "0", some (if l then c! "01" else c! "001")⟩
def decUnit (l : Bool) : Numeral := ⟨none, c! "0", some (if l then c! "1" else c! "01")⟩

theorem opt_mag (h : Ok t e) : ∃ m : Option Numeral, (∀ n ∈ m, n.Valid) ∧ fieldOf e (c! "mag") = m.map Numeral.text := by
  cases hf : fieldOf e (c! "mag") with
  | none => exact ⟨none, by simp, rfl⟩
  | some v =>
    obtain ⟨w, ⟨n, a, a', -⟩, b, -⟩ := field_valid h (n := c! "mag") (by infields) hf
    exact ⟨some n, by rintro _ ⟨⟩; exact a.1, by rw [← b, strip_numeral a.1 a']; rfl⟩

theorem opt_disc (h : Ok t e) : ∃ c : Option Char, fieldOf e (c! "disc") = c.map fun c => [c] := by
  cases hf : fieldOf e (c! "disc") with
  | none => exact ⟨none, rfl⟩
  | some v =>
    obtain ⟨w, a, b, -⟩ := field_valid h (n := c! "disc") (by infields) hf
    rcases a with rfl | rfl
    · exact ⟨some '*', by rw [← b]; rfl⟩
    · exact ⟨some '+', by rw [← b]; rfl⟩

theorem sent_of {unit : Rat} (n l : Bool) (hu : unit = (decUnit l).value) (h : Ok (c! "optical") e) (hc : Convertible unit e) :
    ∃ a : Sent, a.Writable ∧ a.In (cmdOpts n l).precTime (cmdOpts n l).precRA (cmdOpts n l).precDec e := by
  obtain ⟨d, hd, d1, d2, d3⟩ := hc.desig
  obtain ⟨mode, hmode⟩ := needed h (n := c! "mode") (by infields) (fun w => code_filled) (by decide +kernel)
  obtain ⟨stn, hstn⟩ := needed h (n := c! "stn") (by infields) (fun w => code_filled) (by decide +kernel)
  obtain ⟨cat, hcat⟩ := needed h (n := c! "astCat") (by infields) (fun w hw => by rw [catalogue_strip hw]; rintro rfl; exact absurd hw.1 (by simp)) (by decide +kernel)
  obtain ⟨ra, hra⟩ := needed h (n := c! "ra") (by infields) (fun w hw => by obtain ⟨n, h1, h2, -⟩ := hw; exact numeral_filled h1.1 h2) (by decide +kernel)
  obtain ⟨dec, hdec⟩ := needed h (n := c! "dec") (by infields) (fun w hw => by obtain ⟨n, h1, h2, -⟩ := hw; exact numeral_filled h1.1 h2) (by decide +kernel)
  obtain ⟨time, htime⟩ := time_field h (by decide +kernel)
  obtain ⟨t1, t2, t3, t4⟩ := hc.time time htime
  obtain ⟨y, mo, dd, s, f, y1, y2, m1, m2, s1, f1, rfl⟩ := time_of h htime t1 t2 t3 t4
  obtain ⟨mag, mag1, hmag⟩ := opt_mag h
  obtain ⟨disc, hdisc⟩ := opt_disc h
  obtain ⟨p, p1, p2, p3⟩ := place_of h hc
  obtain ⟨w, ⟨ra', r1, r2, r3, -, r4⟩, r5, -⟩ := field_valid h (n := c! "ra") (by infields) hra
  rw [strip_numeral r1.1 r2] at r5
  subst r5
  obtain ⟨w, ⟨dec', e1, e2, -, e4⟩, e5, -⟩ := field_valid h (n := c! "dec") (by infields) hdec
  rw [strip_numeral e1.1 e2] at e5
  subst e5
  have e6 := hc.dec dec' e1.1 hdec
  refine ⟨⟨d, disc, fieldOf e (c! "notes"), none, false, none, mode, stn, y, mo, dd, s, f, ra', dec', timeUnit l, raUnit l, decUnit l, mag, fieldOf e (c! "band"), cat, none, p⟩, ?_, ?_⟩
  · constructor
    case desig => exact hd
    case prog => simp
    case mode =>
      intro _ hp _
      obtain ⟨m, hm1, hm2⟩ := hc.mode (p3 hp)
      rw [hmode] at hm2
      cases hm2
      exact hm1
    case stn => exact ⟨fun e' => hc.stn.1 (by rw [hstn]; exact congrArg some e'), fun e' => hc.stn.2 (by rw [hstn]; exact congrArg some e')⟩
    case year => exact ⟨y1, y2⟩
    case month => exact m1
    case day => exact m2
    case second => exact s1
    case decimals => exact f1
    case ra => exact ⟨r1.1, by rw [r3]; simp, le_of_lt r4⟩
    case dec => exact ⟨e1.1, e4⟩
    case precTime => cases l <;> exact ⟨by simp [Numeral.Valid, timeUnit]; try decide, by simp only [timeUnits]; decide +kernel⟩
    case precRA =>
      cases l
      · exact ⟨by simp [Numeral.Valid, raUnit], .inl ⟨3, by omega, by show (raUnit false).value = _; decide +kernel⟩⟩
      · exact ⟨by simp [Numeral.Valid, raUnit], .inl ⟨2, by omega, by show (raUnit true).value = _; decide +kernel⟩⟩
    case precDec =>
      cases l
      · exact ⟨by simp [Numeral.Valid, decUnit], .inl ⟨2, by omega, by show (decUnit false).value = _; decide +kernel⟩⟩
      · exact ⟨by simp [Numeral.Valid, decUnit], .inl ⟨1, by omega, by show (decUnit true).value = _; decide +kernel⟩⟩
    case tie => intro _; rw [hu] at e6; exact e6
    case mag => exact mag1
    case ref => simp
    case place => exact p2
  · have x1 := field_absent h (n := c! "precTime") (by decide +kernel)
    have x2 := field_absent h (n := c! "precRA") (by decide +kernel)
    have x3 := field_absent h (n := c! "precDec") (by decide +kernel)
    constructor
    case tag => exact h.tag
    case permID => exact d1
    case provID => exact d2
    case trkSub => exact d3
    case artSat => exact hc.artSat
    case disc => exact hdisc
    case notes => rfl
    case prog => exact field_absent h (by decide +kernel)
    case deprecated => exact field_absent h (by decide +kernel)
    case subFrm => exact field_absent h (by decide +kernel)
    case mode => exact hmode
    case stn => exact hstn
    case obsTime => exact htime
    case ra => exact hra
    case dec => exact hdec
    case precTime => rw [x1]; cases l <;> rfl
    case precRA => rw [x2]; cases l <;> rfl
    case precDec => rw [x3]; cases l <;> rfl
    case mag => exact hmag
    case band => rfl
    case cat => exact hcat
    case ref => exact field_absent h (by decide +kernel)
    case place => exact p1

end Verif.Submit80
