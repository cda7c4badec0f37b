import Verif.Lemmas.SexText
/-
  Verif.Lemmas.SexRead : the sexagesimal patterns on well formed columns.
-/
namespace Verif.Sex
open Verif Flt

theorem ok_pyNat2 {n : Nat} (h : n < 100) : pyNat (Spec.fixed 2 n) = .ok n := by
  rw [fixed2 h, pyNat2 (by omega) (by omega)]; congr 1; omega

theorem grpInt_of {m : Caps} {g n : Nat} (h : n < 100) (hg : group m g = some (Spec.fixed 2 n)) : grpInt m g = .ok ⟨false, n⟩ := by
  unfold grpInt
  rw [hg]
  simp only [Option.getD_some, ok_pyNat2 h, bind, Except.bind, pure, Except.pure]
  rw [ofInt_nat (by omega)]

theorem grpFlt_of {m : Caps} {g n d f : Nat} (hd : 1 ≤ d) (hf : f < 10 ^ d)
    (hg : group m g = some (Spec.fixed 2 n ++ '.' :: Spec.fixed d f)) : grpFlt m g = .ok ⟨false, rnd (n + (f : ℚ) / 10 ^ d)⟩ := by
  unfold grpFlt
  rw [hg]
  simp only [Option.getD_some]
  rw [parse_pos (fixed_mem _ _) (fixed_mem _ _) (by rw [fixed_length hd hf]; omega) (digitsVal_fixed _ _) (digitsVal_fixed _ _), fixed_length hd hf,
    Rat.mkRat_eq_div]
  have : ((((n : Int) * 10 ^ d + (f : Int) : Int) : ℚ) / ((10 ^ d : Nat) : ℚ)) = n + (f : ℚ) / 10 ^ d := by
    push_cast; field_simp
  rw [this, ofRat_nonneg (by positivity)]

/-- what `checkSexagesimal` should return -/
def read : Spec.Sexagesimal → Sexa
  | .seconds h m s d f => ⟨⟨false, h⟩, ⟨false, m⟩, ⟨false, rnd (s + (f : ℚ) / 10 ^ d)⟩, .flt (ofRat (ten (-(d : Int))))⟩
  | .wholeSeconds h m s => ⟨⟨false, h⟩, ⟨false, m⟩, ⟨false, s⟩, .int 1⟩
  | .minutes h m d f => ⟨⟨false, h⟩, ⟨false, rnd (m + (f : ℚ) / 10 ^ d)⟩, ⟨false, 0⟩, if d = 2 then .flt (ofRat (mkRat 6 10)) else .int 6⟩
  | .wholeMinutes h m => ⟨⟨false, h⟩, ⟨false, m⟩, ⟨false, 0⟩, .int 60⟩

/-- digit positions -/
abbrev D := digits10
abbrev B : Str := [' ']

/-- the string lies in the family -/
macro "infams" : tactic => `(tactic| (simp only [InFams]; repeat' (first | exact trivial | exact dmem (by omega) | exact List.mem_singleton.2 rfl | apply And.intro)))
/-- a pattern that does not match -/
macro "remiss" F:term : tactic => `(tactic| (rw [reMatch_fams (Fs := $F) (o := none) (by infams) (by decide +kernel)]; simp only [Option.map]))
/-- a pattern that matches -/
macro "rehit" F:term "with" o:term : tactic =>
  `(tactic| (rw [reMatch_fams (Fs := $F) (o := some $o) (by infams) (by decide +kernel)]; simp only [Option.map]))

theorem check_seconds1_11 {h m s f : Nat} (hh : h < 100) (hm : m < 100) (hs : s < 100) (hf : f < 10 ^ 1) :
    checkSexagesimal (Spec.column 11 (Spec.Sexagesimal.text (.seconds h m s 1 f))) = .ok (read (.seconds h m s 1 f)) := by
  simp only [Spec.column, Spec.Sexagesimal.text, fixed2 hh, fixed2 hm, fixed2 hs, fixed1 hf, List.rightpad, List.cons_append, List.nil_append, List.length_cons, List.length_nil, Nat.reduceAdd, Nat.reduceSub, List.replicate]
  unfold checkSexagesimal
  rehit [D, D, B, D, D, B, D, D, ['.'], D, B] with [(1, 0, 2), (2, 3, 2), (3, 6, 4), (4, 9, 1)]
  unfold actionNormal
  rw [grpInt_of hh (by rw [fixed2 hh]; rfl), grpInt_of hm (by rw [fixed2 hm]; rfl), grpFlt_of (n := s) (d := 1) (by omega) hf (by rw [fixed2 hs, fixed1 hf]; rfl)]
  rfl

theorem check_seconds2_11 {h m s f : Nat} (hh : h < 100) (hm : m < 100) (hs : s < 100) (hf : f < 10 ^ 2) :
    checkSexagesimal (Spec.column 11 (Spec.Sexagesimal.text (.seconds h m s 2 f))) = .ok (read (.seconds h m s 2 f)) := by
  simp only [Spec.column, Spec.Sexagesimal.text, fixed2 hh, fixed2 hm, fixed2 hs, fixed2 hf, List.rightpad, List.cons_append, List.nil_append, List.length_cons, List.length_nil, Nat.reduceAdd, Nat.reduceSub, List.replicate]
  unfold checkSexagesimal
  rehit [D, D, B, D, D, B, D, D, ['.'], D, D] with [(1, 0, 2), (2, 3, 2), (3, 6, 5), (4, 9, 2)]
  unfold actionNormal
  rw [grpInt_of hh (by rw [fixed2 hh]; rfl), grpInt_of hm (by rw [fixed2 hm]; rfl), grpFlt_of (n := s) (d := 2) (by omega) hf (by rw [fixed2 hs, fixed2 hf]; rfl)]
  rfl

theorem check_seconds3_11 {h m s f : Nat} (hh : h < 100) (hm : m < 100) (hs : s < 100) (hf : f < 10 ^ 3) :
    checkSexagesimal (Spec.column 11 (Spec.Sexagesimal.text (.seconds h m s 3 f))) = .ok (read (.seconds h m s 3 f)) := by
  simp only [Spec.column, Spec.Sexagesimal.text, fixed2 hh, fixed2 hm, fixed2 hs, fixed3 hf, List.rightpad, List.cons_append, List.nil_append, List.length_cons, List.length_nil, Nat.reduceAdd, Nat.reduceSub, List.replicate]
  unfold checkSexagesimal
  rehit [D, D, B, D, D, B, D, D, ['.'], D, D, D] with [(1, 0, 2), (2, 3, 2), (3, 6, 6), (4, 9, 3)]
  unfold actionNormal
  rw [grpInt_of hh (by rw [fixed2 hh]; rfl), grpInt_of hm (by rw [fixed2 hm]; rfl), grpFlt_of (n := s) (d := 3) (by omega) hf (by rw [fixed2 hs, fixed3 hf]; rfl)]
  rfl

theorem check_wholeSeconds_11 {h m s : Nat} (hh : h < 100) (hm : m < 100) (hs : s < 100) :
    checkSexagesimal (Spec.column 11 (Spec.Sexagesimal.text (.wholeSeconds h m s))) = .ok (read (.wholeSeconds h m s)) := by
  simp only [Spec.column, Spec.Sexagesimal.text, fixed2 hh, fixed2 hm, fixed2 hs, List.rightpad, List.cons_append, List.nil_append, List.length_cons, List.length_nil, Nat.reduceAdd, Nat.reduceSub, List.replicate]
  unfold checkSexagesimal
  remiss [D, D, B, D, D, B, D, D, B, B, B]
  rehit [D, D, B, D, D, B, D, D, B, B, B] with [(1, 0, 2), (2, 3, 2), (3, 6, 2)]
  unfold actionIntegerSeconds
  rw [grpInt_of hh (by rw [fixed2 hh]; rfl), grpInt_of hm (by rw [fixed2 hm]; rfl), grpInt_of hs (by rw [fixed2 hs]; rfl)]
  rfl

theorem check_minutes1_11 {h m f : Nat} (hh : h < 100) (hm : m < 100) (hf : f < 10 ^ 1) :
    checkSexagesimal (Spec.column 11 (Spec.Sexagesimal.text (.minutes h m 1 f))) = .ok (read (.minutes h m 1 f)) := by
  simp only [Spec.column, Spec.Sexagesimal.text, fixed2 hh, fixed2 hm, fixed1 hf, List.rightpad, List.cons_append, List.nil_append, List.length_cons, List.length_nil, Nat.reduceAdd, Nat.reduceSub, List.replicate]
  unfold checkSexagesimal
  remiss [D, D, B, D, D, ['.'], D, B, B, B, B]
  remiss [D, D, B, D, D, ['.'], D, B, B, B, B]
  remiss [D, D, B, D, D, ['.'], D, B, B, B, B]
  rehit [D, D, B, D, D, ['.'], D, B, B, B, B] with [(1, 0, 2), (2, 3, 4)]
  unfold actionMinutesTenths
  rw [grpInt_of hh (by rw [fixed2 hh]; rfl), grpFlt_of (n := m) (d := 1) (by omega) hf (by rw [fixed2 hm, fixed1 hf]; rfl)]
  rfl

theorem check_minutes2_11 {h m f : Nat} (hh : h < 100) (hm : m < 100) (hf : f < 10 ^ 2) :
    checkSexagesimal (Spec.column 11 (Spec.Sexagesimal.text (.minutes h m 2 f))) = .ok (read (.minutes h m 2 f)) := by
  simp only [Spec.column, Spec.Sexagesimal.text, fixed2 hh, fixed2 hm, fixed2 hf, List.rightpad, List.cons_append, List.nil_append, List.length_cons, List.length_nil, Nat.reduceAdd, Nat.reduceSub, List.replicate]
  unfold checkSexagesimal
  remiss [D, D, B, D, D, ['.'], D, D, B, B, B]
  remiss [D, D, B, D, D, ['.'], D, D, B, B, B]
  rehit [D, D, B, D, D, ['.'], D, D, B, B, B] with [(1, 0, 2), (2, 3, 5)]
  unfold actionMinutesHundredths
  rw [grpInt_of hh (by rw [fixed2 hh]; rfl), grpFlt_of (n := m) (d := 2) (by omega) hf (by rw [fixed2 hm, fixed2 hf]; rfl)]
  rfl

theorem check_wholeMinutes_11 {h m : Nat} (hh : h < 100) (hm : m < 100) :
    checkSexagesimal (Spec.column 11 (Spec.Sexagesimal.text (.wholeMinutes h m))) = .ok (read (.wholeMinutes h m)) := by
  simp only [Spec.column, Spec.Sexagesimal.text, fixed2 hh, fixed2 hm, List.rightpad, List.cons_append, List.nil_append, List.length_cons, List.length_nil, Nat.reduceAdd, Nat.reduceSub, List.replicate]
  unfold checkSexagesimal
  remiss [D, D, B, D, D, B, B, B, B, B, B]
  remiss [D, D, B, D, D, B, B, B, B, B, B]
  remiss [D, D, B, D, D, B, B, B, B, B, B]
  remiss [D, D, B, D, D, B, B, B, B, B, B]
  rehit [D, D, B, D, D, B, B, B, B, B, B] with [(1, 0, 2), (2, 3, 2)]
  unfold actionIntegerMinutes
  rw [grpInt_of hh (by rw [fixed2 hh]; rfl), grpInt_of hm (by rw [fixed2 hm]; rfl)]
  rfl

theorem check_seconds1_12 {h m s f : Nat} (hh : h < 100) (hm : m < 100) (hs : s < 100) (hf : f < 10 ^ 1) :
    checkSexagesimal (Spec.column 12 (Spec.Sexagesimal.text (.seconds h m s 1 f))) = .ok (read (.seconds h m s 1 f)) := by
  simp only [Spec.column, Spec.Sexagesimal.text, fixed2 hh, fixed2 hm, fixed2 hs, fixed1 hf, List.rightpad, List.cons_append, List.nil_append, List.length_cons, List.length_nil, Nat.reduceAdd, Nat.reduceSub, List.replicate]
  unfold checkSexagesimal
  rehit [D, D, B, D, D, B, D, D, ['.'], D, B, B] with [(1, 0, 2), (2, 3, 2), (3, 6, 4), (4, 9, 1)]
  unfold actionNormal
  rw [grpInt_of hh (by rw [fixed2 hh]; rfl), grpInt_of hm (by rw [fixed2 hm]; rfl), grpFlt_of (n := s) (d := 1) (by omega) hf (by rw [fixed2 hs, fixed1 hf]; rfl)]
  rfl

theorem check_seconds2_12 {h m s f : Nat} (hh : h < 100) (hm : m < 100) (hs : s < 100) (hf : f < 10 ^ 2) :
    checkSexagesimal (Spec.column 12 (Spec.Sexagesimal.text (.seconds h m s 2 f))) = .ok (read (.seconds h m s 2 f)) := by
  simp only [Spec.column, Spec.Sexagesimal.text, fixed2 hh, fixed2 hm, fixed2 hs, fixed2 hf, List.rightpad, List.cons_append, List.nil_append, List.length_cons, List.length_nil, Nat.reduceAdd, Nat.reduceSub, List.replicate]
  unfold checkSexagesimal
  rehit [D, D, B, D, D, B, D, D, ['.'], D, D, B] with [(1, 0, 2), (2, 3, 2), (3, 6, 5), (4, 9, 2)]
  unfold actionNormal
  rw [grpInt_of hh (by rw [fixed2 hh]; rfl), grpInt_of hm (by rw [fixed2 hm]; rfl), grpFlt_of (n := s) (d := 2) (by omega) hf (by rw [fixed2 hs, fixed2 hf]; rfl)]
  rfl

theorem check_seconds3_12 {h m s f : Nat} (hh : h < 100) (hm : m < 100) (hs : s < 100) (hf : f < 10 ^ 3) :
    checkSexagesimal (Spec.column 12 (Spec.Sexagesimal.text (.seconds h m s 3 f))) = .ok (read (.seconds h m s 3 f)) := by
  simp only [Spec.column, Spec.Sexagesimal.text, fixed2 hh, fixed2 hm, fixed2 hs, fixed3 hf, List.rightpad, List.cons_append, List.nil_append, List.length_cons, List.length_nil, Nat.reduceAdd, Nat.reduceSub, List.replicate]
  unfold checkSexagesimal
  rehit [D, D, B, D, D, B, D, D, ['.'], D, D, D] with [(1, 0, 2), (2, 3, 2), (3, 6, 6), (4, 9, 3)]
  unfold actionNormal
  rw [grpInt_of hh (by rw [fixed2 hh]; rfl), grpInt_of hm (by rw [fixed2 hm]; rfl), grpFlt_of (n := s) (d := 3) (by omega) hf (by rw [fixed2 hs, fixed3 hf]; rfl)]
  rfl

theorem check_wholeSeconds_12 {h m s : Nat} (hh : h < 100) (hm : m < 100) (hs : s < 100) :
    checkSexagesimal (Spec.column 12 (Spec.Sexagesimal.text (.wholeSeconds h m s))) = .ok (read (.wholeSeconds h m s)) := by
  simp only [Spec.column, Spec.Sexagesimal.text, fixed2 hh, fixed2 hm, fixed2 hs, List.rightpad, List.cons_append, List.nil_append, List.length_cons, List.length_nil, Nat.reduceAdd, Nat.reduceSub, List.replicate]
  unfold checkSexagesimal
  remiss [D, D, B, D, D, B, D, D, B, B, B, B]
  rehit [D, D, B, D, D, B, D, D, B, B, B, B] with [(1, 0, 2), (2, 3, 2), (3, 6, 2)]
  unfold actionIntegerSeconds
  rw [grpInt_of hh (by rw [fixed2 hh]; rfl), grpInt_of hm (by rw [fixed2 hm]; rfl), grpInt_of hs (by rw [fixed2 hs]; rfl)]
  rfl

theorem check_minutes1_12 {h m f : Nat} (hh : h < 100) (hm : m < 100) (hf : f < 10 ^ 1) :
    checkSexagesimal (Spec.column 12 (Spec.Sexagesimal.text (.minutes h m 1 f))) = .ok (read (.minutes h m 1 f)) := by
  simp only [Spec.column, Spec.Sexagesimal.text, fixed2 hh, fixed2 hm, fixed1 hf, List.rightpad, List.cons_append, List.nil_append, List.length_cons, List.length_nil, Nat.reduceAdd, Nat.reduceSub, List.replicate]
  unfold checkSexagesimal
  remiss [D, D, B, D, D, ['.'], D, B, B, B, B, B]
  remiss [D, D, B, D, D, ['.'], D, B, B, B, B, B]
  remiss [D, D, B, D, D, ['.'], D, B, B, B, B, B]
  rehit [D, D, B, D, D, ['.'], D, B, B, B, B, B] with [(1, 0, 2), (2, 3, 4)]
  unfold actionMinutesTenths
  rw [grpInt_of hh (by rw [fixed2 hh]; rfl), grpFlt_of (n := m) (d := 1) (by omega) hf (by rw [fixed2 hm, fixed1 hf]; rfl)]
  rfl

theorem check_minutes2_12 {h m f : Nat} (hh : h < 100) (hm : m < 100) (hf : f < 10 ^ 2) :
    checkSexagesimal (Spec.column 12 (Spec.Sexagesimal.text (.minutes h m 2 f))) = .ok (read (.minutes h m 2 f)) := by
  simp only [Spec.column, Spec.Sexagesimal.text, fixed2 hh, fixed2 hm, fixed2 hf, List.rightpad, List.cons_append, List.nil_append, List.length_cons, List.length_nil, Nat.reduceAdd, Nat.reduceSub, List.replicate]
  unfold checkSexagesimal
  remiss [D, D, B, D, D, ['.'], D, D, B, B, B, B]
  remiss [D, D, B, D, D, ['.'], D, D, B, B, B, B]
  rehit [D, D, B, D, D, ['.'], D, D, B, B, B, B] with [(1, 0, 2), (2, 3, 5)]
  unfold actionMinutesHundredths
  rw [grpInt_of hh (by rw [fixed2 hh]; rfl), grpFlt_of (n := m) (d := 2) (by omega) hf (by rw [fixed2 hm, fixed2 hf]; rfl)]
  rfl

theorem check_wholeMinutes_12 {h m : Nat} (hh : h < 100) (hm : m < 100) :
    checkSexagesimal (Spec.column 12 (Spec.Sexagesimal.text (.wholeMinutes h m))) = .ok (read (.wholeMinutes h m)) := by
  simp only [Spec.column, Spec.Sexagesimal.text, fixed2 hh, fixed2 hm, List.rightpad, List.cons_append, List.nil_append, List.length_cons, List.length_nil, Nat.reduceAdd, Nat.reduceSub, List.replicate]
  unfold checkSexagesimal
  remiss [D, D, B, D, D, B, B, B, B, B, B, B]
  remiss [D, D, B, D, D, B, B, B, B, B, B, B]
  remiss [D, D, B, D, D, B, B, B, B, B, B, B]
  remiss [D, D, B, D, D, B, B, B, B, B, B, B]
  rehit [D, D, B, D, D, B, B, B, B, B, B, B] with [(1, 0, 2), (2, 3, 2)]
  unfold actionIntegerMinutes
  rw [grpInt_of hh (by rw [fixed2 hh]; rfl), grpInt_of hm (by rw [fixed2 hm]; rfl)]
  rfl

/-- every well formed reading, in a column of 11 or 12 characters, is read as it should be -/
theorem check_read {r : Spec.Sexagesimal} {w : Nat} (hr : r.Valid 3) (hw : w = 11 ∨ w = 12) :
    checkSexagesimal (Spec.column w r.text) = .ok (read r) := by
  cases r with
  | seconds h m s d f =>
    obtain ⟨h1, h2, h3, h4, h5, h6⟩ := hr
    rcases hw with rfl | rfl <;> (obtain rfl | rfl | rfl : d = 1 ∨ d = 2 ∨ d = 3 := by omega)
    · exact check_seconds1_11 h1 (by omega) (by omega) h6
    · exact check_seconds2_11 h1 (by omega) (by omega) h6
    · exact check_seconds3_11 h1 (by omega) (by omega) h6
    · exact check_seconds1_12 h1 (by omega) (by omega) h6
    · exact check_seconds2_12 h1 (by omega) (by omega) h6
    · exact check_seconds3_12 h1 (by omega) (by omega) h6
  | wholeSeconds h m s =>
    obtain ⟨h1, h2, h3⟩ := hr
    rcases hw with rfl | rfl
    · exact check_wholeSeconds_11 h1 (by omega) (by omega)
    · exact check_wholeSeconds_12 h1 (by omega) (by omega)
  | minutes h m d f =>
    obtain ⟨h1, h2, h3, h4, h5⟩ := hr
    rcases hw with rfl | rfl <;> (obtain rfl | rfl : d = 1 ∨ d = 2 := by omega)
    · exact check_minutes1_11 h1 (by omega) h5
    · exact check_minutes2_11 h1 (by omega) h5
    · exact check_minutes1_12 h1 (by omega) h5
    · exact check_minutes2_12 h1 (by omega) h5
  | wholeMinutes h m =>
    obtain ⟨h1, h2⟩ := hr
    rcases hw with rfl | rfl
    · exact check_wholeMinutes_11 h1 (by omega)
    · exact check_wholeMinutes_12 h1 (by omega)

end Verif.Sex
