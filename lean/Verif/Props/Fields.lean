import Verif.Lemmas.FieldTimes
import Verif.Props.Submission
/-!
  C49: the values of the fields of observations that the schemas admit.
-/
namespace Verif
open Verif.Xml Verif.Spec Verif.Spec.Xsd Verif.Psv Verif.Master Verif.ToPsv Verif.Xsd

namespace Fields

/-- a type with one alternative in both schemas -/
structure OneType (T : Str) (a : Alt) : Prop where
  submit : Xsd.alts submitSchema generalSchema 9 T = some [a]
  general : Xsd.alts generalSchema generalSchema 9 T = some [a]

theorem type_one {S : Schema} {T v : Str} {a : Alt} (h : Xsd.alts S generalSchema 9 T = some [a]) : HasType xsd S T v ↔ a.Has v := by
  rw [hasType_iff h]; simp

/-- elements of simple types -/
theorem leaf_iff {S : Schema} {n T v : Str} (h1 : lookup S.elements n = some T) (h2 : lookup S.complex T = none) : ValidDocument xsd S (.mk n (some v) [] []) ↔ HasType xsd S T v := by
  constructor
  · rintro ⟨t, ht, h⟩
    rw [show (Elem.mk n (some v) [] []).tag = n from rfl, h1] at ht
    cases ht
    exact (simple_elem h2 h).2
  · intro h; exact ⟨T, h1, .simple h2 h⟩

/-- what is to be checked of a field, in both schemas -/
def declared (n T : Str) : Bool := [submitSchema, generalSchema].all fun S => lookup S.elements n = some T && (lookup S.complex T).isNone

theorem both {n T : Str} {a : Alt} {P : Str → Prop} (hd : declared n T = true) (ht : OneType T a) (hp : ∀ v, a.Has v ↔ P v) {S : Schema} (hS : S = submitSchema ∨ S = generalSchema) (v : Str) :
    ValidDocument xsd S (.mk n (some v) [] []) ↔ P v := by
  simp only [declared, List.all_cons, List.all_nil, Bool.and_true, Bool.and_eq_true, decide_eq_true_eq, Option.isNone_iff_eq_none] at hd
  obtain ⟨⟨h1, h2⟩, h3, h4⟩ := hd
  rw [← hp v]
  rcases hS with rfl | rfl
  · rw [leaf_iff h1 h2, type_one ht.submit]
  · rw [leaf_iff h3 h4, type_one ht.general]

theorem StringTypeW25 : OneType (c! "StringTypeW25") (c! "xsd:string", [(c! "xsd:string", [(c! "xsd:maxLength", c! "25")]), strLayer]) := ⟨by kernel_rfl, by kernel_rfl⟩
theorem RemarkType : OneType (c! "RemarkType") (c! "xsd:string", [(c! "xsd:string", [(c! "xsd:maxLength", c! "300")]), strLayer]) := ⟨by kernel_rfl, by kernel_rfl⟩
theorem ModeType : OneType (c! "ModeType") (c! "xsd:string", [(c! "xsd:string", [(c! "xsd:maxLength", c! "3")]), (c! "xsd:string", [(c! "xsd:pattern", c! "[A-Za-z0-9_]*")]), strLayer]) := ⟨by kernel_rfl, by kernel_rfl⟩
theorem BandType : OneType (c! "BandType") (c! "xsd:string", [(c! "xsd:string", [(c! "xsd:maxLength", c! "3")]), (c! "xsd:string", [(c! "xsd:pattern", c! "[A-Za-z0-9_]*")]), strLayer]) := ⟨by kernel_rfl, by kernel_rfl⟩
theorem NotesType : OneType (c! "NotesType") (c! "xsd:string", [(c! "xsd:string", [(c! "xsd:maxLength", c! "6")]), (c! "xsd:string", [(c! "xsd:pattern", c! "[A-Za-z0-9_]*")]), strLayer]) := ⟨by kernel_rfl, by kernel_rfl⟩
theorem StationType : OneType (c! "StationType")
    (c! "xsd:string", [(c! "xsd:string", [(c! "xsd:minLength", c! "3"), (c! "xsd:maxLength", c! "4")]), (c! "xsd:string", [(c! "xsd:pattern", c! "[A-Za-z0-9_]*")]), strLayer]) := ⟨by kernel_rfl, by kernel_rfl⟩
theorem SysType : OneType (c! "SysType")
    (c! "xsd:string", [(c! "xsd:string", [c! "WGS84", c! "ITRF", c! "IAU", c! "ICRF_AU", c! "ICRF_KM"].map fun v => (c! "xsd:enumeration", v))]) := ⟨by kernel_rfl, by kernel_rfl⟩
theorem DiscType : OneType (c! "DiscType") (c! "xsd:string", [(c! "xsd:string", [c! "*", c! "+"].map fun v => (c! "xsd:enumeration", v))]) := ⟨by kernel_rfl, by kernel_rfl⟩
theorem CatType : OneType (c! "CatType") (c! "xsd:string", [(c! "xsd:string", [(c! "xsd:pattern", c! "[.A-Za-z0-9_]*"), (c! "xsd:maxLength", c! "8")]), strLayer]) := ⟨by kernel_rfl, by kernel_rfl⟩
theorem CtrType : OneType (c! "CtrType") (c! "xsd:integer", [(c! "xsd:integer", [(c! "xsd:enumeration", c! "399")]),
    (c! "xsd:integer", [(c! "xsd:maxExclusive", c! "+1000000000"), (c! "xsd:minExclusive", c! "-1000000000")])]) := ⟨by kernel_rfl, by kernel_rfl⟩
theorem LogicalType : OneType (c! "LogicalType") (c! "xsd:integer", [(c! "xsd:integer", [(c! "xsd:enumeration", c! "0"), (c! "xsd:enumeration", c! "1")])]) := ⟨by kernel_rfl, by kernel_rfl⟩
theorem PosIntegerTypeW6 : OneType (c! "PosIntegerTypeW6") (c! "xsd:positiveInteger", [(c! "xsd:positiveInteger", [(c! "xsd:maxExclusive", c! "1000000")])]) := ⟨by kernel_rfl, by kernel_rfl⟩
theorem DoubleTypeW21 : OneType (c! "DoubleTypeW21") (c! "xsd:double", [(c! "xsd:double", [(c! "xsd:pattern", c! "[+\\-]?[+\\-Ee0123456789\\.]{1,20}")])]) := ⟨by kernel_rfl, by kernel_rfl⟩
theorem DecimalTypeW6 : OneType (c! "DecimalTypeW6") (c! "xsd:decimal", [widthLayer (c! "[+\\-]?[0123456789\\.]{1,5}"), decimalLayer]) := ⟨by kernel_rfl, by kernel_rfl⟩
theorem DecimalTypeW10 : OneType (c! "DecimalTypeW10") (c! "xsd:decimal", [widthLayer (c! "[+\\-]?[0123456789\\.]{1,9}"), decimalLayer]) := ⟨by kernel_rfl, by kernel_rfl⟩
theorem DecimalTypeW14 : OneType (c! "DecimalTypeW14") (c! "xsd:decimal", [widthLayer (c! "[+\\-]?[0123456789\\.]{1,13}"), decimalLayer]) := ⟨by kernel_rfl, by kernel_rfl⟩
theorem PosDecimalTypeW6 : OneType (c! "PosDecimalTypeW6") (c! "xsd:decimal", [widthLayer (c! "[0123456789\\.]{1,6}"), posLayer]) := ⟨by kernel_rfl, by kernel_rfl⟩
theorem PosDecimalTypeW7 : OneType (c! "PosDecimalTypeW7") (c! "xsd:decimal", [widthLayer (c! "[0123456789\\.]{1,7}"), posLayer]) := ⟨by kernel_rfl, by kernel_rfl⟩
theorem PosDecimalTypeW8 : OneType (c! "PosDecimalTypeW8") (c! "xsd:decimal", [widthLayer (c! "[0123456789\\.]{1,8}"), posLayer]) := ⟨by kernel_rfl, by kernel_rfl⟩
theorem PosDecimalTypeW10 : OneType (c! "PosDecimalTypeW10") (c! "xsd:decimal", [widthLayer (c! "[0123456789\\.]{1,10}"), posLayer]) := ⟨by kernel_rfl, by kernel_rfl⟩
theorem PosDecimalTypeW14 : OneType (c! "PosDecimalTypeW14") (c! "xsd:decimal", [widthLayer (c! "[0123456789\\.]{1,14}"), posLayer]) := ⟨by kernel_rfl, by kernel_rfl⟩
theorem MagType : OneType (c! "MagType") (c! "xsd:decimal", [(c! "xsd:decimal", [(c! "xsd:minInclusive", c! "-5.0"), (c! "xsd:maxInclusive", c! "35.0")]),
    widthLayer (c! "[+\\-]?[0123456789\\.]{1,7}"), decimalLayer]) := ⟨by kernel_rfl, by kernel_rfl⟩
theorem CorrDecimalType : OneType (c! "CorrDecimalType") (c! "xsd:decimal", [(c! "xsd:decimal", [(c! "xsd:minExclusive", c! "-1.0"), (c! "xsd:maxExclusive", c! "1.0"),
    (c! "xsd:pattern", c! "[+\\-]?(0|1)(\\.[0123456789]{0,11})?")])]) := ⟨by kernel_rfl, by kernel_rfl⟩
theorem FrequencyType : OneType (c! "FrequencyType") (c! "xsd:decimal", [(c! "xsd:decimal", [(c! "xsd:minExclusive", c! "0.0"), (c! "xsd:pattern", c! "[0123456789\\.]{1,16}")])]) := ⟨by kernel_rfl, by kernel_rfl⟩
theorem RAType : OneType (c! "RAType") (c! "xsd:decimal", [(c! "xsd:decimal", [(c! "xsd:minInclusive", c! "0.0"), (c! "xsd:maxExclusive", c! "360.0"),
    (c! "xsd:pattern", c! "([1-3][0-9]{2}|[1-9]?[0-9])?(\\.[0-9]{0,9})?")])]) := ⟨by kernel_rfl, by kernel_rfl⟩
theorem DeclinationType : OneType (c! "DeclinationType") (c! "xsd:decimal", [(c! "xsd:decimal", [(c! "xsd:minInclusive", c! "-90.0"), (c! "xsd:maxInclusive", c! "90.0"),
    (c! "xsd:pattern", c! "[+\\-]?([1-9]?[0-9])?(\\.[0123456789]{0,9})?")])]) := ⟨by kernel_rfl, by kernel_rfl⟩

theorem PermIDType : OneType (c! "PermIDType") (c! "xsd:string", [(c! "xsd:string", [(c! "xsd:pattern", c! "\\d+([IPD](-[A-Z]{1,2})?)?|((Mars|Jupiter|Saturn|Uranus|Neptune) \\d{1,3}|\\(\\d+\\) \\d{1,3})")]), lengthLayer, strLayer]) := ⟨by kernel_rfl, by kernel_rfl⟩

theorem has_disc {v : Str} : Alt.Has (c! "xsd:string", [(c! "xsd:string", [c! "*", c! "+"].map fun v => (c! "xsd:enumeration", v))]) v ↔ v = c! "*" ∨ v = c! "+" := by
  rw [has_listed (by simp)]; simp

theorem provID_submit (v : Str) : ValidDocument xsd submitSchema (.mk (c! "provID") (some v) [] []) ↔ ProvisionalName v := by
  rw [leaf_iff (T := c! "ProvIDType") (by kernel_rfl) (by kernel_rfl),
    type_one (a := (c! "xsd:string", [(c! "xsd:string", [(c! "xsd:pattern", c! "\\d{4} [A-HJ-Y][A-HJ-Z]\\d*|\\d{4} (P-L|T-[123])|[ADCPX]/\\d{4} [A-Z]{1,2}\\d*(-[A-Z])?|S/\\d{4} ((M|J|S|U|N)|\\((\\d+|\\d{4} [A-HJ-Y][A-HJ-Z]?\\d+)\\)) \\d+")]), lengthLayer, strLayer])) (by kernel_rfl), has_prov]

theorem trkSub_submit (v : Str) : ValidDocument xsd submitSchema (.mk (c! "trkSub") (some v) [] []) ↔ TrackletName v := by
  rw [leaf_iff (T := c! "TrkSubType") (by kernel_rfl) (by kernel_rfl),
    type_one (a := (c! "xsd:string", [(c! "xsd:string", [(c! "xsd:pattern", c! "[-A-Za-z0-9_]*"), (c! "xsd:maxLength", c! "8")]), strLayer])) (by kernel_rfl), has_tracklet]

theorem obsCenter_submit (v : Str) : ValidDocument xsd submitSchema (.mk (c! "obsCenter") (some v) [] []) ↔
    PermanentName v ∨ ProvisionalName v ∨ v ∈ [c! "Mercury", c! "Venus", c! "Earth", c! "Moon", c! "Mars", c! "Jupiter", c! "Saturn", c! "Uranus", c! "Neptune"] := by
  rw [leaf_iff (T := c! "ObsCenterType") (by kernel_rfl) (by kernel_rfl),
    hasType_iff (l := [(c! "xsd:string", [(c! "xsd:string", [(c! "xsd:pattern", c! "\\d+([IPD](-[A-Z]{1,2})?)?|((Mars|Jupiter|Saturn|Uranus|Neptune) \\d{1,3}|\\(\\d+\\) \\d{1,3})")]), lengthLayer, strLayer]),
      (c! "xsd:string", [(c! "xsd:string", [(c! "xsd:pattern", c! "\\d{4} [A-HJ-Y][A-HJ-Z]\\d*|\\d{4} (P-L|T-[123])|[ADCPX]/\\d{4} [A-Z]{1,2}\\d*(-[A-Z])?|S/\\d{4} ((M|J|S|U|N)|\\((\\d+|\\d{4} [A-HJ-Y][A-HJ-Z]?\\d+)\\)) \\d+")]), lengthLayer, strLayer]),
      (c! "xsd:string", [(c! "xsd:string", [c! "Mercury", c! "Venus", c! "Earth", c! "Moon", c! "Mars", c! "Jupiter", c! "Saturn", c! "Uranus", c! "Neptune"].map fun v => (c! "xsd:enumeration", v)), lengthLayer, strLayer])]) (f := 9) (by kernel_rfl)]
  simp only [List.mem_cons, List.not_mem_nil, or_false, exists_eq_or_imp, exists_eq_left]
  rw [has_perm, has_prov, has_planet (by simp) (by decide)]
  simp only [List.mem_cons, List.not_mem_nil, or_false]

/-- a field has the values it should have -/
def Right (S : Schema) (p : Str × (Str → Prop)) : Prop := ∀ v, ValidDocument xsd S (.mk p.1 (some v) [] []) ↔ p.2 v

end Fields

open Fields

theorem fields_right {S : Schema} (hS : S = submitSchema ∨ S = generalSchema) : ∀ p ∈ fieldValue, p.1 ∉ [c! "provID", c! "trkSub", c! "obsCenter"] → Right S p := by
  have right : ∀ {n T : Str} {a : Alt} {P : Str → Prop}, declared n T = true → OneType T a → (∀ v, a.Has v ↔ P v) → (n ∉ [c! "provID", c! "trkSub", c! "obsCenter"] → Right S (n, P)) :=
    fun h1 h2 h3 _ v => both h1 h2 h3 hS v
  have skip : ∀ {n : Str} {P : Str → Prop}, n ∈ [c! "provID", c! "trkSub", c! "obsCenter"] → (n ∉ [c! "provID", c! "trkSub", c! "obsCenter"] → Right S (n, P)) := fun h h' => absurd h h'
  unfold fieldValue
  refine List.forall_mem_cons.2 ⟨right (T := c! "PermIDType") (by decide +kernel) PermIDType fun v => has_perm, ?_⟩
  refine List.forall_mem_cons.2 ⟨skip (by decide), ?_⟩
  refine List.forall_mem_cons.2 ⟨right (T := c! "StringTypeW25") (by decide +kernel) StringTypeW25 fun v => has_text rfl, ?_⟩
  refine List.forall_mem_cons.2 ⟨skip (by decide), ?_⟩
  refine List.forall_mem_cons.2 ⟨right (T := c! "StringTypeW25") (by decide +kernel) StringTypeW25 fun v => has_text rfl, ?_⟩
  refine List.forall_mem_cons.2 ⟨right (T := c! "ModeType") (by decide +kernel) ModeType fun v => has_code rfl, ?_⟩
  refine List.forall_mem_cons.2 ⟨right (T := c! "StationType") (by decide +kernel) StationType fun v => has_station, ?_⟩
  refine List.forall_mem_cons.2 ⟨right (T := c! "StationType") (by decide +kernel) StationType fun v => has_station, ?_⟩
  refine List.forall_mem_cons.2 ⟨right (T := c! "StationType") (by decide +kernel) StationType fun v => has_station, ?_⟩
  refine List.forall_mem_cons.2 ⟨right (T := c! "SysType") (by decide +kernel) SysType fun v => has_listed (by simp), ?_⟩
  refine List.forall_mem_cons.2 ⟨right (T := c! "CtrType") (by decide +kernel) CtrType fun v => has_centre, ?_⟩
  refine List.forall_mem_cons.2 ⟨right (T := c! "DecimalTypeW14") (by decide +kernel) DecimalTypeW14 fun v => has_signed (by kernel_rfl), ?_⟩
  refine List.forall_mem_cons.2 ⟨right (T := c! "DecimalTypeW14") (by decide +kernel) DecimalTypeW14 fun v => has_signed (by kernel_rfl), ?_⟩
  refine List.forall_mem_cons.2 ⟨right (T := c! "DecimalTypeW14") (by decide +kernel) DecimalTypeW14 fun v => has_signed (by kernel_rfl), ?_⟩
  refine List.forall_mem_cons.2 ⟨right (T := c! "DecimalTypeW14") (by decide +kernel) DecimalTypeW14 fun v => has_signed (by kernel_rfl), ?_⟩
  refine List.forall_mem_cons.2 ⟨right (T := c! "DecimalTypeW14") (by decide +kernel) DecimalTypeW14 fun v => has_signed (by kernel_rfl), ?_⟩
  refine List.forall_mem_cons.2 ⟨right (T := c! "DecimalTypeW14") (by decide +kernel) DecimalTypeW14 fun v => has_signed (by kernel_rfl), ?_⟩
  refine List.forall_mem_cons.2 ⟨right (T := c! "DoubleTypeW21") (by decide +kernel) DoubleTypeW21 fun v => has_covariance, ?_⟩
  refine List.forall_mem_cons.2 ⟨right (T := c! "DoubleTypeW21") (by decide +kernel) DoubleTypeW21 fun v => has_covariance, ?_⟩
  refine List.forall_mem_cons.2 ⟨right (T := c! "DoubleTypeW21") (by decide +kernel) DoubleTypeW21 fun v => has_covariance, ?_⟩
  refine List.forall_mem_cons.2 ⟨right (T := c! "DoubleTypeW21") (by decide +kernel) DoubleTypeW21 fun v => has_covariance, ?_⟩
  refine List.forall_mem_cons.2 ⟨right (T := c! "DoubleTypeW21") (by decide +kernel) DoubleTypeW21 fun v => has_covariance, ?_⟩
  refine List.forall_mem_cons.2 ⟨right (T := c! "DoubleTypeW21") (by decide +kernel) DoubleTypeW21 fun v => has_covariance, ?_⟩
  refine List.forall_mem_cons.2 ⟨right (T := c! "PosDecimalTypeW8") (by decide +kernel) PosDecimalTypeW8 fun v => has_positive (by kernel_rfl), ?_⟩
  refine List.forall_mem_cons.2 ⟨right (T := c! "RAType") (by decide +kernel) RAType fun v => has_ra, ?_⟩
  refine List.forall_mem_cons.2 ⟨right (T := c! "DeclinationType") (by decide +kernel) DeclinationType fun v => has_dec, ?_⟩
  refine List.forall_mem_cons.2 ⟨right (T := c! "RAType") (by decide +kernel) RAType fun v => has_ra, ?_⟩
  refine List.forall_mem_cons.2 ⟨right (T := c! "DeclinationType") (by decide +kernel) DeclinationType fun v => has_dec, ?_⟩
  refine List.forall_mem_cons.2 ⟨skip (by decide), ?_⟩
  refine List.forall_mem_cons.2 ⟨right (T := c! "DecimalTypeW10") (by decide +kernel) DecimalTypeW10 fun v => has_signed (by kernel_rfl), ?_⟩
  refine List.forall_mem_cons.2 ⟨right (T := c! "DecimalTypeW10") (by decide +kernel) DecimalTypeW10 fun v => has_signed (by kernel_rfl), ?_⟩
  refine List.forall_mem_cons.2 ⟨right (T := c! "PosDecimalTypeW10") (by decide +kernel) PosDecimalTypeW10 fun v => has_positive (by kernel_rfl), ?_⟩
  refine List.forall_mem_cons.2 ⟨right (T := c! "RAType") (by decide +kernel) RAType fun v => has_ra, ?_⟩
  refine List.forall_mem_cons.2 ⟨right (T := c! "PosDecimalTypeW7") (by decide +kernel) PosDecimalTypeW7 fun v => has_positive (by kernel_rfl), ?_⟩
  refine List.forall_mem_cons.2 ⟨right (T := c! "PosDecimalTypeW7") (by decide +kernel) PosDecimalTypeW7 fun v => has_positive (by kernel_rfl), ?_⟩
  refine List.forall_mem_cons.2 ⟨right (T := c! "PosDecimalTypeW6") (by decide +kernel) PosDecimalTypeW6 fun v => has_positive (by kernel_rfl), ?_⟩
  refine List.forall_mem_cons.2 ⟨right (T := c! "PosDecimalTypeW6") (by decide +kernel) PosDecimalTypeW6 fun v => has_positive (by kernel_rfl), ?_⟩
  refine List.forall_mem_cons.2 ⟨right (T := c! "CorrDecimalType") (by decide +kernel) CorrDecimalType fun v => has_corr, ?_⟩
  refine List.forall_mem_cons.2 ⟨right (T := c! "PosDecimalTypeW14") (by decide +kernel) PosDecimalTypeW14 fun v => has_positive (by kernel_rfl), ?_⟩
  refine List.forall_mem_cons.2 ⟨right (T := c! "PosDecimalTypeW6") (by decide +kernel) PosDecimalTypeW6 fun v => has_positive (by kernel_rfl), ?_⟩
  refine List.forall_mem_cons.2 ⟨right (T := c! "DecimalTypeW14") (by decide +kernel) DecimalTypeW14 fun v => has_signed (by kernel_rfl), ?_⟩
  refine List.forall_mem_cons.2 ⟨right (T := c! "PosDecimalTypeW6") (by decide +kernel) PosDecimalTypeW6 fun v => has_positive (by kernel_rfl), ?_⟩
  refine List.forall_mem_cons.2 ⟨right (T := c! "CatType") (by decide +kernel) CatType fun v => has_catalogue, ?_⟩
  refine List.forall_mem_cons.2 ⟨right (T := c! "MagType") (by decide +kernel) MagType fun v => has_mag (by kernel_rfl), ?_⟩
  refine List.forall_mem_cons.2 ⟨right (T := c! "PosDecimalTypeW6") (by decide +kernel) PosDecimalTypeW6 fun v => has_positive (by kernel_rfl), ?_⟩
  refine List.forall_mem_cons.2 ⟨right (T := c! "BandType") (by decide +kernel) BandType fun v => has_code rfl, ?_⟩
  refine List.forall_mem_cons.2 ⟨right (T := c! "BandType") (by decide +kernel) BandType fun v => has_code rfl, ?_⟩
  refine List.forall_mem_cons.2 ⟨right (T := c! "CatType") (by decide +kernel) CatType fun v => has_catalogue, ?_⟩
  refine List.forall_mem_cons.2 ⟨right (T := c! "PosDecimalTypeW6") (by decide +kernel) PosDecimalTypeW6 fun v => has_positive (by kernel_rfl), ?_⟩
  refine List.forall_mem_cons.2 ⟨right (T := c! "LogicalType") (by decide +kernel) LogicalType fun v => has_logical, ?_⟩
  refine List.forall_mem_cons.2 ⟨right (T := c! "DecimalTypeW6") (by decide +kernel) DecimalTypeW6 fun v => has_signed (by kernel_rfl), ?_⟩
  refine List.forall_mem_cons.2 ⟨right (T := c! "LogicalType") (by decide +kernel) LogicalType fun v => has_logical, ?_⟩
  refine List.forall_mem_cons.2 ⟨right (T := c! "PosDecimalTypeW6") (by decide +kernel) PosDecimalTypeW6 fun v => has_positive (by kernel_rfl), ?_⟩
  refine List.forall_mem_cons.2 ⟨right (T := c! "PosDecimalTypeW6") (by decide +kernel) PosDecimalTypeW6 fun v => has_positive (by kernel_rfl), ?_⟩
  refine List.forall_mem_cons.2 ⟨right (T := c! "PosDecimalTypeW6") (by decide +kernel) PosDecimalTypeW6 fun v => has_positive (by kernel_rfl), ?_⟩
  refine List.forall_mem_cons.2 ⟨right (T := c! "PosIntegerTypeW6") (by decide +kernel) PosIntegerTypeW6 fun v => has_count, ?_⟩
  refine List.forall_mem_cons.2 ⟨right (T := c! "LogicalType") (by decide +kernel) LogicalType fun v => has_logical, ?_⟩
  refine List.forall_mem_cons.2 ⟨right (T := c! "FrequencyType") (by decide +kernel) FrequencyType fun v => has_frequency, ?_⟩
  refine List.forall_mem_cons.2 ⟨right (T := c! "DiscType") (by decide +kernel) DiscType fun v => has_disc, ?_⟩
  refine List.forall_mem_cons.2 ⟨right (T := c! "PosDecimalTypeW8") (by decide +kernel) PosDecimalTypeW8 fun v => has_positive (by kernel_rfl), ?_⟩
  refine List.forall_mem_cons.2 ⟨right (T := c! "NotesType") (by decide +kernel) NotesType fun v => has_code rfl, ?_⟩
  refine List.forall_mem_cons.2 ⟨right (T := c! "RemarkType") (by decide +kernel) RemarkType fun v => has_text rfl, ?_⟩
  simp

namespace Fields

/-! ### what only archives use -/

theorem has_deprecated {v : Str} : Alt.Has (c! "xsd:string", [(c! "xsd:string", [c! "X"].map fun v => (c! "xsd:enumeration", v))]) v ↔ v = c! "X" := by
  rw [has_listed (by simp)]; simp

theorem general_one {n T : Str} {a : Alt} {P : Str → Prop} (h1 : lookup generalSchema.elements n = some T) (h2 : lookup generalSchema.complex T = none) (h3 : Xsd.alts generalSchema generalSchema 9 T = some [a])
    (hp : ∀ v, a.Has v ↔ P v) : Right generalSchema (n, P) := by
  intro v
  show ValidDocument xsd generalSchema (.mk n (some v) [] []) ↔ P v
  rw [← hp v, leaf_iff h1 h2, type_one h3]

def nameAlt (p : Str) : Alt := (c! "xsd:string", [(c! "xsd:string", [(c! "xsd:pattern", p)]), lengthLayer, strLayer])

def permPattern : Str := c! "\\d+([IPD](-[A-Z]{1,2})?)?|((Mars|Jupiter|Saturn|Uranus|Neptune) \\d{1,3}|\\(\\d+\\) \\d{1,3})"
def provPattern : Str := c! "\\d{4} [A-HJ-Y][A-HJ-Z]\\d*|\\d{4} (P-L|T-[123])|[ADCPX]/\\d{4} [A-Z]{1,2}\\d*(-[A-Z])?|S/\\d{4} ((M|J|S|U|N)|\\((\\d+|\\d{4} [A-HJ-Y][A-HJ-Z]?\\d+)\\)) \\d+"
def planets : List Str := [c! "Mercury", c! "Venus", c! "Earth", c! "Moon", c! "Mars", c! "Jupiter", c! "Saturn", c! "Uranus", c! "Neptune"]

theorem provID_general (v : Str) : ValidDocument xsd generalSchema (.mk (c! "provID") (some v) [] []) ↔ ProvisionalName v ∨ OldName v := by
  rw [leaf_iff (T := c! "ProvIDType") (by kernel_rfl) (by kernel_rfl),
    hasType_iff (l := [nameAlt provPattern, nameAlt (c! "A[89]\\d{2} [A-HJ-Y][A-HJ-Z]")]) (f := 9) (by kernel_rfl)]
  simp only [List.mem_cons, List.not_mem_nil, or_false, exists_eq_or_imp, exists_eq_left, nameAlt, provPattern]
  rw [has_prov, has_oldName]

theorem trkSub_general (v : Str) : ValidDocument xsd generalSchema (.mk (c! "trkSub") (some v) [] []) ↔ TrackletName v ∨ OldTracklet v := by
  rw [leaf_iff (T := c! "TrkSubType") (by kernel_rfl) (by kernel_rfl),
    hasType_iff (l := [(c! "xsd:string", [(c! "xsd:string", [(c! "xsd:pattern", c! "[-A-Za-z0-9_]*"), (c! "xsd:maxLength", c! "8")]), strLayer]),
      (c! "xsd:string", [(c! "xsd:string", [(c! "xsd:pattern", c! "[- ?+@.()/\\\\A-Za-z0-9_]*"), (c! "xsd:maxLength", c! "8")]), strLayer])]) (f := 9) (by kernel_rfl)]
  simp only [List.mem_cons, List.not_mem_nil, or_false, exists_eq_or_imp, exists_eq_left]
  rw [has_tracklet, has_oldTracklet]

theorem obsCenter_general (v : Str) : ValidDocument xsd generalSchema (.mk (c! "obsCenter") (some v) [] []) ↔
    PermanentName v ∨ ProvisionalName v ∨ OldName v ∨ v ∈ [c! "Mercury", c! "Venus", c! "Earth", c! "Moon", c! "Mars", c! "Jupiter", c! "Saturn", c! "Uranus", c! "Neptune"] := by
  rw [leaf_iff (T := c! "ObsCenterType") (by kernel_rfl) (by kernel_rfl),
    hasType_iff (l := [nameAlt permPattern, nameAlt provPattern, nameAlt (c! "A[89]\\d{2} [A-HJ-Y][A-HJ-Z]"),
      (c! "xsd:string", [(c! "xsd:string", planets.map fun v => (c! "xsd:enumeration", v)), lengthLayer, strLayer])]) (f := 9) (by kernel_rfl)]
  simp only [List.mem_cons, List.not_mem_nil, or_false, exists_eq_or_imp, exists_eq_left, nameAlt, provPattern, permPattern]
  rw [has_perm, has_prov, has_oldName, has_planet (by simp [planets]) (by decide)]
  simp only [planets, List.mem_cons, List.not_mem_nil, or_false]

theorem oneOf_same {l m : List Rat} (h : ∀ q, q ∈ l ↔ q ∈ m) (v : Str) : OneOf l v ↔ OneOf m v := by simp only [OneOf, h]

theorem has_precTime {v : Str} : Alt.Has (c! "xsd:decimal", [(c! "xsd:decimal", [c! "100000", c! "10000", c! "1000", c! "100", c! "10", c! "1", c! "41667", c! "4167", c! "694", c! "69"].map fun v => (c! "xsd:enumeration", v))]) v ↔
    OneOf [1, 10, 69, 100, 694, 1000, 4167, 10000, 41667, 100000] (trim v) := by
  rw [has_oneOf (ps := [100000, 10000, 1000, 100, 10, 1, 41667, 4167, 694, 69]) (by decide +kernel) (by simp) rfl]
  exact oneOf_same (fun q => by simp only [List.mem_cons, List.not_mem_nil, or_false]; tauto) _

theorem has_precAngle {v : Str} : Alt.Has (c! "xsd:decimal", [(c! "xsd:decimal", [c! "0.1", c! "0.6", c! "0.01", c! "0.001", c! "60", c! "6", c! "1"].map fun v => (c! "xsd:enumeration", v))]) v ↔
    OneOf [1 / 1000, 1 / 100, 1 / 10, 6 / 10, 1, 6, 60] (trim v) := by
  rw [has_oneOf (ps := [1 / 10, 6 / 10, 1 / 100, 1 / 1000, 60, 6, 1]) (by decide +kernel) (by simp) rfl]
  exact oneOf_same (fun q => by simp only [List.mem_cons, List.not_mem_nil, or_false]; tauto) _

/-! ### observations -/

open Submission

/-- names and types of the sub-elements of a type in submissions -/
def kidTypes (T : Str) : List (Str × Str) := letters submitSchema 40 (.seq (contentOf T))
def open' (T : Str) : Bool := (lookup submitSchema.complex T).isSome && known submitSchema 40 (.seq (contentOf T))

theorem kid_type {T : Str} (ho : open' T = true) {e k : Elem} (h : Valid xsd submitSchema (.typed T e)) (hk : k ∈ e.kids) : ∃ t, (k.tag, t) ∈ kidTypes T ∧ Valid xsd submitSchema (.typed t k) := by
  simp only [open', Bool.and_eq_true, Option.isSome_iff_exists] at ho
  obtain ⟨⟨c, hc⟩, h2⟩ := ho
  have e : contentOf T = c.content := by simp [contentOf, hc]
  unfold kidTypes
  rw [e] at h2 ⊢
  obtain ⟨-, -, w, -, -, h5⟩ := complex_kids hc h2 h
  exact h5 k hk

/-- the fields of all kinds of observations are of the types of the elements of their names, and are in the table -/
def fieldsKnown : Bool := psvKinds.all fun t => open' (typeName t) && noAttributes (typeName t) && (kidTypes (typeName t)).all fun p =>
  lookup submitSchema.elements p.1 = some p.2 && (lookup submitSchema.complex p.2).isNone && (p.1 = c! "obsTime" || (fieldValue.map (·.1)).contains p.1)

theorem fields_known : fieldsKnown = true := by decide +kernel

theorem paths : kidTypes (c! "ADESType") = [(c! "obsBlock", c! "ObsBlockType")] ∧ kidTypes (c! "ObsBlockType") = [(c! "obsContext", c! "ObsContextType"), (c! "obsData", c! "ObsDataType")] ∧
    kidTypes (c! "ObsDataType") = psvKinds.map (fun t => (t, typeName t)) ∧ open' (c! "ADESType") = true ∧ open' (c! "ObsBlockType") = true ∧ open' (c! "ObsDataType") = true := by decide +kernel

/-- the observations of a submission -/
theorem observation_of {doc o : Elem} (hr : doc.tag = c! "ades") (hv : ValidDocument xsd submitSchema doc) (ho : o ∈ doc.kids.flatMap observationsIn) :
    ∃ t ∈ psvKinds, o.tag = t ∧ Valid xsd submitSchema (.typed (typeName t) o) := by
  obtain ⟨p1, p2, p3, q1, q2, q3⟩ := paths
  obtain ⟨T, hT, hv⟩ := hv
  rw [hr, ades_type] at hT
  cases hT
  obtain ⟨b, hb, ho⟩ := List.mem_flatMap.1 ho
  obtain ⟨t, ht, hvb⟩ := kid_type q1 hv hb
  rw [p1, List.mem_singleton, Prod.mk.injEq] at ht
  obtain ⟨tb, rfl⟩ := ht
  simp only [observationsIn, tb, if_true] at ho
  obtain ⟨d, hd, ho⟩ := List.mem_flatMap.1 ho
  obtain ⟨hd, td⟩ := List.mem_filter.1 hd
  have td : d.tag = c! "obsData" := by simpa using td
  obtain ⟨t, ht, hvd⟩ := kid_type q2 hvb hd
  rw [p2, td] at ht
  have : t = c! "ObsDataType" := by
    rcases List.mem_cons.1 ht with h | h
    · cases h
    · simpa using h
  subst this
  obtain ⟨t, ht, hvo⟩ := kid_type q3 hvd ho
  rw [p3] at ht
  obtain ⟨u, hu, e⟩ := List.mem_map.1 ht
  cases e
  exact ⟨_, hu, rfl, hvo⟩

end Fields

open Submission

/-- **C49.** The fields of observations in submissions have exactly the values of the table `Spec.fieldValue`. -/
theorem C49_fields : ∀ p ∈ fieldValue, ∀ v, ValidDocument xsd submitSchema (.mk p.1 (some v) [] []) ↔ p.2 v := by
  intro p hp
  by_cases h : p.1 ∈ [c! "provID", c! "trkSub", c! "obsCenter"]
  · have hm : ∀ q ∈ fieldValue, q.1 ∈ [c! "provID", c! "trkSub", c! "obsCenter"] → Right submitSchema q := by
      have skip : ∀ {n : Str} {P : Str → Prop}, n ∉ [c! "provID", c! "trkSub", c! "obsCenter"] → (n ∈ [c! "provID", c! "trkSub", c! "obsCenter"] → Right submitSchema (n, P)) := fun h h' => absurd h' h
      unfold fieldValue
      refine List.forall_mem_cons.2 ⟨skip (by decide), ?_⟩
      refine List.forall_mem_cons.2 ⟨fun _ => provID_submit, ?_⟩
      refine List.forall_mem_cons.2 ⟨skip (by decide), ?_⟩
      refine List.forall_mem_cons.2 ⟨fun _ => trkSub_submit, ?_⟩
      iterate 24 refine List.forall_mem_cons.2 ⟨skip (by decide), ?_⟩
      refine List.forall_mem_cons.2 ⟨fun _ => obsCenter_submit, ?_⟩
      iterate 33 refine List.forall_mem_cons.2 ⟨skip (by decide), ?_⟩
      simp
    exact hm p hp h
  · exact fields_right (.inl rfl) p hp h

/-- The general schema admits the same values, but for three fields … -/
theorem C49_general : ∀ p ∈ fieldValue, p.1 ∉ [c! "provID", c! "trkSub", c! "obsCenter"] → ∀ v, ValidDocument xsd generalSchema (.mk p.1 (some v) [] []) ↔ p.2 v :=
  fields_right (.inr rfl)

/-- … which, with some further fields, have exactly the values of the table `Spec.archiveValue`. -/
theorem C49_archive : ∀ p ∈ archiveValue, ∀ v, ValidDocument xsd generalSchema (.mk p.1 (some v) [] []) ↔ p.2 v := by
  have main : ∀ p ∈ archiveValue, Right generalSchema p := by
    unfold archiveValue
    refine List.forall_mem_cons.2 ⟨provID_general, ?_⟩
    refine List.forall_mem_cons.2 ⟨trkSub_general, ?_⟩
    refine List.forall_mem_cons.2 ⟨obsCenter_general, ?_⟩
    refine List.forall_mem_cons.2 ⟨general_one (T := c! "ObsIDType") (a := (c! "xsd:string", [(c! "xsd:string", [(c! "xsd:maxLength", c! "25")]), (c! "xsd:string", [(c! "xsd:pattern", c! "[A-Za-z0-9_]*")]), strLayer])) (by kernel_rfl) (by kernel_rfl) (by kernel_rfl) fun v => has_code rfl, ?_⟩
    refine List.forall_mem_cons.2 ⟨general_one (T := c! "TrkIDType") (by kernel_rfl) (by kernel_rfl) (by kernel_rfl) fun v => has_tracklet12, ?_⟩
    refine List.forall_mem_cons.2 ⟨general_one (T := c! "TrkIDType") (by kernel_rfl) (by kernel_rfl) (by kernel_rfl) fun v => has_tracklet12, ?_⟩
    refine List.forall_mem_cons.2 ⟨general_one (T := c! "ProgType") (a := (c! "xsd:string", [(c! "xsd:string", [(c! "xsd:maxLength", c! "2")]), (c! "xsd:string", [(c! "xsd:pattern", c! "[A-Za-z0-9_]*")]), strLayer])) (by kernel_rfl) (by kernel_rfl) (by kernel_rfl) fun v => has_code rfl, ?_⟩
    refine List.forall_mem_cons.2 ⟨general_one (T := c! "RefType") (a := (c! "xsd:string", [(c! "xsd:string", [(c! "xsd:maxLength", c! "16")]), strLayer])) (by kernel_rfl) (by kernel_rfl) (by kernel_rfl) fun v => has_text rfl, ?_⟩
    refine List.forall_mem_cons.2 ⟨general_one (T := c! "SubFmtType") (a := (c! "xsd:string", [(c! "xsd:string", [(c! "xsd:maxLength", c! "4")]), (c! "xsd:string", [(c! "xsd:pattern", c! "[A-Za-z0-9_]*")]), strLayer])) (by kernel_rfl) (by kernel_rfl) (by kernel_rfl) fun v => has_code rfl, ?_⟩
    refine List.forall_mem_cons.2 ⟨general_one (T := c! "DeprecatedType") (by kernel_rfl) (by kernel_rfl) (by kernel_rfl) fun v => has_deprecated, ?_⟩
    refine List.forall_mem_cons.2 ⟨general_one (T := c! "TimePrecType") (by kernel_rfl) (by kernel_rfl) (by kernel_rfl) fun v => has_precTime, ?_⟩
    refine List.forall_mem_cons.2 ⟨general_one (T := c! "RaDecPrecType") (by kernel_rfl) (by kernel_rfl) (by kernel_rfl) fun v => has_precAngle, ?_⟩
    refine List.forall_mem_cons.2 ⟨general_one (T := c! "RaDecPrecType") (by kernel_rfl) (by kernel_rfl) (by kernel_rfl) fun v => has_precAngle, ?_⟩
    simp
  exact main

/-- Times of observations are times of the calendar or leap seconds, in both schemas. -/
theorem C49_time {S : Schema} (hS : S = submitSchema ∨ S = generalSchema) {v : Str} (hv : AsciiText v) : ValidDocument xsd S (.mk (c! "obsTime") (some v) [] []) ↔ OrdinaryTime (trim v) ∨ LeapTime v := by
  have h : ∀ T, T = S → (ValidDocument xsd T (.mk (c! "obsTime") (some v) [] []) ↔ OrdinaryTime (trim v) ∨ LeapTime v) := by
    rcases hS with rfl | rfl <;> intro T hT <;> rw [hT] <;>
    · rw [leaf_iff (T := c! "TimeType") (by kernel_rfl) (by kernel_rfl),
        hasType_iff (l := [(c! "xsd:dateTime", [(c! "xsd:dateTime", [(c! "xsd:pattern", c! "\\d{4}-\\d{2}-\\d{2}T\\d{2}:\\d{2}:\\d{2}(\\.\\d{1,6})?Z")])]),
          (c! "xsd:string", [(c! "xsd:string", leapPatterns.map fun p => (c! "xsd:pattern", p))])]) (f := 9) (by kernel_rfl)]
      simp only [List.mem_cons, List.not_mem_nil, or_false, exists_eq_or_imp, exists_eq_left]
      rw [has_time, has_leap hv]
  exact h S rfl

/-- Every observation in a valid submission consists of fields of the table and times, each with such a value. -/
theorem C49_observation {doc o k : Elem} (hr : doc.tag = c! "ades") (hv : ValidDocument xsd submitSchema doc) (ho : o ∈ doc.kids.flatMap observationsIn) (hk : k ∈ o.kids) :
    k = .mk k.tag k.text [] [] ∧ ((k.tag = c! "obsTime" ∧ (AsciiText (k.text.getD []) → OrdinaryTime (trim (k.text.getD [])) ∨ LeapTime (k.text.getD []))) ∨ ∃ p ∈ fieldValue, p.1 = k.tag ∧ p.2 (k.text.getD [])) := by
  obtain ⟨t, ht, -, hvo⟩ := observation_of hr hv ho
  have h := List.all_eq_true.1 fields_known t ht
  simp only [Bool.and_eq_true, List.all_eq_true] at h
  obtain ⟨⟨h1, -⟩, h2⟩ := h
  obtain ⟨T, hT, hvk⟩ := kid_type h1 hvo hk
  have h3 := h2 _ hT
  simp only [Bool.or_eq_true, decide_eq_true_eq, Option.isNone_iff_eq_none] at h3
  obtain ⟨⟨h3, h4⟩, h5⟩ := h3
  obtain ⟨e1, e2⟩ := simple_elem h4 hvk
  have hd := (leaf_iff h3 h4).2 e2
  refine ⟨e1, ?_⟩
  rcases h5 with h5 | h5
  · left
    refine ⟨h5, fun ha => ?_⟩
    rw [h5] at hd
    exact (C49_time (.inl rfl) ha).1 hd
  · right
    obtain ⟨p, hp, hpt⟩ := List.mem_map.1 (List.contains_iff_mem.1 h5)
    refine ⟨p, hp, hpt, (C49_fields p hp _).1 ?_⟩
    rw [hpt]; exact hd

/-! ### the hypotheses, and examples -/

/-- `sampleDoc` is such a submission, and its fields are of the table -/
example : ∀ o ∈ sampleDoc.kids.flatMap observationsIn, ∀ k ∈ o.kids, k = .mk k.tag k.text [] [] := fun _ ho _ hk => (C49_observation rfl sampleDoc_submit ho hk).1
example : ((sampleDoc.kids.flatMap observationsIn).flatMap Elem.kids).length ≥ 10 := by decide +kernel

/-- a comet, with a fragment -/
example : ValidDocument xsd submitSchema (.mk (c! "permID") (some (c! "73P-BF")) [] []) :=
  (C49_fields (c! "permID", PermanentName) (by simp [fieldValue]) _).2 ⟨by decide, .inl ⟨c! "73", ⟨by decide, by simp, by decide⟩, .inr ⟨'P', by decide, .inr ⟨c! "BF", by decide, by decide, by simp [Capital], rfl⟩⟩⟩⟩

/-- a code of two characters is no station -/
example : ¬ ValidDocument xsd submitSchema (.mk (c! "stn") (some (c! "F5")) [] []) := by
  intro h
  have := (C49_fields (c! "stn", Code 3 4) (by simp [fieldValue]) _).1 h
  exact absurd this.1 (by decide)

/-- right ascensions may begin with the point -/
example : ValidDocument xsd submitSchema (.mk (c! "ra") (some (c! " .5 ")) [] []) :=
  (C49_fields (c! "ra", fun v => RightAscension (trim v)) (by simp [fieldValue]) _).2 ⟨⟨none, [], some ['5']⟩, ⟨⟨by simp, by decide, by decide⟩, by simp⟩, by decide, rfl, by decide, by decide +kernel⟩

/-- A90x names are for archives only -/
example : ValidDocument xsd generalSchema (.mk (c! "provID") (some (c! "A904 OA")) [] []) :=
  (C49_archive (c! "provID", fun v => ProvisionalName v ∨ OldName v) (by simp [archiveValue]) _).2 (.inr ⟨'9', c! "04", 'O', 'A', by decide, ⟨by decide, by simp, by decide⟩, by simp [HalfMonth], by simp [Second], rfl⟩)
example : ¬ ValidDocument xsd submitSchema (.mk (c! "provID") (some (c! "A904 OA")) [] []) := by
  intro h
  obtain ⟨-, y, hy, h⟩ := (C49_fields (c! "provID", ProvisionalName) (by simp [fieldValue]) _).1 h
  have hy4 : y.length = 4 := Nat.le_antisymm (hy.2.1 4 rfl) hy.1
  match y, hy4 with
  | [a, b, c, d], _ =>
    have ha : isDec a = true := hy.2.2 a (by simp)
    rcases h with ⟨h, s, n, -, -, -, e⟩ | ⟨s, -, e⟩ | ⟨k, l, n, f, -, -, -, -, -, -, e⟩ | ⟨p, n, -, e, -⟩
    all_goals simp at e
    all_goals (try (obtain ⟨rfl, -⟩ := e; revert ha; decide))

/-- a leap second, and the last moment of a day -/
example : ValidDocument xsd submitSchema (.mk (c! "obsTime") (some (c! "2016-12-31T23:59:60.5Z")) [] []) :=
  (C49_time (.inl rfl) (by unfold AsciiText; decide)).2 (.inr ⟨2016, c! "-12-31", c! ".5", by decide, by decide, .inr ⟨'.', ['5'], by decide, by decide, rfl, by decide⟩, by decide⟩)
example : ValidDocument xsd submitSchema (.mk (c! "obsTime") (some (c! "2016-02-29T24:00:00.0Z")) [] []) :=
  (C49_time (.inl rfl) (by unfold AsciiText; decide)).2 (.inl ⟨2016, 2, 29, 24, 0, 0, c! ".0", by decide, by decide, by decide, by decide, by decide, by decide, .inr ⟨['0'], by decide, by decide, by decide, rfl⟩, by decide, by decide⟩)

end Verif
