import Verif.Master
import Verif.MasterData
import Lean.Elab.Tactic.Basic
/-!
  GENERATED by tools/gentables.lean.txt (run with `lake env lean`): the values of the
  model functions of `Verif.Master` on /repo/xml/adesmaster.xml, as literals; the
  equations at the end are checked by the kernel.
-/
namespace Verif.Master
open Verif Verif.Xml Verif.Spec

def generalSchema_simple : List (Str × SimpleType) := [
  (c! "AlphaNumericType", ⟨none, some (c! "StringType", [(c! "xsd:pattern", c! "[A-Za-z0-9_]*")])⟩),
  (c! "MagType", ⟨none, some (c! "DecimalTypeW8", [(c! "xsd:minInclusive", c! "-5.0"), (c! "xsd:maxInclusive", c! "35.0")])⟩),
  (c! "BandType", ⟨none, some (c! "AlphaNumericType", [(c! "xsd:maxLength", c! "3")])⟩),
  (c! "CatType", ⟨none, some (c! "StringType", [(c! "xsd:pattern", c! "[.A-Za-z0-9_]*"), (c! "xsd:maxLength", c! "8")])⟩),
  (c! "CorrDecimalType", ⟨none, some (c! "xsd:decimal", [(c! "xsd:minExclusive", c! "-1.0"), (c! "xsd:maxExclusive", c! "1.0"), (c! "xsd:pattern", c! "[+\\-]?(0|1)(\\.[0123456789]{0,11})?")])⟩),
  (c! "DecimalType", ⟨none, some (c! "xsd:decimal", [(c! "xsd:pattern", c! "[+\\-]?(0|([1-9][0-9]*))(\\.[0-9]*)?")])⟩),
  (c! "DecimalTypeW6", ⟨none, some (c! "DecimalType", [(c! "xsd:pattern", c! "[+\\-]?[0123456789\\.]{1,5}")])⟩),
  (c! "DecimalTypeW8", ⟨none, some (c! "DecimalType", [(c! "xsd:pattern", c! "[+\\-]?[0123456789\\.]{1,7}")])⟩),
  (c! "DecimalTypeW10", ⟨none, some (c! "DecimalType", [(c! "xsd:pattern", c! "[+\\-]?[0123456789\\.]{1,9}")])⟩),
  (c! "DecimalTypeW14", ⟨none, some (c! "DecimalType", [(c! "xsd:pattern", c! "[+\\-]?[0123456789\\.]{1,13}")])⟩),
  (c! "DeclinationType", ⟨none, some (c! "xsd:decimal", [(c! "xsd:minInclusive", c! "-90.0"), (c! "xsd:maxInclusive", c! "90.0"), (c! "xsd:pattern", c! "[+\\-]?([1-9]?[0-9])?(\\.[0123456789]{0,9})?")])⟩),
  (c! "DeprecatedType", ⟨none, some (c! "xsd:string", [(c! "xsd:enumeration", c! "X")])⟩),
  (c! "DiscType", ⟨none, some (c! "xsd:string", [(c! "xsd:enumeration", c! "*"), (c! "xsd:enumeration", c! "+")])⟩),
  (c! "DoubleTypeW7", ⟨none, some (c! "xsd:double", [(c! "xsd:pattern", c! "[+\\-]?[+\\-Ee0123456789\\.]{1,6}")])⟩),
  (c! "DoubleTypeW21", ⟨none, some (c! "xsd:double", [(c! "xsd:pattern", c! "[+\\-]?[+\\-Ee0123456789\\.]{1,20}")])⟩),
  (c! "SubFrmType", ⟨none, some (c! "StringType", [(c! "xsd:pattern", c! "([BJ]\\d{4}.0)|APP\\.")])⟩),
  (c! "LeapSecondsHelp", ⟨none, some (c! "xsd:string", [(c! "xsd:pattern", c! "19(72|81|82|83|85|92|93|94|97)-06-30T23:59:60(\\.\\d+)?Z"), (c! "xsd:pattern", c! "19(72|73|74|75|76|77|78|79|87|89|90|95|98)-12-31T23:59:60(\\.\\d+)?Z"), (c! "xsd:pattern", c! "20(12|15)-06-30T23:59:60(\\.\\d+)?Z"), (c! "xsd:pattern", c! "20(05|08|16)-12-31T23:59:60(.\\d+)?Z"), (c! "xsd:pattern", c! "(2[1-9]\\d{2}|20[2-9]\\d|201[7-9])-12-31T23:59:60(\\.\\d+)?Z"), (c! "xsd:pattern", c! "(2[1-9]\\d{2}|20[2-9]\\d|201[7-9])-06-30T23:59:60(\\.\\d+)?Z"), (c! "xsd:pattern", c! "[3-9]\\d{3}-06-30T23:59:60(\\.\\d+)?Z"), (c! "xsd:pattern", c! "[3-9]\\d{3}-12-31T23:59:60(\\.\\d+)?Z")])⟩),
  (c! "LogicalType", ⟨none, some (c! "xsd:integer", [(c! "xsd:enumeration", c! "0"), (c! "xsd:enumeration", c! "1")])⟩),
  (c! "ModeType", ⟨none, some (c! "AlphaNumericType", [(c! "xsd:maxLength", c! "3")])⟩),
  (c! "ObsCenterType", ⟨some ([c! "PermIDType", c! "ProvIDType", c! "PlanetNameType"]), none⟩),
  (c! "NotesType", ⟨none, some (c! "AlphaNumericType", [(c! "xsd:maxLength", c! "6")])⟩),
  (c! "ObsIDType", ⟨none, some (c! "AlphaNumericType", [(c! "xsd:maxLength", c! "25")])⟩),
  (c! "PermIDType", ⟨none, some (c! "StringTypeW25", [(c! "xsd:pattern", c! "\\d+([IPD](-[A-Z]{1,2})?)?|((Mars|Jupiter|Saturn|Uranus|Neptune) \\d{1,3}|\\(\\d+\\) \\d{1,3})")])⟩),
  (c! "PhotModType", ⟨none, some (c! "AlphaNumericType", [(c! "xsd:maxLength", c! "8")])⟩),
  (c! "PlanetNameType", ⟨none, some (c! "StringTypeW25", [(c! "xsd:enumeration", c! "Mercury"), (c! "xsd:enumeration", c! "Venus"), (c! "xsd:enumeration", c! "Earth"), (c! "xsd:enumeration", c! "Moon"), (c! "xsd:enumeration", c! "Mars"), (c! "xsd:enumeration", c! "Jupiter"), (c! "xsd:enumeration", c! "Saturn"), (c! "xsd:enumeration", c! "Uranus"), (c! "xsd:enumeration", c! "Neptune")])⟩),
  (c! "PosDecimalType", ⟨none, some (c! "xsd:decimal", [(c! "xsd:minExclusive", c! "0.0"), (c! "xsd:maxExclusive", c! "100000.0"), (c! "xsd:pattern", c! "(0|([1-9][0-9]*))(\\.[0-9]*)?")])⟩),
  (c! "PosIntegerTypeW6", ⟨none, some (c! "xsd:positiveInteger", [(c! "xsd:maxExclusive", c! "1000000")])⟩),
  (c! "CtrType", ⟨none, some (c! "SPICEIDType", [(c! "xsd:enumeration", c! "399")])⟩),
  (c! "SPICEIDType", ⟨none, some (c! "xsd:integer", [(c! "xsd:maxExclusive", c! "+1000000000"), (c! "xsd:minExclusive", c! "-1000000000")])⟩),
  (c! "PosDecimalTypeW6", ⟨none, some (c! "PosDecimalType", [(c! "xsd:pattern", c! "[0123456789\\.]{1,6}")])⟩),
  (c! "PosDecimalTypeW7", ⟨none, some (c! "PosDecimalType", [(c! "xsd:pattern", c! "[0123456789\\.]{1,7}")])⟩),
  (c! "PosDecimalTypeW8", ⟨none, some (c! "PosDecimalType", [(c! "xsd:pattern", c! "[0123456789\\.]{1,8}")])⟩),
  (c! "PosDecimalTypeW10", ⟨none, some (c! "PosDecimalType", [(c! "xsd:pattern", c! "[0123456789\\.]{1,10}")])⟩),
  (c! "PosDecimalTypeW14", ⟨none, some (c! "PosDecimalType", [(c! "xsd:pattern", c! "[0123456789\\.]{1,14}")])⟩),
  (c! "FrequencyType", ⟨none, some (c! "xsd:decimal", [(c! "xsd:minExclusive", c! "0.0"), (c! "xsd:pattern", c! "[0123456789\\.]{1,16}")])⟩),
  (c! "ProgType", ⟨none, some (c! "AlphaNumericType", [(c! "xsd:maxLength", c! "2")])⟩),
  (c! "BaseProvIDType", ⟨none, some (c! "StringTypeW25", [(c! "xsd:pattern", c! "\\d{4} [A-HJ-Y][A-HJ-Z]\\d*|\\d{4} (P-L|T-[123])|[ADCPX]/\\d{4} [A-Z]{1,2}\\d*(-[A-Z])?|S/\\d{4} ((M|J|S|U|N)|\\((\\d+|\\d{4} [A-HJ-Y][A-HJ-Z]?\\d+)\\)) \\d+")])⟩),
  (c! "OldProvIDType", ⟨none, some (c! "StringTypeW25", [(c! "xsd:pattern", c! "A[89]\\d{2} [A-HJ-Y][A-HJ-Z]")])⟩),
  (c! "ProvIDType", ⟨some ([c! "BaseProvIDType", c! "OldProvIDType"]), none⟩),
  (c! "RaDecPrecType", ⟨none, some (c! "xsd:decimal", [(c! "xsd:enumeration", c! "0.1"), (c! "xsd:enumeration", c! "0.6"), (c! "xsd:enumeration", c! "0.01"), (c! "xsd:enumeration", c! "0.001"), (c! "xsd:enumeration", c! "60"), (c! "xsd:enumeration", c! "6"), (c! "xsd:enumeration", c! "1")])⟩),
  (c! "RAType", ⟨none, some (c! "xsd:decimal", [(c! "xsd:minInclusive", c! "0.0"), (c! "xsd:maxExclusive", c! "360.0"), (c! "xsd:pattern", c! "([1-3][0-9]{2}|[1-9]?[0-9])?(\\.[0-9]{0,9})?")])⟩),
  (c! "RefType", ⟨none, some (c! "StringType", [(c! "xsd:maxLength", c! "16")])⟩),
  (c! "RemarkType", ⟨none, some (c! "StringType", [(c! "xsd:maxLength", c! "300")])⟩),
  (c! "SelResType", ⟨none, some (c! "xsd:string", [(c! "xsd:enumeration", c! "A"), (c! "xsd:enumeration", c! "a"), (c! "xsd:enumeration", c! "D"), (c! "xsd:enumeration", c! "d")])⟩),
  (c! "StationType", ⟨none, some (c! "AlphaNumericType", [(c! "xsd:minLength", c! "3"), (c! "xsd:maxLength", c! "4")])⟩),
  (c! "StringType", ⟨none, some (c! "xsd:string", [(c! "xsd:pattern", c! "[^|]*[^|\\s][^|]*")])⟩),
  (c! "StringTypeW25", ⟨none, some (c! "StringType", [(c! "xsd:maxLength", c! "25")])⟩),
  (c! "StringTypeW100", ⟨none, some (c! "StringType", [(c! "xsd:maxLength", c! "100")])⟩),
  (c! "SubFmtType", ⟨none, some (c! "AlphaNumericType", [(c! "xsd:maxLength", c! "4")])⟩),
  (c! "SysType", ⟨none, some (c! "xsd:string", [(c! "xsd:enumeration", c! "WGS84"), (c! "xsd:enumeration", c! "ITRF"), (c! "xsd:enumeration", c! "IAU"), (c! "xsd:enumeration", c! "ICRF_AU"), (c! "xsd:enumeration", c! "ICRF_KM")])⟩),
  (c! "TimeHelp", ⟨none, some (c! "xsd:dateTime", [(c! "xsd:pattern", c! "\\d{4}-\\d{2}-\\d{2}T\\d{2}:\\d{2}:\\d{2}(\\.\\d{1,6})?Z")])⟩),
  (c! "TimePrecType", ⟨none, some (c! "xsd:decimal", [(c! "xsd:enumeration", c! "100000"), (c! "xsd:enumeration", c! "10000"), (c! "xsd:enumeration", c! "1000"), (c! "xsd:enumeration", c! "100"), (c! "xsd:enumeration", c! "10"), (c! "xsd:enumeration", c! "1"), (c! "xsd:enumeration", c! "41667"), (c! "xsd:enumeration", c! "4167"), (c! "xsd:enumeration", c! "694"), (c! "xsd:enumeration", c! "69")])⟩),
  (c! "TimeType", ⟨some ([c! "TimeHelp", c! "LeapSecondsHelp"]), none⟩),
  (c! "TrkIDType", ⟨none, some (c! "StringType", [(c! "xsd:pattern", c! "[-A-Za-z0-9_]*"), (c! "xsd:maxLength", c! "12")])⟩),
  (c! "BaseTrkSubType", ⟨none, some (c! "StringType", [(c! "xsd:pattern", c! "[-A-Za-z0-9_]*"), (c! "xsd:maxLength", c! "8")])⟩),
  (c! "OldTrkSubType", ⟨none, some (c! "StringType", [(c! "xsd:pattern", c! "[- ?+@.()/\\\\A-Za-z0-9_]*"), (c! "xsd:maxLength", c! "8")])⟩),
  (c! "TrkSubType", ⟨some ([c! "BaseTrkSubType", c! "OldTrkSubType"]), none⟩),
  (c! "VersionType", ⟨none, some (c! "xsd:string", [(c! "xsd:enumeration", c! "2022")])⟩)]

def generalSchema_complex : List (Str × ComplexType) := [
  (c! "NamesType", ⟨[.seq false [.elemDecl (c! "name") (c! "StringTypeW100") false true]], []⟩),
  (c! "ObservatoryType", ⟨[.all false [.elemDecl (c! "mpcCode") (c! "StationType") false false, .elemDecl (c! "name") (c! "StringTypeW100") true false]], []⟩),
  (c! "SubmitterType", ⟨[.all false [.elemDecl (c! "name") (c! "StringTypeW100") false false, .elemDecl (c! "institution") (c! "StringTypeW100") true false]], []⟩),
  (c! "TelescopeType", ⟨[.all false [.elemDecl (c! "name") (c! "StringTypeW100") true false, .elemDecl (c! "design") (c! "StringTypeW25") false false, .elemDecl (c! "aperture") (c! "PosDecimalTypeW6") false false, .elemDecl (c! "detector") (c! "StringTypeW25") false false, .elemDecl (c! "fRatio") (c! "PosDecimalTypeW6") true false, .elemDecl (c! "filter") (c! "StringTypeW25") true false, .elemDecl (c! "arraySize") (c! "StringTypeW25") true false, .elemDecl (c! "pixelScale") (c! "PosDecimalTypeW6") true false]], []⟩),
  (c! "SoftwareType", ⟨[.all false [.elemDecl (c! "astrometry") (c! "StringTypeW100") true false, .elemDecl (c! "fitOrder") (c! "StringTypeW25") true false, .elemDecl (c! "photometry") (c! "StringTypeW100") true false, .elemDecl (c! "objectDetection") (c! "StringTypeW100") true false]], []⟩),
  (c! "CommentType", ⟨[.seq false [.elemDecl (c! "line") (c! "StringTypeW100") false true]], []⟩),
  (c! "LocalUseType", ⟨[.seq false [.any]], []⟩),
  (c! "OpticalType", ⟨[.seq false [.groupRef (c! "OpticalID") false false, .elemRef (c! "mode") false false, .elemRef (c! "stn") false false, .groupRef (c! "Location") true false, .elemRef (c! "prog") true false, .elemRef (c! "obsTime") false false, .elemRef (c! "rmsTime") true false, .elemRef (c! "ra") false false, .elemRef (c! "dec") false false, .elemRef (c! "rmsRA") true false, .elemRef (c! "rmsDec") true false, .elemRef (c! "rmsCorr") true false, .elemRef (c! "astCat") false false, .groupRef (c! "Photometry") true false, .elemRef (c! "logSNR") true false, .elemRef (c! "seeing") true false, .elemRef (c! "exp") true false, .elemRef (c! "rmsFit") true false, .elemRef (c! "nStars") true false, .elemRef (c! "ref") true false, .elemRef (c! "disc") true false, .elemRef (c! "subFrm") true false, .elemRef (c! "subFmt") true false, .groupRef (c! "Precision") true false, .elemRef (c! "uncTime") true false, .elemRef (c! "notes") true false, .elemRef (c! "remarks") true false, .groupRef (c! "OpticalResiduals") true false, .elemRef (c! "deprecated") true false, .elemRef (c! "localUse") true false]], []⟩),
  (c! "OffsetType", ⟨[.seq false [.groupRef (c! "OpticalID") false false, .elemRef (c! "mode") false false, .elemRef (c! "stn") false false, .groupRef (c! "Location") true false, .elemRef (c! "prog") true false, .elemRef (c! "obsTime") false false, .elemRef (c! "rmsTime") true false, .elemRef (c! "obsCenter") false false, .groupRef (c! "OffsetVal") false false, .groupRef (c! "Photometry") true false, .elemRef (c! "logSNR") true false, .elemRef (c! "seeing") true false, .elemRef (c! "exp") true false, .elemRef (c! "rmsFit") true false, .elemRef (c! "nStars") true false, .elemRef (c! "ref") true false, .elemRef (c! "disc") true false, .elemRef (c! "subFrm") true false, .elemRef (c! "subFmt") true false, .groupRef (c! "Precision") true false, .elemRef (c! "uncTime") true false, .elemRef (c! "notes") true false, .elemRef (c! "remarks") true false, .groupRef (c! "OpticalResiduals") true false, .elemRef (c! "deprecated") true false, .elemRef (c! "localUse") true false]], []⟩),
  (c! "OccultationType", ⟨[.seq false [.groupRef (c! "OpticalID") false false, .elemRef (c! "mode") false false, .elemRef (c! "stn") false false, .groupRef (c! "Location") true false, .elemRef (c! "prog") true false, .elemRef (c! "obsTime") false false, .elemRef (c! "rmsTime") true false, .elemRef (c! "raStar") false false, .elemRef (c! "decStar") false false, .groupRef (c! "OffsetVal") false false, .elemRef (c! "astCat") false false, .groupRef (c! "Photometry") true false, .elemRef (c! "logSNR") true false, .elemRef (c! "shapeOcc") true false, .elemRef (c! "seeing") true false, .elemRef (c! "ref") true false, .elemRef (c! "disc") true false, .elemRef (c! "subFrm") true false, .elemRef (c! "subFmt") true false, .groupRef (c! "Precision") true false, .elemRef (c! "uncTime") true false, .elemRef (c! "notes") true false, .elemRef (c! "remarks") true false, .groupRef (c! "OpticalResiduals") true false, .elemRef (c! "deprecated") true false, .elemRef (c! "localUse") true false]], []⟩),
  (c! "RadarType", ⟨[.seq false [.groupRef (c! "RadarID") false false, .elemRef (c! "trx") false false, .elemRef (c! "rcv") false false, .elemRef (c! "prog") true false, .elemRef (c! "obsTime") false false, .groupRef (c! "RadarValue") false false, .elemRef (c! "logSNR") true false, .elemRef (c! "com") true false, .elemRef (c! "frq") false false, .elemRef (c! "ref") true false, .elemRef (c! "remarks") true false, .groupRef (c! "RadarResiduals") true false, .elemRef (c! "localUse") true false]], []⟩),
  (c! "ObsContextType", ⟨[.all false [.elemRef (c! "observatory") false false, .elemRef (c! "submitter") false false, .elemRef (c! "observers") true false, .elemRef (c! "measurers") false false, .elemRef (c! "telescope") false false, .elemRef (c! "software") true false, .elemRef (c! "coinvestigators") true false, .elemRef (c! "collaborators") true false, .elemRef (c! "fundingSource") true false, .elemRef (c! "comment") true false]], []⟩),
  (c! "ObsDataType", ⟨[.choice false [.elemRef (c! "optical") false true, .elemRef (c! "offset") false true, .elemRef (c! "occultation") false true, .elemRef (c! "radar") false true]], []⟩),
  (c! "ObsBlockType", ⟨[.seq false [.elemRef (c! "obsContext") false false, .elemRef (c! "obsData") false false]], []⟩),
  (c! "OpticalResType", ⟨[.seq false [.groupRef (c! "OpticalID") false false, .elemRef (c! "obsTime") false false, .groupRef (c! "OpticalResiduals") false false]], []⟩),
  (c! "RadarResType", ⟨[.seq false [.groupRef (c! "RadarID") false false, .elemRef (c! "obsTime") false false, .groupRef (c! "RadarResiduals") false false]], []⟩),
  (c! "ADESType", ⟨[.choice true [.elemRef (c! "optical") true false, .elemRef (c! "offset") true false, .elemRef (c! "occultation") true false, .elemRef (c! "radar") true false, .elemRef (c! "opticalResidual") true false, .elemRef (c! "radarResidual") true false, .elemRef (c! "obsBlock") false false]], [⟨c! "version", c! "VersionType", true⟩]⟩)]

def generalSchema_groups : List (Str × List Particle) := [
  (c! "MPCID", [.choice false [.seq false [.elemRef (c! "permID") false false, .elemRef (c! "provID") true false], .seq false [.elemRef (c! "provID") false false], .seq false [.elemRef (c! "artSat") false false]]]),
  (c! "OpticalID", [.seq false [.choice false [.seq false [.groupRef (c! "MPCID") false false, .elemRef (c! "trkSub") true false], .seq false [.elemRef (c! "trkSub") false false]], .elemRef (c! "obsID") true false, .elemRef (c! "obsSubID") true false, .elemRef (c! "trkID") true false, .elemRef (c! "trkMPC") true false]]),
  (c! "RadarID", [.seq false [.groupRef (c! "MPCID") false false, .elemRef (c! "trkSub") true false, .elemRef (c! "obsID") true false]]),
  (c! "RadarValue", [.choice false [.seq false [.elemRef (c! "doppler") false false, .elemRef (c! "rmsDoppler") false false], .seq false [.elemRef (c! "delay") false false, .elemRef (c! "rmsDelay") false false]]]),
  (c! "Precision", [.seq false [.elemRef (c! "precTime") false false, .elemRef (c! "precRA") false false, .elemRef (c! "precDec") false false]]),
  (c! "Location", [.seq false [.elemRef (c! "sys") false false, .elemRef (c! "ctr") false false, .elemRef (c! "pos1") false false, .elemRef (c! "pos2") false false, .elemRef (c! "pos3") false false, .elemRef (c! "vel1") true false, .elemRef (c! "vel2") true false, .elemRef (c! "vel3") true false, .elemRef (c! "posCov11") true false, .elemRef (c! "posCov12") true false, .elemRef (c! "posCov13") true false, .elemRef (c! "posCov22") true false, .elemRef (c! "posCov23") true false, .elemRef (c! "posCov33") true false]]),
  (c! "Photometry", [.seq false [.elemRef (c! "mag") false false, .elemRef (c! "rmsMag") true false, .elemRef (c! "band") false false, .elemRef (c! "fltr") true false, .elemRef (c! "photCat") true false, .elemRef (c! "photAp") true false, .elemRef (c! "nucMag") true false]]),
  (c! "OffsetVal", [.choice false [.seq false [.elemRef (c! "deltaRA") false false, .elemRef (c! "deltaDec") false false, .elemRef (c! "rmsRA") true false, .elemRef (c! "rmsDec") true false, .elemRef (c! "rmsCorr") true false], .seq false [.elemRef (c! "dist") false false, .elemRef (c! "pa") false false, .elemRef (c! "rmsDist") true false, .elemRef (c! "rmsPA") true false, .elemRef (c! "rmsCorr") true false]]]),
  (c! "OpticalRes", [.seq false [.elemRef (c! "resRA") false false, .elemRef (c! "resDec") false false, .elemRef (c! "selAst") false false, .elemRef (c! "sigRA") false false, .elemRef (c! "sigDec") false false, .elemRef (c! "sigCorr") true false, .elemRef (c! "sigTime") true false, .elemRef (c! "biasRA") true false, .elemRef (c! "biasDec") true false, .elemRef (c! "biasTime") true false]]),
  (c! "OpticalResMag", [.seq false [.elemRef (c! "photProd") true false, .elemRef (c! "resMag") false false, .elemRef (c! "selPhot") false false, .elemRef (c! "sigMag") false false, .elemRef (c! "biasMag") true false, .elemRef (c! "photMod") true false]]),
  (c! "OpticalResiduals", [.seq false [.elemRef (c! "orbProd") false false, .elemRef (c! "orbID") false false, .choice false [.seq false [.groupRef (c! "OpticalRes") false false, .groupRef (c! "OpticalResMag") true false], .seq false [.groupRef (c! "OpticalResMag") false false]]]]),
  (c! "RadarResiduals", [.seq false [.elemRef (c! "orbProd") false false, .elemRef (c! "orbID") false false, .choice false [.seq false [.elemRef (c! "resDelay") false false, .elemRef (c! "selDelay") false false, .elemRef (c! "sigDelay") false false], .seq false [.elemRef (c! "resDoppler") false false, .elemRef (c! "selDoppler") false false, .elemRef (c! "sigDoppler") false false]]]])]

def generalSchema_elements : List (Str × Str) := [
  (c! "permID", c! "PermIDType"),
  (c! "provID", c! "ProvIDType"),
  (c! "artSat", c! "StringTypeW25"),
  (c! "trkSub", c! "TrkSubType"),
  (c! "obsID", c! "ObsIDType"),
  (c! "obsSubID", c! "StringTypeW25"),
  (c! "trkID", c! "TrkIDType"),
  (c! "trkMPC", c! "TrkIDType"),
  (c! "mode", c! "ModeType"),
  (c! "stn", c! "StationType"),
  (c! "trx", c! "StationType"),
  (c! "rcv", c! "StationType"),
  (c! "sys", c! "SysType"),
  (c! "ctr", c! "CtrType"),
  (c! "pos1", c! "DecimalTypeW14"),
  (c! "pos2", c! "DecimalTypeW14"),
  (c! "pos3", c! "DecimalTypeW14"),
  (c! "vel1", c! "DecimalTypeW14"),
  (c! "vel2", c! "DecimalTypeW14"),
  (c! "vel3", c! "DecimalTypeW14"),
  (c! "posCov11", c! "DoubleTypeW21"),
  (c! "posCov12", c! "DoubleTypeW21"),
  (c! "posCov13", c! "DoubleTypeW21"),
  (c! "posCov22", c! "DoubleTypeW21"),
  (c! "posCov23", c! "DoubleTypeW21"),
  (c! "posCov33", c! "DoubleTypeW21"),
  (c! "prog", c! "ProgType"),
  (c! "obsTime", c! "TimeType"),
  (c! "rmsTime", c! "PosDecimalTypeW8"),
  (c! "ra", c! "RAType"),
  (c! "dec", c! "DeclinationType"),
  (c! "raStar", c! "RAType"),
  (c! "decStar", c! "DeclinationType"),
  (c! "obsCenter", c! "ObsCenterType"),
  (c! "deltaRA", c! "DecimalTypeW10"),
  (c! "deltaDec", c! "DecimalTypeW10"),
  (c! "dist", c! "PosDecimalTypeW10"),
  (c! "pa", c! "RAType"),
  (c! "rmsRA", c! "PosDecimalTypeW7"),
  (c! "rmsDec", c! "PosDecimalTypeW7"),
  (c! "rmsDist", c! "PosDecimalTypeW6"),
  (c! "rmsPA", c! "PosDecimalTypeW6"),
  (c! "rmsCorr", c! "CorrDecimalType"),
  (c! "delay", c! "PosDecimalTypeW14"),
  (c! "rmsDelay", c! "PosDecimalTypeW6"),
  (c! "doppler", c! "DecimalTypeW14"),
  (c! "rmsDoppler", c! "PosDecimalTypeW6"),
  (c! "astCat", c! "CatType"),
  (c! "mag", c! "MagType"),
  (c! "rmsMag", c! "PosDecimalTypeW6"),
  (c! "band", c! "BandType"),
  (c! "fltr", c! "BandType"),
  (c! "photCat", c! "CatType"),
  (c! "photAp", c! "PosDecimalTypeW6"),
  (c! "nucMag", c! "LogicalType"),
  (c! "logSNR", c! "DecimalTypeW6"),
  (c! "shapeOcc", c! "LogicalType"),
  (c! "seeing", c! "PosDecimalTypeW6"),
  (c! "exp", c! "PosDecimalTypeW6"),
  (c! "rmsFit", c! "PosDecimalTypeW6"),
  (c! "nStars", c! "PosIntegerTypeW6"),
  (c! "com", c! "LogicalType"),
  (c! "frq", c! "FrequencyType"),
  (c! "ref", c! "RefType"),
  (c! "disc", c! "DiscType"),
  (c! "subFrm", c! "SubFrmType"),
  (c! "subFmt", c! "SubFmtType"),
  (c! "precTime", c! "TimePrecType"),
  (c! "precRA", c! "RaDecPrecType"),
  (c! "precDec", c! "RaDecPrecType"),
  (c! "uncTime", c! "PosDecimalTypeW8"),
  (c! "notes", c! "NotesType"),
  (c! "remarks", c! "RemarkType"),
  (c! "deprecated", c! "DeprecatedType"),
  (c! "localUse", c! "LocalUseType"),
  (c! "orbProd", c! "StringTypeW100"),
  (c! "orbID", c! "StringTypeW25"),
  (c! "resRA", c! "DoubleTypeW7"),
  (c! "resDec", c! "DoubleTypeW7"),
  (c! "selAst", c! "SelResType"),
  (c! "sigRA", c! "PosDecimalTypeW7"),
  (c! "sigDec", c! "PosDecimalTypeW7"),
  (c! "sigCorr", c! "CorrDecimalType"),
  (c! "sigTime", c! "PosDecimalTypeW8"),
  (c! "biasRA", c! "DecimalTypeW8"),
  (c! "biasDec", c! "DecimalTypeW8"),
  (c! "biasTime", c! "DecimalTypeW10"),
  (c! "photProd", c! "StringTypeW100"),
  (c! "resMag", c! "DoubleTypeW7"),
  (c! "selPhot", c! "SelResType"),
  (c! "sigMag", c! "PosDecimalTypeW6"),
  (c! "biasMag", c! "DecimalTypeW6"),
  (c! "photMod", c! "PhotModType"),
  (c! "resDelay", c! "DoubleTypeW7"),
  (c! "selDelay", c! "SelResType"),
  (c! "sigDelay", c! "PosDecimalTypeW6"),
  (c! "resDoppler", c! "DoubleTypeW7"),
  (c! "selDoppler", c! "SelResType"),
  (c! "sigDoppler", c! "PosDecimalTypeW6"),
  (c! "observatory", c! "ObservatoryType"),
  (c! "submitter", c! "SubmitterType"),
  (c! "observers", c! "NamesType"),
  (c! "measurers", c! "NamesType"),
  (c! "telescope", c! "TelescopeType"),
  (c! "software", c! "SoftwareType"),
  (c! "coinvestigators", c! "NamesType"),
  (c! "collaborators", c! "NamesType"),
  (c! "fundingSource", c! "StringTypeW100"),
  (c! "comment", c! "CommentType"),
  (c! "optical", c! "OpticalType"),
  (c! "offset", c! "OffsetType"),
  (c! "occultation", c! "OccultationType"),
  (c! "radar", c! "RadarType"),
  (c! "obsContext", c! "ObsContextType"),
  (c! "obsData", c! "ObsDataType"),
  (c! "obsBlock", c! "ObsBlockType"),
  (c! "opticalResidual", c! "OpticalResType"),
  (c! "radarResidual", c! "RadarResType"),
  (c! "ades", c! "ADESType")]

def generalSchema : Schema := ⟨generalSchema_simple, generalSchema_complex, generalSchema_groups, generalSchema_elements⟩

def submitSchema_simple : List (Str × SimpleType) := [
  (c! "AlphaNumericType", ⟨none, some (c! "StringType", [(c! "xsd:pattern", c! "[A-Za-z0-9_]*")])⟩),
  (c! "MagType", ⟨none, some (c! "DecimalTypeW8", [(c! "xsd:minInclusive", c! "-5.0"), (c! "xsd:maxInclusive", c! "35.0")])⟩),
  (c! "BandType", ⟨none, some (c! "AlphaNumericType", [(c! "xsd:maxLength", c! "3")])⟩),
  (c! "CatType", ⟨none, some (c! "StringType", [(c! "xsd:pattern", c! "[.A-Za-z0-9_]*"), (c! "xsd:maxLength", c! "8")])⟩),
  (c! "CorrDecimalType", ⟨none, some (c! "xsd:decimal", [(c! "xsd:minExclusive", c! "-1.0"), (c! "xsd:maxExclusive", c! "1.0"), (c! "xsd:pattern", c! "[+\\-]?(0|1)(\\.[0123456789]{0,11})?")])⟩),
  (c! "DecimalType", ⟨none, some (c! "xsd:decimal", [(c! "xsd:pattern", c! "[+\\-]?(0|([1-9][0-9]*))(\\.[0-9]*)?")])⟩),
  (c! "DecimalTypeW6", ⟨none, some (c! "DecimalType", [(c! "xsd:pattern", c! "[+\\-]?[0123456789\\.]{1,5}")])⟩),
  (c! "DecimalTypeW8", ⟨none, some (c! "DecimalType", [(c! "xsd:pattern", c! "[+\\-]?[0123456789\\.]{1,7}")])⟩),
  (c! "DecimalTypeW10", ⟨none, some (c! "DecimalType", [(c! "xsd:pattern", c! "[+\\-]?[0123456789\\.]{1,9}")])⟩),
  (c! "DecimalTypeW14", ⟨none, some (c! "DecimalType", [(c! "xsd:pattern", c! "[+\\-]?[0123456789\\.]{1,13}")])⟩),
  (c! "DeclinationType", ⟨none, some (c! "xsd:decimal", [(c! "xsd:minInclusive", c! "-90.0"), (c! "xsd:maxInclusive", c! "90.0"), (c! "xsd:pattern", c! "[+\\-]?([1-9]?[0-9])?(\\.[0123456789]{0,9})?")])⟩),
  (c! "DeprecatedType", ⟨none, some (c! "xsd:string", [(c! "xsd:enumeration", c! "X")])⟩),
  (c! "DiscType", ⟨none, some (c! "xsd:string", [(c! "xsd:enumeration", c! "*"), (c! "xsd:enumeration", c! "+")])⟩),
  (c! "DoubleTypeW7", ⟨none, some (c! "xsd:double", [(c! "xsd:pattern", c! "[+\\-]?[+\\-Ee0123456789\\.]{1,6}")])⟩),
  (c! "DoubleTypeW21", ⟨none, some (c! "xsd:double", [(c! "xsd:pattern", c! "[+\\-]?[+\\-Ee0123456789\\.]{1,20}")])⟩),
  (c! "SubFrmType", ⟨none, some (c! "StringType", [(c! "xsd:pattern", c! "([BJ]\\d{4}.0)|APP\\.")])⟩),
  (c! "LeapSecondsHelp", ⟨none, some (c! "xsd:string", [(c! "xsd:pattern", c! "19(72|81|82|83|85|92|93|94|97)-06-30T23:59:60(\\.\\d+)?Z"), (c! "xsd:pattern", c! "19(72|73|74|75|76|77|78|79|87|89|90|95|98)-12-31T23:59:60(\\.\\d+)?Z"), (c! "xsd:pattern", c! "20(12|15)-06-30T23:59:60(\\.\\d+)?Z"), (c! "xsd:pattern", c! "20(05|08|16)-12-31T23:59:60(.\\d+)?Z"), (c! "xsd:pattern", c! "(2[1-9]\\d{2}|20[2-9]\\d|201[7-9])-12-31T23:59:60(\\.\\d+)?Z"), (c! "xsd:pattern", c! "(2[1-9]\\d{2}|20[2-9]\\d|201[7-9])-06-30T23:59:60(\\.\\d+)?Z"), (c! "xsd:pattern", c! "[3-9]\\d{3}-06-30T23:59:60(\\.\\d+)?Z"), (c! "xsd:pattern", c! "[3-9]\\d{3}-12-31T23:59:60(\\.\\d+)?Z")])⟩),
  (c! "LogicalType", ⟨none, some (c! "xsd:integer", [(c! "xsd:enumeration", c! "0"), (c! "xsd:enumeration", c! "1")])⟩),
  (c! "ModeType", ⟨none, some (c! "AlphaNumericType", [(c! "xsd:maxLength", c! "3")])⟩),
  (c! "ObsCenterType", ⟨some ([c! "PermIDType", c! "ProvIDType", c! "PlanetNameType"]), none⟩),
  (c! "NotesType", ⟨none, some (c! "AlphaNumericType", [(c! "xsd:maxLength", c! "6")])⟩),
  (c! "ObsIDType", ⟨none, some (c! "AlphaNumericType", [(c! "xsd:maxLength", c! "25")])⟩),
  (c! "PermIDType", ⟨none, some (c! "StringTypeW25", [(c! "xsd:pattern", c! "\\d+([IPD](-[A-Z]{1,2})?)?|((Mars|Jupiter|Saturn|Uranus|Neptune) \\d{1,3}|\\(\\d+\\) \\d{1,3})")])⟩),
  (c! "PhotModType", ⟨none, some (c! "AlphaNumericType", [(c! "xsd:maxLength", c! "8")])⟩),
  (c! "PlanetNameType", ⟨none, some (c! "StringTypeW25", [(c! "xsd:enumeration", c! "Mercury"), (c! "xsd:enumeration", c! "Venus"), (c! "xsd:enumeration", c! "Earth"), (c! "xsd:enumeration", c! "Moon"), (c! "xsd:enumeration", c! "Mars"), (c! "xsd:enumeration", c! "Jupiter"), (c! "xsd:enumeration", c! "Saturn"), (c! "xsd:enumeration", c! "Uranus"), (c! "xsd:enumeration", c! "Neptune")])⟩),
  (c! "PosDecimalType", ⟨none, some (c! "xsd:decimal", [(c! "xsd:minExclusive", c! "0.0"), (c! "xsd:maxExclusive", c! "100000.0"), (c! "xsd:pattern", c! "(0|([1-9][0-9]*))(\\.[0-9]*)?")])⟩),
  (c! "PosIntegerTypeW6", ⟨none, some (c! "xsd:positiveInteger", [(c! "xsd:maxExclusive", c! "1000000")])⟩),
  (c! "CtrType", ⟨none, some (c! "SPICEIDType", [(c! "xsd:enumeration", c! "399")])⟩),
  (c! "SPICEIDType", ⟨none, some (c! "xsd:integer", [(c! "xsd:maxExclusive", c! "+1000000000"), (c! "xsd:minExclusive", c! "-1000000000")])⟩),
  (c! "PosDecimalTypeW6", ⟨none, some (c! "PosDecimalType", [(c! "xsd:pattern", c! "[0123456789\\.]{1,6}")])⟩),
  (c! "PosDecimalTypeW7", ⟨none, some (c! "PosDecimalType", [(c! "xsd:pattern", c! "[0123456789\\.]{1,7}")])⟩),
  (c! "PosDecimalTypeW8", ⟨none, some (c! "PosDecimalType", [(c! "xsd:pattern", c! "[0123456789\\.]{1,8}")])⟩),
  (c! "PosDecimalTypeW10", ⟨none, some (c! "PosDecimalType", [(c! "xsd:pattern", c! "[0123456789\\.]{1,10}")])⟩),
  (c! "PosDecimalTypeW14", ⟨none, some (c! "PosDecimalType", [(c! "xsd:pattern", c! "[0123456789\\.]{1,14}")])⟩),
  (c! "FrequencyType", ⟨none, some (c! "xsd:decimal", [(c! "xsd:minExclusive", c! "0.0"), (c! "xsd:pattern", c! "[0123456789\\.]{1,16}")])⟩),
  (c! "ProgType", ⟨none, some (c! "AlphaNumericType", [(c! "xsd:maxLength", c! "2")])⟩),
  (c! "BaseProvIDType", ⟨none, some (c! "StringTypeW25", [(c! "xsd:pattern", c! "\\d{4} [A-HJ-Y][A-HJ-Z]\\d*|\\d{4} (P-L|T-[123])|[ADCPX]/\\d{4} [A-Z]{1,2}\\d*(-[A-Z])?|S/\\d{4} ((M|J|S|U|N)|\\((\\d+|\\d{4} [A-HJ-Y][A-HJ-Z]?\\d+)\\)) \\d+")])⟩),
  (c! "OldProvIDType", ⟨none, some (c! "StringTypeW25", [(c! "xsd:pattern", c! "A[89]\\d{2} [A-HJ-Y][A-HJ-Z]")])⟩),
  (c! "ProvIDType", ⟨some ([c! "BaseProvIDType"]), none⟩),
  (c! "RaDecPrecType", ⟨none, some (c! "xsd:decimal", [(c! "xsd:enumeration", c! "0.1"), (c! "xsd:enumeration", c! "0.6"), (c! "xsd:enumeration", c! "0.01"), (c! "xsd:enumeration", c! "0.001"), (c! "xsd:enumeration", c! "60"), (c! "xsd:enumeration", c! "6"), (c! "xsd:enumeration", c! "1")])⟩),
  (c! "RAType", ⟨none, some (c! "xsd:decimal", [(c! "xsd:minInclusive", c! "0.0"), (c! "xsd:maxExclusive", c! "360.0"), (c! "xsd:pattern", c! "([1-3][0-9]{2}|[1-9]?[0-9])?(\\.[0-9]{0,9})?")])⟩),
  (c! "RefType", ⟨none, some (c! "StringType", [(c! "xsd:maxLength", c! "16")])⟩),
  (c! "RemarkType", ⟨none, some (c! "StringType", [(c! "xsd:maxLength", c! "300")])⟩),
  (c! "SelResType", ⟨none, some (c! "xsd:string", [(c! "xsd:enumeration", c! "A"), (c! "xsd:enumeration", c! "a"), (c! "xsd:enumeration", c! "D"), (c! "xsd:enumeration", c! "d")])⟩),
  (c! "StationType", ⟨none, some (c! "AlphaNumericType", [(c! "xsd:minLength", c! "3"), (c! "xsd:maxLength", c! "4")])⟩),
  (c! "StringType", ⟨none, some (c! "xsd:string", [(c! "xsd:pattern", c! "[^|]*[^|\\s][^|]*")])⟩),
  (c! "StringTypeW25", ⟨none, some (c! "StringType", [(c! "xsd:maxLength", c! "25")])⟩),
  (c! "StringTypeW100", ⟨none, some (c! "StringType", [(c! "xsd:maxLength", c! "100")])⟩),
  (c! "SubFmtType", ⟨none, some (c! "AlphaNumericType", [(c! "xsd:maxLength", c! "4")])⟩),
  (c! "SysType", ⟨none, some (c! "xsd:string", [(c! "xsd:enumeration", c! "WGS84"), (c! "xsd:enumeration", c! "ITRF"), (c! "xsd:enumeration", c! "IAU"), (c! "xsd:enumeration", c! "ICRF_AU"), (c! "xsd:enumeration", c! "ICRF_KM")])⟩),
  (c! "TimeHelp", ⟨none, some (c! "xsd:dateTime", [(c! "xsd:pattern", c! "\\d{4}-\\d{2}-\\d{2}T\\d{2}:\\d{2}:\\d{2}(\\.\\d{1,6})?Z")])⟩),
  (c! "TimePrecType", ⟨none, some (c! "xsd:decimal", [(c! "xsd:enumeration", c! "100000"), (c! "xsd:enumeration", c! "10000"), (c! "xsd:enumeration", c! "1000"), (c! "xsd:enumeration", c! "100"), (c! "xsd:enumeration", c! "10"), (c! "xsd:enumeration", c! "1"), (c! "xsd:enumeration", c! "41667"), (c! "xsd:enumeration", c! "4167"), (c! "xsd:enumeration", c! "694"), (c! "xsd:enumeration", c! "69")])⟩),
  (c! "TimeType", ⟨some ([c! "TimeHelp", c! "LeapSecondsHelp"]), none⟩),
  (c! "TrkIDType", ⟨none, some (c! "StringType", [(c! "xsd:pattern", c! "[-A-Za-z0-9_]*"), (c! "xsd:maxLength", c! "12")])⟩),
  (c! "BaseTrkSubType", ⟨none, some (c! "StringType", [(c! "xsd:pattern", c! "[-A-Za-z0-9_]*"), (c! "xsd:maxLength", c! "8")])⟩),
  (c! "OldTrkSubType", ⟨none, some (c! "StringType", [(c! "xsd:pattern", c! "[- ?+@.()/\\\\A-Za-z0-9_]*"), (c! "xsd:maxLength", c! "8")])⟩),
  (c! "TrkSubType", ⟨some ([c! "BaseTrkSubType"]), none⟩),
  (c! "VersionType", ⟨none, some (c! "xsd:string", [(c! "xsd:enumeration", c! "2022")])⟩)]

def submitSchema_complex : List (Str × ComplexType) := [
  (c! "NamesType", ⟨[.seq false [.elemDecl (c! "name") (c! "StringTypeW100") false true]], []⟩),
  (c! "ObservatoryType", ⟨[.all false [.elemDecl (c! "mpcCode") (c! "StationType") false false, .elemDecl (c! "name") (c! "StringTypeW100") true false]], []⟩),
  (c! "SubmitterType", ⟨[.all false [.elemDecl (c! "name") (c! "StringTypeW100") false false, .elemDecl (c! "institution") (c! "StringTypeW100") true false]], []⟩),
  (c! "TelescopeType", ⟨[.all false [.elemDecl (c! "name") (c! "StringTypeW100") true false, .elemDecl (c! "design") (c! "StringTypeW25") false false, .elemDecl (c! "aperture") (c! "PosDecimalTypeW6") false false, .elemDecl (c! "detector") (c! "StringTypeW25") false false, .elemDecl (c! "fRatio") (c! "PosDecimalTypeW6") true false, .elemDecl (c! "filter") (c! "StringTypeW25") true false, .elemDecl (c! "arraySize") (c! "StringTypeW25") true false, .elemDecl (c! "pixelScale") (c! "PosDecimalTypeW6") true false]], []⟩),
  (c! "SoftwareType", ⟨[.all false [.elemDecl (c! "astrometry") (c! "StringTypeW100") true false, .elemDecl (c! "fitOrder") (c! "StringTypeW25") true false, .elemDecl (c! "photometry") (c! "StringTypeW100") true false, .elemDecl (c! "objectDetection") (c! "StringTypeW100") true false]], []⟩),
  (c! "CommentType", ⟨[.seq false [.elemDecl (c! "line") (c! "StringTypeW100") false true]], []⟩),
  (c! "LocalUseType", ⟨[.seq false [.any]], []⟩),
  (c! "OpticalType", ⟨[.seq false [.groupRef (c! "OpticalID") false false, .elemRef (c! "mode") false false, .elemRef (c! "stn") false false, .groupRef (c! "Location") true false, .elemRef (c! "obsTime") false false, .elemRef (c! "rmsTime") true false, .elemRef (c! "ra") false false, .elemRef (c! "dec") false false, .elemRef (c! "rmsRA") true false, .elemRef (c! "rmsDec") true false, .elemRef (c! "rmsCorr") true false, .elemRef (c! "astCat") false false, .groupRef (c! "Photometry") true false, .elemRef (c! "logSNR") true false, .elemRef (c! "seeing") true false, .elemRef (c! "exp") true false, .elemRef (c! "rmsFit") true false, .elemRef (c! "nStars") true false, .elemRef (c! "disc") true false, .elemRef (c! "uncTime") true false, .elemRef (c! "notes") true false, .elemRef (c! "remarks") true false]], []⟩),
  (c! "OffsetType", ⟨[.seq false [.groupRef (c! "OpticalID") false false, .elemRef (c! "mode") false false, .elemRef (c! "stn") false false, .groupRef (c! "Location") true false, .elemRef (c! "obsTime") false false, .elemRef (c! "rmsTime") true false, .elemRef (c! "obsCenter") false false, .groupRef (c! "OffsetVal") false false, .groupRef (c! "Photometry") true false, .elemRef (c! "logSNR") true false, .elemRef (c! "seeing") true false, .elemRef (c! "exp") true false, .elemRef (c! "rmsFit") true false, .elemRef (c! "nStars") true false, .elemRef (c! "disc") true false, .elemRef (c! "uncTime") true false, .elemRef (c! "notes") true false, .elemRef (c! "remarks") true false]], []⟩),
  (c! "OccultationType", ⟨[.seq false [.groupRef (c! "OpticalID") false false, .elemRef (c! "mode") false false, .elemRef (c! "stn") false false, .groupRef (c! "Location") true false, .elemRef (c! "obsTime") false false, .elemRef (c! "rmsTime") true false, .elemRef (c! "raStar") false false, .elemRef (c! "decStar") false false, .groupRef (c! "OffsetVal") false false, .elemRef (c! "astCat") false false, .groupRef (c! "Photometry") true false, .elemRef (c! "logSNR") true false, .elemRef (c! "shapeOcc") true false, .elemRef (c! "seeing") true false, .elemRef (c! "disc") true false, .elemRef (c! "uncTime") true false, .elemRef (c! "notes") true false, .elemRef (c! "remarks") true false]], []⟩),
  (c! "RadarType", ⟨[.seq false [.groupRef (c! "RadarID") false false, .elemRef (c! "trx") false false, .elemRef (c! "rcv") false false, .elemRef (c! "obsTime") false false, .groupRef (c! "RadarValue") false false, .elemRef (c! "logSNR") true false, .elemRef (c! "com") true false, .elemRef (c! "frq") false false, .elemRef (c! "remarks") true false]], []⟩),
  (c! "ObsContextType", ⟨[.all false [.elemRef (c! "observatory") false false, .elemRef (c! "submitter") false false, .elemRef (c! "observers") true false, .elemRef (c! "measurers") false false, .elemRef (c! "telescope") false false, .elemRef (c! "software") true false, .elemRef (c! "coinvestigators") true false, .elemRef (c! "collaborators") true false, .elemRef (c! "fundingSource") true false, .elemRef (c! "comment") true false]], []⟩),
  (c! "ObsDataType", ⟨[.choice false [.elemRef (c! "optical") false true, .elemRef (c! "offset") false true, .elemRef (c! "occultation") false true, .elemRef (c! "radar") false true]], []⟩),
  (c! "ObsBlockType", ⟨[.seq false [.elemRef (c! "obsContext") false false, .elemRef (c! "obsData") false false]], []⟩),
  (c! "OpticalResType", ⟨[.seq false [.groupRef (c! "OpticalID") false false, .elemRef (c! "obsTime") false false, .groupRef (c! "OpticalResiduals") false false]], []⟩),
  (c! "RadarResType", ⟨[.seq false [.groupRef (c! "RadarID") false false, .elemRef (c! "obsTime") false false, .groupRef (c! "RadarResiduals") false false]], []⟩),
  (c! "ADESType", ⟨[.choice true [.elemRef (c! "obsBlock") false false]], [⟨c! "version", c! "VersionType", true⟩]⟩)]

def submitSchema_groups : List (Str × List Particle) := [
  (c! "MPCID", [.choice false [.seq false [.elemRef (c! "permID") false false, .elemRef (c! "provID") true false], .seq false [.elemRef (c! "provID") false false], .seq false [.elemRef (c! "artSat") false false]]]),
  (c! "OpticalID", [.seq false [.choice false [.seq false [.groupRef (c! "MPCID") false false, .elemRef (c! "trkSub") true false], .seq false [.elemRef (c! "trkSub") false false]], .elemRef (c! "obsSubID") true false]]),
  (c! "RadarID", [.seq false [.groupRef (c! "MPCID") false false, .elemRef (c! "trkSub") true false]]),
  (c! "RadarValue", [.choice false [.seq false [.elemRef (c! "doppler") false false, .elemRef (c! "rmsDoppler") false false], .seq false [.elemRef (c! "delay") false false, .elemRef (c! "rmsDelay") false false]]]),
  (c! "Precision", [.seq false [.elemRef (c! "precTime") false false, .elemRef (c! "precRA") false false, .elemRef (c! "precDec") false false]]),
  (c! "Location", [.seq false [.elemRef (c! "sys") false false, .elemRef (c! "ctr") false false, .elemRef (c! "pos1") false false, .elemRef (c! "pos2") false false, .elemRef (c! "pos3") false false, .elemRef (c! "vel1") true false, .elemRef (c! "vel2") true false, .elemRef (c! "vel3") true false, .elemRef (c! "posCov11") true false, .elemRef (c! "posCov12") true false, .elemRef (c! "posCov13") true false, .elemRef (c! "posCov22") true false, .elemRef (c! "posCov23") true false, .elemRef (c! "posCov33") true false]]),
  (c! "Photometry", [.seq false [.elemRef (c! "mag") false false, .elemRef (c! "rmsMag") true false, .elemRef (c! "band") false false, .elemRef (c! "fltr") true false, .elemRef (c! "photCat") true false, .elemRef (c! "photAp") true false]]),
  (c! "OffsetVal", [.choice false [.seq false [.elemRef (c! "deltaRA") false false, .elemRef (c! "deltaDec") false false, .elemRef (c! "rmsRA") true false, .elemRef (c! "rmsDec") true false, .elemRef (c! "rmsCorr") true false], .seq false [.elemRef (c! "dist") false false, .elemRef (c! "pa") false false, .elemRef (c! "rmsDist") true false, .elemRef (c! "rmsPA") true false, .elemRef (c! "rmsCorr") true false]]]),
  (c! "OpticalRes", [.seq false [.elemRef (c! "resRA") false false, .elemRef (c! "resDec") false false, .elemRef (c! "selAst") false false, .elemRef (c! "sigRA") false false, .elemRef (c! "sigDec") false false, .elemRef (c! "sigCorr") true false, .elemRef (c! "sigTime") true false, .elemRef (c! "biasRA") true false, .elemRef (c! "biasDec") true false, .elemRef (c! "biasTime") true false]]),
  (c! "OpticalResMag", [.seq false [.elemRef (c! "photProd") true false, .elemRef (c! "resMag") false false, .elemRef (c! "selPhot") false false, .elemRef (c! "sigMag") false false, .elemRef (c! "biasMag") true false, .elemRef (c! "photMod") true false]]),
  (c! "OpticalResiduals", [.seq false [.elemRef (c! "orbProd") false false, .elemRef (c! "orbID") false false, .choice false [.seq false [.groupRef (c! "OpticalRes") false false, .groupRef (c! "OpticalResMag") true false], .seq false [.groupRef (c! "OpticalResMag") false false]]]]),
  (c! "RadarResiduals", [.seq false [.elemRef (c! "orbProd") false false, .elemRef (c! "orbID") false false, .choice false [.seq false [.elemRef (c! "resDelay") false false, .elemRef (c! "selDelay") false false, .elemRef (c! "sigDelay") false false], .seq false [.elemRef (c! "resDoppler") false false, .elemRef (c! "selDoppler") false false, .elemRef (c! "sigDoppler") false false]]]])]

def submitSchema_elements : List (Str × Str) := [
  (c! "permID", c! "PermIDType"),
  (c! "provID", c! "ProvIDType"),
  (c! "artSat", c! "StringTypeW25"),
  (c! "trkSub", c! "TrkSubType"),
  (c! "obsID", c! "ObsIDType"),
  (c! "obsSubID", c! "StringTypeW25"),
  (c! "trkID", c! "TrkIDType"),
  (c! "trkMPC", c! "TrkIDType"),
  (c! "mode", c! "ModeType"),
  (c! "stn", c! "StationType"),
  (c! "trx", c! "StationType"),
  (c! "rcv", c! "StationType"),
  (c! "sys", c! "SysType"),
  (c! "ctr", c! "CtrType"),
  (c! "pos1", c! "DecimalTypeW14"),
  (c! "pos2", c! "DecimalTypeW14"),
  (c! "pos3", c! "DecimalTypeW14"),
  (c! "vel1", c! "DecimalTypeW14"),
  (c! "vel2", c! "DecimalTypeW14"),
  (c! "vel3", c! "DecimalTypeW14"),
  (c! "posCov11", c! "DoubleTypeW21"),
  (c! "posCov12", c! "DoubleTypeW21"),
  (c! "posCov13", c! "DoubleTypeW21"),
  (c! "posCov22", c! "DoubleTypeW21"),
  (c! "posCov23", c! "DoubleTypeW21"),
  (c! "posCov33", c! "DoubleTypeW21"),
  (c! "prog", c! "ProgType"),
  (c! "obsTime", c! "TimeType"),
  (c! "rmsTime", c! "PosDecimalTypeW8"),
  (c! "ra", c! "RAType"),
  (c! "dec", c! "DeclinationType"),
  (c! "raStar", c! "RAType"),
  (c! "decStar", c! "DeclinationType"),
  (c! "obsCenter", c! "ObsCenterType"),
  (c! "deltaRA", c! "DecimalTypeW10"),
  (c! "deltaDec", c! "DecimalTypeW10"),
  (c! "dist", c! "PosDecimalTypeW10"),
  (c! "pa", c! "RAType"),
  (c! "rmsRA", c! "PosDecimalTypeW7"),
  (c! "rmsDec", c! "PosDecimalTypeW7"),
  (c! "rmsDist", c! "PosDecimalTypeW6"),
  (c! "rmsPA", c! "PosDecimalTypeW6"),
  (c! "rmsCorr", c! "CorrDecimalType"),
  (c! "delay", c! "PosDecimalTypeW14"),
  (c! "rmsDelay", c! "PosDecimalTypeW6"),
  (c! "doppler", c! "DecimalTypeW14"),
  (c! "rmsDoppler", c! "PosDecimalTypeW6"),
  (c! "astCat", c! "CatType"),
  (c! "mag", c! "MagType"),
  (c! "rmsMag", c! "PosDecimalTypeW6"),
  (c! "band", c! "BandType"),
  (c! "fltr", c! "BandType"),
  (c! "photCat", c! "CatType"),
  (c! "photAp", c! "PosDecimalTypeW6"),
  (c! "nucMag", c! "LogicalType"),
  (c! "logSNR", c! "DecimalTypeW6"),
  (c! "shapeOcc", c! "LogicalType"),
  (c! "seeing", c! "PosDecimalTypeW6"),
  (c! "exp", c! "PosDecimalTypeW6"),
  (c! "rmsFit", c! "PosDecimalTypeW6"),
  (c! "nStars", c! "PosIntegerTypeW6"),
  (c! "com", c! "LogicalType"),
  (c! "frq", c! "FrequencyType"),
  (c! "ref", c! "RefType"),
  (c! "disc", c! "DiscType"),
  (c! "subFrm", c! "SubFrmType"),
  (c! "subFmt", c! "SubFmtType"),
  (c! "precTime", c! "TimePrecType"),
  (c! "precRA", c! "RaDecPrecType"),
  (c! "precDec", c! "RaDecPrecType"),
  (c! "uncTime", c! "PosDecimalTypeW8"),
  (c! "notes", c! "NotesType"),
  (c! "remarks", c! "RemarkType"),
  (c! "deprecated", c! "DeprecatedType"),
  (c! "localUse", c! "LocalUseType"),
  (c! "orbProd", c! "StringTypeW100"),
  (c! "orbID", c! "StringTypeW25"),
  (c! "resRA", c! "DoubleTypeW7"),
  (c! "resDec", c! "DoubleTypeW7"),
  (c! "selAst", c! "SelResType"),
  (c! "sigRA", c! "PosDecimalTypeW7"),
  (c! "sigDec", c! "PosDecimalTypeW7"),
  (c! "sigCorr", c! "CorrDecimalType"),
  (c! "sigTime", c! "PosDecimalTypeW8"),
  (c! "biasRA", c! "DecimalTypeW8"),
  (c! "biasDec", c! "DecimalTypeW8"),
  (c! "biasTime", c! "DecimalTypeW10"),
  (c! "photProd", c! "StringTypeW100"),
  (c! "resMag", c! "DoubleTypeW7"),
  (c! "selPhot", c! "SelResType"),
  (c! "sigMag", c! "PosDecimalTypeW6"),
  (c! "biasMag", c! "DecimalTypeW6"),
  (c! "photMod", c! "PhotModType"),
  (c! "resDelay", c! "DoubleTypeW7"),
  (c! "selDelay", c! "SelResType"),
  (c! "sigDelay", c! "PosDecimalTypeW6"),
  (c! "resDoppler", c! "DoubleTypeW7"),
  (c! "selDoppler", c! "SelResType"),
  (c! "sigDoppler", c! "PosDecimalTypeW6"),
  (c! "observatory", c! "ObservatoryType"),
  (c! "submitter", c! "SubmitterType"),
  (c! "observers", c! "NamesType"),
  (c! "measurers", c! "NamesType"),
  (c! "telescope", c! "TelescopeType"),
  (c! "software", c! "SoftwareType"),
  (c! "coinvestigators", c! "NamesType"),
  (c! "collaborators", c! "NamesType"),
  (c! "fundingSource", c! "StringTypeW100"),
  (c! "comment", c! "CommentType"),
  (c! "optical", c! "OpticalType"),
  (c! "offset", c! "OffsetType"),
  (c! "occultation", c! "OccultationType"),
  (c! "radar", c! "RadarType"),
  (c! "obsContext", c! "ObsContextType"),
  (c! "obsData", c! "ObsDataType"),
  (c! "obsBlock", c! "ObsBlockType"),
  (c! "opticalResidual", c! "OpticalResType"),
  (c! "radarResidual", c! "RadarResType"),
  (c! "ades", c! "ADESType")]

def submitSchema : Schema := ⟨submitSchema_simple, submitSchema_complex, submitSchema_groups, submitSchema_elements⟩

def adesAllowed : List (Str × List Str) := [
  (c! "permID", []),
  (c! "provID", []),
  (c! "artSat", []),
  (c! "trkSub", []),
  (c! "obsID", []),
  (c! "obsSubID", []),
  (c! "trkID", []),
  (c! "trkMPC", []),
  (c! "mode", []),
  (c! "stn", []),
  (c! "trx", []),
  (c! "rcv", []),
  (c! "sys", []),
  (c! "ctr", []),
  (c! "pos1", []),
  (c! "pos2", []),
  (c! "pos3", []),
  (c! "vel1", []),
  (c! "vel2", []),
  (c! "vel3", []),
  (c! "posCov11", []),
  (c! "posCov12", []),
  (c! "posCov13", []),
  (c! "posCov22", []),
  (c! "posCov23", []),
  (c! "posCov33", []),
  (c! "prog", []),
  (c! "obsTime", []),
  (c! "rmsTime", []),
  (c! "ra", []),
  (c! "dec", []),
  (c! "raStar", []),
  (c! "decStar", []),
  (c! "obsCenter", []),
  (c! "deltaRA", []),
  (c! "deltaDec", []),
  (c! "dist", []),
  (c! "pa", []),
  (c! "rmsRA", []),
  (c! "rmsDec", []),
  (c! "rmsDist", []),
  (c! "rmsPA", []),
  (c! "rmsCorr", []),
  (c! "delay", []),
  (c! "rmsDelay", []),
  (c! "doppler", []),
  (c! "rmsDoppler", []),
  (c! "astCat", []),
  (c! "mag", []),
  (c! "rmsMag", []),
  (c! "band", []),
  (c! "fltr", []),
  (c! "photCat", []),
  (c! "photAp", []),
  (c! "nucMag", []),
  (c! "logSNR", []),
  (c! "shapeOcc", []),
  (c! "seeing", []),
  (c! "exp", []),
  (c! "rmsFit", []),
  (c! "nStars", []),
  (c! "com", []),
  (c! "frq", []),
  (c! "ref", []),
  (c! "disc", []),
  (c! "subFrm", []),
  (c! "subFmt", []),
  (c! "precTime", []),
  (c! "precRA", []),
  (c! "precDec", []),
  (c! "uncTime", []),
  (c! "notes", []),
  (c! "remarks", []),
  (c! "deprecated", []),
  (c! "localUse", []),
  (c! "orbProd", []),
  (c! "orbID", []),
  (c! "resRA", []),
  (c! "resDec", []),
  (c! "selAst", []),
  (c! "sigRA", []),
  (c! "sigDec", []),
  (c! "sigCorr", []),
  (c! "sigTime", []),
  (c! "biasRA", []),
  (c! "biasDec", []),
  (c! "biasTime", []),
  (c! "photProd", []),
  (c! "resMag", []),
  (c! "selPhot", []),
  (c! "sigMag", []),
  (c! "biasMag", []),
  (c! "photMod", []),
  (c! "resDelay", []),
  (c! "selDelay", []),
  (c! "sigDelay", []),
  (c! "resDoppler", []),
  (c! "selDoppler", []),
  (c! "sigDoppler", []),
  (c! "observatory", [c! "mpcCode", c! "name"]),
  (c! "submitter", [c! "name", c! "institution"]),
  (c! "observers", [c! "name"]),
  (c! "measurers", [c! "name"]),
  (c! "telescope", [c! "name", c! "design", c! "aperture", c! "detector", c! "fRatio", c! "filter", c! "arraySize", c! "pixelScale"]),
  (c! "software", [c! "astrometry", c! "fitOrder", c! "photometry", c! "objectDetection"]),
  (c! "coinvestigators", [c! "name"]),
  (c! "collaborators", [c! "name"]),
  (c! "fundingSource", []),
  (c! "comment", [c! "line"]),
  (c! "optical", [c! "permID", c! "provID", c! "artSat", c! "trkSub", c! "obsID", c! "obsSubID", c! "trkID", c! "trkMPC", c! "mode", c! "stn", c! "sys", c! "ctr", c! "pos1", c! "pos2", c! "pos3", c! "vel1", c! "vel2", c! "vel3", c! "posCov11", c! "posCov12", c! "posCov13", c! "posCov22", c! "posCov23", c! "posCov33", c! "prog", c! "obsTime", c! "rmsTime", c! "ra", c! "dec", c! "rmsRA", c! "rmsDec", c! "rmsCorr", c! "astCat", c! "mag", c! "rmsMag", c! "band", c! "fltr", c! "photCat", c! "photAp", c! "nucMag", c! "logSNR", c! "seeing", c! "exp", c! "rmsFit", c! "nStars", c! "ref", c! "disc", c! "subFrm", c! "subFmt", c! "precTime", c! "precRA", c! "precDec", c! "uncTime", c! "notes", c! "remarks", c! "orbProd", c! "orbID", c! "resRA", c! "resDec", c! "selAst", c! "sigRA", c! "sigDec", c! "sigCorr", c! "sigTime", c! "biasRA", c! "biasDec", c! "biasTime", c! "photProd", c! "resMag", c! "selPhot", c! "sigMag", c! "biasMag", c! "photMod", c! "deprecated", c! "localUse"]),
  (c! "offset", [c! "permID", c! "provID", c! "artSat", c! "trkSub", c! "obsID", c! "obsSubID", c! "trkID", c! "trkMPC", c! "mode", c! "stn", c! "sys", c! "ctr", c! "pos1", c! "pos2", c! "pos3", c! "vel1", c! "vel2", c! "vel3", c! "posCov11", c! "posCov12", c! "posCov13", c! "posCov22", c! "posCov23", c! "posCov33", c! "prog", c! "obsTime", c! "rmsTime", c! "obsCenter", c! "deltaRA", c! "deltaDec", c! "rmsRA", c! "rmsDec", c! "dist", c! "pa", c! "rmsDist", c! "rmsPA", c! "rmsCorr", c! "mag", c! "rmsMag", c! "band", c! "fltr", c! "photCat", c! "photAp", c! "nucMag", c! "logSNR", c! "seeing", c! "exp", c! "rmsFit", c! "nStars", c! "ref", c! "disc", c! "subFrm", c! "subFmt", c! "precTime", c! "precRA", c! "precDec", c! "uncTime", c! "notes", c! "remarks", c! "orbProd", c! "orbID", c! "resRA", c! "resDec", c! "selAst", c! "sigRA", c! "sigDec", c! "sigCorr", c! "sigTime", c! "biasRA", c! "biasDec", c! "biasTime", c! "photProd", c! "resMag", c! "selPhot", c! "sigMag", c! "biasMag", c! "photMod", c! "deprecated", c! "localUse"]),
  (c! "occultation", [c! "permID", c! "provID", c! "artSat", c! "trkSub", c! "obsID", c! "obsSubID", c! "trkID", c! "trkMPC", c! "mode", c! "stn", c! "sys", c! "ctr", c! "pos1", c! "pos2", c! "pos3", c! "vel1", c! "vel2", c! "vel3", c! "posCov11", c! "posCov12", c! "posCov13", c! "posCov22", c! "posCov23", c! "posCov33", c! "prog", c! "obsTime", c! "rmsTime", c! "raStar", c! "decStar", c! "deltaRA", c! "deltaDec", c! "rmsRA", c! "rmsDec", c! "dist", c! "pa", c! "rmsDist", c! "rmsPA", c! "rmsCorr", c! "astCat", c! "mag", c! "rmsMag", c! "band", c! "fltr", c! "photCat", c! "photAp", c! "nucMag", c! "logSNR", c! "shapeOcc", c! "seeing", c! "ref", c! "disc", c! "subFrm", c! "subFmt", c! "precTime", c! "precRA", c! "precDec", c! "uncTime", c! "notes", c! "remarks", c! "orbProd", c! "orbID", c! "resRA", c! "resDec", c! "selAst", c! "sigRA", c! "sigDec", c! "sigCorr", c! "sigTime", c! "biasRA", c! "biasDec", c! "biasTime", c! "photProd", c! "resMag", c! "selPhot", c! "sigMag", c! "biasMag", c! "photMod", c! "deprecated", c! "localUse"]),
  (c! "radar", [c! "permID", c! "provID", c! "artSat", c! "trkSub", c! "obsID", c! "trx", c! "rcv", c! "prog", c! "obsTime", c! "doppler", c! "rmsDoppler", c! "delay", c! "rmsDelay", c! "logSNR", c! "com", c! "frq", c! "ref", c! "remarks", c! "orbProd", c! "orbID", c! "resDelay", c! "selDelay", c! "sigDelay", c! "resDoppler", c! "selDoppler", c! "sigDoppler", c! "localUse"]),
  (c! "obsContext", [c! "observatory", c! "submitter", c! "observers", c! "measurers", c! "telescope", c! "software", c! "coinvestigators", c! "collaborators", c! "fundingSource", c! "comment"]),
  (c! "obsData", [c! "optical", c! "offset", c! "occultation", c! "radar"]),
  (c! "obsBlock", [c! "obsContext", c! "obsData"]),
  (c! "opticalResidual", [c! "permID", c! "provID", c! "artSat", c! "trkSub", c! "obsID", c! "obsSubID", c! "trkID", c! "trkMPC", c! "obsTime", c! "orbProd", c! "orbID", c! "resRA", c! "resDec", c! "selAst", c! "sigRA", c! "sigDec", c! "sigCorr", c! "sigTime", c! "biasRA", c! "biasDec", c! "biasTime", c! "photProd", c! "resMag", c! "selPhot", c! "sigMag", c! "biasMag", c! "photMod"]),
  (c! "radarResidual", [c! "permID", c! "provID", c! "artSat", c! "trkSub", c! "obsID", c! "obsTime", c! "orbProd", c! "orbID", c! "resDelay", c! "selDelay", c! "sigDelay", c! "resDoppler", c! "selDoppler", c! "sigDoppler"]),
  (c! "ades", [c! "optical", c! "offset", c! "occultation", c! "radar", c! "opticalResidual", c! "radarResidual", c! "obsBlock"])]

def adesRequired : List (Str × List Str) := [
  (c! "permID", []),
  (c! "provID", []),
  (c! "artSat", []),
  (c! "trkSub", []),
  (c! "obsID", []),
  (c! "obsSubID", []),
  (c! "trkID", []),
  (c! "trkMPC", []),
  (c! "mode", []),
  (c! "stn", []),
  (c! "trx", []),
  (c! "rcv", []),
  (c! "sys", []),
  (c! "ctr", []),
  (c! "pos1", []),
  (c! "pos2", []),
  (c! "pos3", []),
  (c! "vel1", []),
  (c! "vel2", []),
  (c! "vel3", []),
  (c! "posCov11", []),
  (c! "posCov12", []),
  (c! "posCov13", []),
  (c! "posCov22", []),
  (c! "posCov23", []),
  (c! "posCov33", []),
  (c! "prog", []),
  (c! "obsTime", []),
  (c! "rmsTime", []),
  (c! "ra", []),
  (c! "dec", []),
  (c! "raStar", []),
  (c! "decStar", []),
  (c! "obsCenter", []),
  (c! "deltaRA", []),
  (c! "deltaDec", []),
  (c! "dist", []),
  (c! "pa", []),
  (c! "rmsRA", []),
  (c! "rmsDec", []),
  (c! "rmsDist", []),
  (c! "rmsPA", []),
  (c! "rmsCorr", []),
  (c! "delay", []),
  (c! "rmsDelay", []),
  (c! "doppler", []),
  (c! "rmsDoppler", []),
  (c! "astCat", []),
  (c! "mag", []),
  (c! "rmsMag", []),
  (c! "band", []),
  (c! "fltr", []),
  (c! "photCat", []),
  (c! "photAp", []),
  (c! "nucMag", []),
  (c! "logSNR", []),
  (c! "shapeOcc", []),
  (c! "seeing", []),
  (c! "exp", []),
  (c! "rmsFit", []),
  (c! "nStars", []),
  (c! "com", []),
  (c! "frq", []),
  (c! "ref", []),
  (c! "disc", []),
  (c! "subFrm", []),
  (c! "subFmt", []),
  (c! "precTime", []),
  (c! "precRA", []),
  (c! "precDec", []),
  (c! "uncTime", []),
  (c! "notes", []),
  (c! "remarks", []),
  (c! "deprecated", []),
  (c! "localUse", []),
  (c! "orbProd", []),
  (c! "orbID", []),
  (c! "resRA", []),
  (c! "resDec", []),
  (c! "selAst", []),
  (c! "sigRA", []),
  (c! "sigDec", []),
  (c! "sigCorr", []),
  (c! "sigTime", []),
  (c! "biasRA", []),
  (c! "biasDec", []),
  (c! "biasTime", []),
  (c! "photProd", []),
  (c! "resMag", []),
  (c! "selPhot", []),
  (c! "sigMag", []),
  (c! "biasMag", []),
  (c! "photMod", []),
  (c! "resDelay", []),
  (c! "selDelay", []),
  (c! "sigDelay", []),
  (c! "resDoppler", []),
  (c! "selDoppler", []),
  (c! "sigDoppler", []),
  (c! "observatory", []),
  (c! "submitter", []),
  (c! "observers", []),
  (c! "measurers", []),
  (c! "telescope", []),
  (c! "software", []),
  (c! "coinvestigators", []),
  (c! "collaborators", []),
  (c! "fundingSource", []),
  (c! "comment", []),
  (c! "optical", [c! "mode", c! "stn", c! "obsTime", c! "ra", c! "dec", c! "astCat"]),
  (c! "offset", [c! "mode", c! "stn", c! "obsTime", c! "obsCenter"]),
  (c! "occultation", [c! "mode", c! "stn", c! "obsTime", c! "raStar", c! "decStar", c! "astCat"]),
  (c! "radar", [c! "trx", c! "rcv", c! "obsTime", c! "frq"]),
  (c! "obsContext", []),
  (c! "obsData", []),
  (c! "obsBlock", []),
  (c! "opticalResidual", [c! "obsTime"]),
  (c! "radarResidual", [c! "obsTime"]),
  (c! "ades", [])]

def adesPsv : List (Str × List (Str × Int × Str × Int)) := [
  (c! "optical", [
    (c! "permID", 7, c! "R", 0),
    (c! "provID", 11, c! "L", 0),
    (c! "artSat", 8, c! "R", 0),
    (c! "trkSub", 7, c! "R", 0),
    (c! "mode", 3, c! "R", 0),
    (c! "stn", 4, c! "L", 0),
    (c! "prog", 2, c! "R", 0),
    (c! "obsTime", 23, c! "L", 0),
    (c! "ra", 12, c! "D", 4),
    (c! "dec", 12, c! "D", 4),
    (c! "rmsRA", 7, c! "D", 2),
    (c! "rmsDec", 7, c! "D", 2),
    (c! "rmsCorr", 7, c! "D", 3),
    (c! "astCat", 3, c! "R", 0),
    (c! "mag", 5, c! "D", 3),
    (c! "rmsMag", 4, c! "D", 2),
    (c! "band", 3, c! "R", 0),
    (c! "photCat", 3, c! "R", 0),
    (c! "photAp", 4, c! "D", 3),
    (c! "logSNR", 4, c! "D", 2),
    (c! "seeing", 3, c! "D", 2),
    (c! "exp", 4, c! "R", 0),
    (c! "notes", 5, c! "L", 0),
    (c! "remarks", 0, c! "L", 0)]),
  (c! "offset", [
    (c! "permID", 7, c! "R", 0),
    (c! "provID", 11, c! "L", 0),
    (c! "artSat", 8, c! "R", 0),
    (c! "trkSub", 7, c! "R", 0),
    (c! "mode", 3, c! "R", 0),
    (c! "stn", 4, c! "L", 0),
    (c! "prog", 2, c! "R", 0),
    (c! "obsTime", 23, c! "L", 0),
    (c! "obsCenter", 8, c! "L", 0),
    (c! "deltaRA", 12, c! "D", 4),
    (c! "deltaDec", 12, c! "D", 4),
    (c! "rmsRA", 7, c! "D", 2),
    (c! "rmsDec", 7, c! "D", 2),
    (c! "dist", 5, c! "D", 2),
    (c! "pa", 6, c! "D", 2),
    (c! "rmsdist", 7, c! "D", 3),
    (c! "rmsPA", 6, c! "D", 3),
    (c! "rmsCorr", 6, c! "D", 2),
    (c! "astCat", 3, c! "R", 0),
    (c! "astCat", 3, c! "R", 0),
    (c! "mag", 5, c! "D", 3),
    (c! "rmsMag", 4, c! "D", 2),
    (c! "band", 3, c! "R", 0),
    (c! "photCat", 3, c! "R", 0),
    (c! "photAp", 4, c! "D", 3),
    (c! "logSNR", 4, c! "D", 2),
    (c! "seeing", 3, c! "D", 2),
    (c! "exp", 4, c! "R", 0),
    (c! "notes", 5, c! "L", 0),
    (c! "remarks", 0, c! "L", 0)]),
  (c! "occultation", [
    (c! "permID", 7, c! "R", 0),
    (c! "provID", 11, c! "L", 0),
    (c! "artSat", 8, c! "R", 0),
    (c! "trkSub", 7, c! "R", 0),
    (c! "stn", 4, c! "L", 0),
    (c! "prog", 2, c! "R", 0),
    (c! "obsTime", 23, c! "L", 0),
    (c! "obsCenter", 8, c! "L", 0),
    (c! "raStar", 13, c! "D", 4),
    (c! "decStar", 12, c! "D", 4),
    (c! "deltaRA", 12, c! "D", 4),
    (c! "deltaDec", 13, c! "D", 4),
    (c! "rmsRA", 7, c! "D", 3),
    (c! "rmsDec", 7, c! "D", 3),
    (c! "dist", 11, c! "D", 4),
    (c! "pa", 11, c! "D", 4),
    (c! "rmsdist", 6, c! "D", 3),
    (c! "rmsPA", 6, c! "D", 3),
    (c! "rmsCorr", 5, c! "D", 2),
    (c! "astCat", 3, c! "R", 0),
    (c! "mag", 5, c! "D", 3),
    (c! "rmsMag", 4, c! "D", 2),
    (c! "band", 3, c! "R", 0),
    (c! "photCat", 3, c! "R", 0),
    (c! "photAp", 4, c! "D", 3),
    (c! "logSNR", 4, c! "D", 2),
    (c! "shapeOcc", 1, c! "L", 0),
    (c! "seeing", 3, c! "D", 2),
    (c! "exp", 4, c! "R", 0),
    (c! "notes", 5, c! "L", 0),
    (c! "remarks", 0, c! "L", 0)]),
  (c! "radar", [
    (c! "permID", 7, c! "R", 0),
    (c! "provID", 11, c! "L", 0),
    (c! "trkSub", 7, c! "R", 0),
    (c! "obsID", 7, c! "R", 0),
    (c! "trx", 4, c! "L", 0),
    (c! "rcv", 4, c! "L", 0),
    (c! "prog", 2, c! "R", 0),
    (c! "obsTime", 23, c! "L", 0),
    (c! "doppler", 11, c! "D", 4),
    (c! "delay", 11, c! "D", 4),
    (c! "rmsDoppler", 6, c! "D", 3),
    (c! "rmsDelay", 6, c! "D", 3),
    (c! "logSNR", 4, c! "D", 2),
    (c! "remarks", 0, c! "L", 0)])]

set_option maxRecDepth 100000

open Lean Elab Tactic in
/-- closes `a = b` with `Eq.refl b`, leaving the comparison to the kernel -/
elab "kernel_rfl" : tactic => do
  let g ← getMainGoal
  let t ← instantiateMVars (← g.getType)
  match t.eq? with
  | some (_, _, b) => g.assign (← Meta.mkEqRefl b)
  | none => throwError "not an equation"

theorem generalSchema_eq : schema .general adesmaster = generalSchema := by kernel_rfl
theorem submitSchema_eq : schema .submit adesmaster = submitSchema := by kernel_rfl

/-- the tables `readAdesTables` builds on import -/
def adesTables : Tables := ⟨adesAllowed, adesRequired, adesPsv, some (c! "ades"), some true⟩

theorem adesTables_eq : (tableLines adesmaster 12).map readAdesTables = some (.ok adesTables) := by kernel_rfl

end Verif.Master
