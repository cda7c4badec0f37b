import Verif.Xml
/-!
  GENERATED by tools/genmaster.py: /repo/xml/adesmaster.xml, the sections
  `XSDTypes` (lines 511-1551), `XSDElementTypes` (1559-1714) and
  `PSVObservationFields` (1717-1823), as element trees.  Text, comments, `doc`
  elements and `doc`/`purpose` attributes (documentation) are left out.
-/
namespace Verif.Master
open Verif Verif.Xml

def d0_0 : List Elem := [
  .mk (c! "simpletype") none [(c! "name", c! "AlphaNumericType")] [.mk (c! "restriction") none [(c! "base", c! "StringType")] [.mk (c! "restrict") none [(c! "name", c! "xsd:pattern"), (c! "value", c! "[A-Za-z0-9_]*")] []]],
  .mk (c! "simpletype") none [(c! "name", c! "MagType")] [.mk (c! "restriction") none [(c! "base", c! "DecimalTypeW8")] [.mk (c! "restrict") none [(c! "name", c! "xsd:minInclusive"), (c! "value", c! "-5.0")] [], .mk (c! "restrict") none [(c! "name", c! "xsd:maxInclusive"), (c! "value", c! "35.0")] []]],
  .mk (c! "simpletype") none [(c! "name", c! "BandType")] [.mk (c! "restriction") none [(c! "base", c! "AlphaNumericType")] [.mk (c! "restrict") none [(c! "name", c! "xsd:maxLength"), (c! "value", c! "3")] []]],
  .mk (c! "simpletype") none [(c! "name", c! "CatType")] [.mk (c! "restriction") none [(c! "base", c! "StringType")] [.mk (c! "restrict") none [(c! "name", c! "xsd:pattern"), (c! "value", c! "[.A-Za-z0-9_]*")] [], .mk (c! "restrict") none [(c! "name", c! "xsd:maxLength"), (c! "value", c! "8")] []]],
  .mk (c! "simpletype") none [(c! "name", c! "CorrDecimalType")] [.mk (c! "restriction") none [(c! "base", c! "xsd:decimal")] [.mk (c! "restrict") none [(c! "name", c! "xsd:minExclusive"), (c! "value", c! "-1.0")] [], .mk (c! "restrict") none [(c! "name", c! "xsd:maxExclusive"), (c! "value", c! "1.0")] [], .mk (c! "restrict") none [(c! "name", c! "xsd:pattern"), (c! "value", c! "[+\\-]?(0|1)(\\.[0123456789]{0,11})?")] []]],
  .mk (c! "simpletype") none [(c! "name", c! "DecimalType")] [.mk (c! "restriction") none [(c! "base", c! "xsd:decimal")] [.mk (c! "restrict") none [(c! "name", c! "xsd:pattern"), (c! "value", c! "[+\\-]?(0|([1-9][0-9]*))(\\.[0-9]*)?")] []]],
  .mk (c! "simpletype") none [(c! "name", c! "DecimalTypeW6")] [.mk (c! "restriction") none [(c! "base", c! "DecimalType")] [.mk (c! "restrict") none [(c! "name", c! "xsd:pattern"), (c! "value", c! "[+\\-]?[0123456789\\.]{1,5}")] []]],
  .mk (c! "simpletype") none [(c! "name", c! "DecimalTypeW8")] [.mk (c! "restriction") none [(c! "base", c! "DecimalType")] [.mk (c! "restrict") none [(c! "name", c! "xsd:pattern"), (c! "value", c! "[+\\-]?[0123456789\\.]{1,7}")] []]],
  .mk (c! "simpletype") none [(c! "name", c! "DecimalTypeW10")] [.mk (c! "restriction") none [(c! "base", c! "DecimalType")] [.mk (c! "restrict") none [(c! "name", c! "xsd:pattern"), (c! "value", c! "[+\\-]?[0123456789\\.]{1,9}")] []]],
  .mk (c! "simpletype") none [(c! "name", c! "DecimalTypeW14")] [.mk (c! "restriction") none [(c! "base", c! "DecimalType")] [.mk (c! "restrict") none [(c! "name", c! "xsd:pattern"), (c! "value", c! "[+\\-]?[0123456789\\.]{1,13}")] []]],
  .mk (c! "simpletype") none [(c! "name", c! "DeclinationType")] [.mk (c! "restriction") none [(c! "base", c! "xsd:decimal")] [.mk (c! "restrict") none [(c! "name", c! "xsd:minInclusive"), (c! "value", c! "-90.0")] [], .mk (c! "restrict") none [(c! "name", c! "xsd:maxInclusive"), (c! "value", c! "90.0")] [], .mk (c! "restrict") none [(c! "name", c! "xsd:pattern"), (c! "value", c! "[+\\-]?([1-9]?[0-9])?(\\.[0123456789]{0,9})?")] []]],
  .mk (c! "simpletype") none [(c! "name", c! "DeprecatedType")] [.mk (c! "restriction") none [(c! "base", c! "xsd:string")] [.mk (c! "restrict") none [(c! "name", c! "xsd:enumeration"), (c! "value", c! "X")] []]]]

def d0_1 : List Elem := [
  .mk (c! "simpletype") none [(c! "name", c! "DiscType")] [.mk (c! "restriction") none [(c! "base", c! "xsd:string")] [.mk (c! "restrict") none [(c! "name", c! "xsd:enumeration"), (c! "value", c! "*")] [], .mk (c! "restrict") none [(c! "name", c! "xsd:enumeration"), (c! "value", c! "+")] []]],
  .mk (c! "simpletype") none [(c! "name", c! "DoubleTypeW7")] [.mk (c! "restriction") none [(c! "base", c! "xsd:double")] [.mk (c! "restrict") none [(c! "name", c! "xsd:pattern"), (c! "value", c! "[+\\-]?[+\\-Ee0123456789\\.]{1,6}")] []]],
  .mk (c! "simpletype") none [(c! "name", c! "DoubleTypeW21")] [.mk (c! "restriction") none [(c! "base", c! "xsd:double")] [.mk (c! "restrict") none [(c! "name", c! "xsd:pattern"), (c! "value", c! "[+\\-]?[+\\-Ee0123456789\\.]{1,20}")] []]],
  .mk (c! "simpletype") none [(c! "name", c! "SubFrmType")] [.mk (c! "restriction") none [(c! "base", c! "StringType")] [.mk (c! "restrict") none [(c! "name", c! "xsd:pattern"), (c! "value", c! "([BJ]\\d{4}.0)|APP\\.")] []]],
  .mk (c! "simpletype") none [(c! "name", c! "LeapSecondsHelp")] [.mk (c! "restriction") none [(c! "base", c! "xsd:string")] [.mk (c! "restrict") none [(c! "name", c! "xsd:pattern"), (c! "value", c! "19(72|81|82|83|85|92|93|94|97)-06-30T23:59:60(\\.\\d+)?Z")] [], .mk (c! "restrict") none [(c! "name", c! "xsd:pattern"), (c! "value", c! "19(72|73|74|75|76|77|78|79|87|89|90|95|98)-12-31T23:59:60(\\.\\d+)?Z")] [], .mk (c! "restrict") none [(c! "name", c! "xsd:pattern"), (c! "value", c! "20(12|15)-06-30T23:59:60(\\.\\d+)?Z")] [], .mk (c! "restrict") none [(c! "name", c! "xsd:pattern"), (c! "value", c! "20(05|08|16)-12-31T23:59:60(.\\d+)?Z")] [], .mk (c! "restrict") none [(c! "name", c! "xsd:pattern"), (c! "value", c! "(2[1-9]\\d{2}|20[2-9]\\d|201[7-9])-12-31T23:59:60(\\.\\d+)?Z")] [], .mk (c! "restrict") none [(c! "name", c! "xsd:pattern"), (c! "value", c! "(2[1-9]\\d{2}|20[2-9]\\d|201[7-9])-06-30T23:59:60(\\.\\d+)?Z")] [], .mk (c! "restrict") none [(c! "name", c! "xsd:pattern"), (c! "value", c! "[3-9]\\d{3}-06-30T23:59:60(\\.\\d+)?Z")] [], .mk (c! "restrict") none [(c! "name", c! "xsd:pattern"), (c! "value", c! "[3-9]\\d{3}-12-31T23:59:60(\\.\\d+)?Z")] []]],
  .mk (c! "simpletype") none [(c! "name", c! "LogicalType")] [.mk (c! "restriction") none [(c! "base", c! "xsd:integer")] [.mk (c! "restrict") none [(c! "name", c! "xsd:enumeration"), (c! "value", c! "0")] [], .mk (c! "restrict") none [(c! "name", c! "xsd:enumeration"), (c! "value", c! "1")] []]],
  .mk (c! "simpletype") none [(c! "name", c! "ModeType")] [.mk (c! "restriction") none [(c! "base", c! "AlphaNumericType")] [.mk (c! "restrict") none [(c! "name", c! "xsd:maxLength"), (c! "value", c! "3")] []]],
  .mk (c! "simpletype") none [(c! "name", c! "ObsCenterType")] [.mk (c! "union") none [(c! "memberTypes", c! "PermIDType ProvIDType PlanetNameType")] [], .mk (c! "submitunion") none [(c! "memberTypes", c! "PermIDType ProvIDType PlanetNameType")] []],
  .mk (c! "simpletype") none [(c! "name", c! "NotesType")] [.mk (c! "restriction") none [(c! "base", c! "AlphaNumericType")] [.mk (c! "restrict") none [(c! "name", c! "xsd:maxLength"), (c! "value", c! "6")] []]],
  .mk (c! "simpletype") none [(c! "name", c! "ObsIDType")] [.mk (c! "restriction") none [(c! "base", c! "AlphaNumericType")] [.mk (c! "restrict") none [(c! "name", c! "xsd:maxLength"), (c! "value", c! "25")] []]],
  .mk (c! "simpletype") none [(c! "name", c! "PermIDType")] [.mk (c! "restriction") none [(c! "base", c! "StringTypeW25")] [.mk (c! "restrict") none [(c! "name", c! "xsd:pattern"), (c! "value", c! "\\d+([IPD](-[A-Z]{1,2})?)?|((Mars|Jupiter|Saturn|Uranus|Neptune) \\d{1,3}|\\(\\d+\\) \\d{1,3})")] []]],
  .mk (c! "simpletype") none [(c! "name", c! "PhotModType")] [.mk (c! "restriction") none [(c! "base", c! "AlphaNumericType")] [.mk (c! "restrict") none [(c! "name", c! "xsd:maxLength"), (c! "value", c! "8")] []]]]

def d0_2 : List Elem := [
  .mk (c! "simpletype") none [(c! "name", c! "PlanetNameType")] [.mk (c! "restriction") none [(c! "base", c! "StringTypeW25")] [.mk (c! "restrict") none [(c! "name", c! "xsd:enumeration"), (c! "value", c! "Mercury")] [], .mk (c! "restrict") none [(c! "name", c! "xsd:enumeration"), (c! "value", c! "Venus")] [], .mk (c! "restrict") none [(c! "name", c! "xsd:enumeration"), (c! "value", c! "Earth")] [], .mk (c! "restrict") none [(c! "name", c! "xsd:enumeration"), (c! "value", c! "Moon")] [], .mk (c! "restrict") none [(c! "name", c! "xsd:enumeration"), (c! "value", c! "Mars")] [], .mk (c! "restrict") none [(c! "name", c! "xsd:enumeration"), (c! "value", c! "Jupiter")] [], .mk (c! "restrict") none [(c! "name", c! "xsd:enumeration"), (c! "value", c! "Saturn")] [], .mk (c! "restrict") none [(c! "name", c! "xsd:enumeration"), (c! "value", c! "Uranus")] [], .mk (c! "restrict") none [(c! "name", c! "xsd:enumeration"), (c! "value", c! "Neptune")] []]],
  .mk (c! "simpletype") none [(c! "name", c! "PosDecimalType")] [.mk (c! "restriction") none [(c! "base", c! "xsd:decimal")] [.mk (c! "restrict") none [(c! "name", c! "xsd:minExclusive"), (c! "value", c! "0.0")] [], .mk (c! "restrict") none [(c! "name", c! "xsd:maxExclusive"), (c! "value", c! "100000.0")] [], .mk (c! "restrict") none [(c! "name", c! "xsd:pattern"), (c! "value", c! "(0|([1-9][0-9]*))(\\.[0-9]*)?")] []]],
  .mk (c! "simpletype") none [(c! "name", c! "PosIntegerTypeW6")] [.mk (c! "restriction") none [(c! "base", c! "xsd:positiveInteger")] [.mk (c! "restrict") none [(c! "name", c! "xsd:maxExclusive"), (c! "value", c! "1000000")] []]],
  .mk (c! "simpletype") none [(c! "name", c! "CtrType")] [.mk (c! "restriction") none [(c! "base", c! "SPICEIDType")] [.mk (c! "restrict") none [(c! "name", c! "xsd:enumeration"), (c! "value", c! "399")] []]],
  .mk (c! "simpletype") none [(c! "name", c! "SPICEIDType")] [.mk (c! "restriction") none [(c! "base", c! "xsd:integer")] [.mk (c! "restrict") none [(c! "name", c! "xsd:maxExclusive"), (c! "value", c! "+1000000000")] [], .mk (c! "restrict") none [(c! "name", c! "xsd:minExclusive"), (c! "value", c! "-1000000000")] []]],
  .mk (c! "simpletype") none [(c! "name", c! "PosDecimalTypeW6")] [.mk (c! "restriction") none [(c! "base", c! "PosDecimalType")] [.mk (c! "restrict") none [(c! "name", c! "xsd:pattern"), (c! "value", c! "[0123456789\\.]{1,6}")] []]],
  .mk (c! "simpletype") none [(c! "name", c! "PosDecimalTypeW7")] [.mk (c! "restriction") none [(c! "base", c! "PosDecimalType")] [.mk (c! "restrict") none [(c! "name", c! "xsd:pattern"), (c! "value", c! "[0123456789\\.]{1,7}")] []]],
  .mk (c! "simpletype") none [(c! "name", c! "PosDecimalTypeW8")] [.mk (c! "restriction") none [(c! "base", c! "PosDecimalType")] [.mk (c! "restrict") none [(c! "name", c! "xsd:pattern"), (c! "value", c! "[0123456789\\.]{1,8}")] []]],
  .mk (c! "simpletype") none [(c! "name", c! "PosDecimalTypeW10")] [.mk (c! "restriction") none [(c! "base", c! "PosDecimalType")] [.mk (c! "restrict") none [(c! "name", c! "xsd:pattern"), (c! "value", c! "[0123456789\\.]{1,10}")] []]],
  .mk (c! "simpletype") none [(c! "name", c! "PosDecimalTypeW14")] [.mk (c! "restriction") none [(c! "base", c! "PosDecimalType")] [.mk (c! "restrict") none [(c! "name", c! "xsd:pattern"), (c! "value", c! "[0123456789\\.]{1,14}")] []]],
  .mk (c! "simpletype") none [(c! "name", c! "FrequencyType")] [.mk (c! "restriction") none [(c! "base", c! "xsd:decimal")] [.mk (c! "restrict") none [(c! "name", c! "xsd:minExclusive"), (c! "value", c! "0.0")] [], .mk (c! "restrict") none [(c! "name", c! "xsd:pattern"), (c! "value", c! "[0123456789\\.]{1,16}")] []]],
  .mk (c! "simpletype") none [(c! "name", c! "ProgType")] [.mk (c! "restriction") none [(c! "base", c! "AlphaNumericType")] [.mk (c! "restrict") none [(c! "name", c! "xsd:maxLength"), (c! "value", c! "2")] []]]]

def d0_3 : List Elem := [
  .mk (c! "simpletype") none [(c! "name", c! "BaseProvIDType")] [.mk (c! "restriction") none [(c! "base", c! "StringTypeW25")] [.mk (c! "restrict") none [(c! "name", c! "xsd:pattern"), (c! "value", c! "\\d{4} [A-HJ-Y][A-HJ-Z]\\d*|\\d{4} (P-L|T-[123])|[ADCPX]/\\d{4} [A-Z]{1,2}\\d*(-[A-Z])?|S/\\d{4} ((M|J|S|U|N)|\\((\\d+|\\d{4} [A-HJ-Y][A-HJ-Z]?\\d+)\\)) \\d+")] []]],
  .mk (c! "simpletype") none [(c! "name", c! "OldProvIDType")] [.mk (c! "restriction") none [(c! "base", c! "StringTypeW25")] [.mk (c! "restrict") none [(c! "name", c! "xsd:pattern"), (c! "value", c! "A[89]\\d{2} [A-HJ-Y][A-HJ-Z]")] []]],
  .mk (c! "simpletype") none [(c! "name", c! "ProvIDType")] [.mk (c! "union") none [(c! "memberTypes", c! "BaseProvIDType OldProvIDType")] [], .mk (c! "submitunion") none [(c! "memberTypes", c! "BaseProvIDType")] []],
  .mk (c! "simpletype") none [(c! "name", c! "RaDecPrecType")] [.mk (c! "restriction") none [(c! "base", c! "xsd:decimal")] [.mk (c! "restrict") none [(c! "name", c! "xsd:enumeration"), (c! "value", c! "0.1")] [], .mk (c! "restrict") none [(c! "name", c! "xsd:enumeration"), (c! "value", c! "0.6")] [], .mk (c! "restrict") none [(c! "name", c! "xsd:enumeration"), (c! "value", c! "0.01")] [], .mk (c! "restrict") none [(c! "name", c! "xsd:enumeration"), (c! "value", c! "0.001")] [], .mk (c! "restrict") none [(c! "name", c! "xsd:enumeration"), (c! "value", c! "60")] [], .mk (c! "restrict") none [(c! "name", c! "xsd:enumeration"), (c! "value", c! "6")] [], .mk (c! "restrict") none [(c! "name", c! "xsd:enumeration"), (c! "value", c! "1")] []]],
  .mk (c! "simpletype") none [(c! "name", c! "RAType")] [.mk (c! "restriction") none [(c! "base", c! "xsd:decimal")] [.mk (c! "restrict") none [(c! "name", c! "xsd:minInclusive"), (c! "value", c! "0.0")] [], .mk (c! "restrict") none [(c! "name", c! "xsd:maxExclusive"), (c! "value", c! "360.0")] [], .mk (c! "restrict") none [(c! "name", c! "xsd:pattern"), (c! "value", c! "([1-3][0-9]{2}|[1-9]?[0-9])?(\\.[0-9]{0,9})?")] []]],
  .mk (c! "simpletype") none [(c! "name", c! "RefType")] [.mk (c! "restriction") none [(c! "base", c! "StringType")] [.mk (c! "restrict") none [(c! "name", c! "xsd:maxLength"), (c! "value", c! "16")] []]],
  .mk (c! "simpletype") none [(c! "name", c! "RemarkType")] [.mk (c! "restriction") none [(c! "base", c! "StringType")] [.mk (c! "restrict") none [(c! "name", c! "xsd:maxLength"), (c! "value", c! "300")] []]],
  .mk (c! "simpletype") none [(c! "name", c! "SelResType"), (c! "base", c! "xsd:string")] [.mk (c! "restriction") none [(c! "base", c! "xsd:string")] [.mk (c! "restrict") none [(c! "name", c! "xsd:enumeration"), (c! "value", c! "A")] [], .mk (c! "restrict") none [(c! "name", c! "xsd:enumeration"), (c! "value", c! "a")] [], .mk (c! "restrict") none [(c! "name", c! "xsd:enumeration"), (c! "value", c! "D")] [], .mk (c! "restrict") none [(c! "name", c! "xsd:enumeration"), (c! "value", c! "d")] []]],
  .mk (c! "simpletype") none [(c! "name", c! "StationType")] [.mk (c! "restriction") none [(c! "base", c! "AlphaNumericType")] [.mk (c! "restrict") none [(c! "name", c! "xsd:minLength"), (c! "value", c! "3")] [], .mk (c! "restrict") none [(c! "name", c! "xsd:maxLength"), (c! "value", c! "4")] []]],
  .mk (c! "simpletype") none [(c! "name", c! "StringType")] [.mk (c! "restriction") none [(c! "base", c! "xsd:string")] [.mk (c! "restrict") none [(c! "name", c! "xsd:pattern"), (c! "value", c! "[^|]*[^|\\s][^|]*")] []]],
  .mk (c! "simpletype") none [(c! "name", c! "StringTypeW25")] [.mk (c! "restriction") none [(c! "base", c! "StringType")] [.mk (c! "restrict") none [(c! "name", c! "xsd:maxLength"), (c! "value", c! "25")] []]],
  .mk (c! "simpletype") none [(c! "name", c! "StringTypeW100")] [.mk (c! "restriction") none [(c! "base", c! "StringType")] [.mk (c! "restrict") none [(c! "name", c! "xsd:maxLength"), (c! "value", c! "100")] []]]]

def d0_4 : List Elem := [
  .mk (c! "simpletype") none [(c! "name", c! "SubFmtType")] [.mk (c! "restriction") none [(c! "base", c! "AlphaNumericType")] [.mk (c! "restrict") none [(c! "name", c! "xsd:maxLength"), (c! "value", c! "4")] []]],
  .mk (c! "simpletype") none [(c! "name", c! "SysType")] [.mk (c! "restriction") none [(c! "base", c! "xsd:string")] [.mk (c! "restrict") none [(c! "name", c! "xsd:enumeration"), (c! "value", c! "WGS84")] [], .mk (c! "restrict") none [(c! "name", c! "xsd:enumeration"), (c! "value", c! "ITRF")] [], .mk (c! "restrict") none [(c! "name", c! "xsd:enumeration"), (c! "value", c! "IAU")] [], .mk (c! "restrict") none [(c! "name", c! "xsd:enumeration"), (c! "value", c! "ICRF_AU")] [], .mk (c! "restrict") none [(c! "name", c! "xsd:enumeration"), (c! "value", c! "ICRF_KM")] []]],
  .mk (c! "simpletype") none [(c! "name", c! "TimeHelp")] [.mk (c! "restriction") none [(c! "base", c! "xsd:dateTime")] [.mk (c! "restrict") none [(c! "name", c! "xsd:pattern"), (c! "value", c! "\\d{4}-\\d{2}-\\d{2}T\\d{2}:\\d{2}:\\d{2}(\\.\\d{1,6})?Z")] []]],
  .mk (c! "simpletype") none [(c! "name", c! "TimePrecType")] [.mk (c! "restriction") none [(c! "base", c! "xsd:decimal")] [.mk (c! "restrict") none [(c! "name", c! "xsd:enumeration"), (c! "value", c! "100000")] [], .mk (c! "restrict") none [(c! "name", c! "xsd:enumeration"), (c! "value", c! "10000")] [], .mk (c! "restrict") none [(c! "name", c! "xsd:enumeration"), (c! "value", c! "1000")] [], .mk (c! "restrict") none [(c! "name", c! "xsd:enumeration"), (c! "value", c! "100")] [], .mk (c! "restrict") none [(c! "name", c! "xsd:enumeration"), (c! "value", c! "10")] [], .mk (c! "restrict") none [(c! "name", c! "xsd:enumeration"), (c! "value", c! "1")] [], .mk (c! "restrict") none [(c! "name", c! "xsd:enumeration"), (c! "value", c! "41667")] [], .mk (c! "restrict") none [(c! "name", c! "xsd:enumeration"), (c! "value", c! "4167")] [], .mk (c! "restrict") none [(c! "name", c! "xsd:enumeration"), (c! "value", c! "694")] [], .mk (c! "restrict") none [(c! "name", c! "xsd:enumeration"), (c! "value", c! "69")] []]],
  .mk (c! "simpletype") none [(c! "name", c! "TimeType")] [.mk (c! "union") none [(c! "memberTypes", c! "TimeHelp LeapSecondsHelp")] [], .mk (c! "submitunion") none [(c! "memberTypes", c! "TimeHelp LeapSecondsHelp")] []],
  .mk (c! "simpletype") none [(c! "name", c! "TrkIDType")] [.mk (c! "restriction") none [(c! "base", c! "StringType")] [.mk (c! "restrict") none [(c! "name", c! "xsd:pattern"), (c! "value", c! "[-A-Za-z0-9_]*")] [], .mk (c! "restrict") none [(c! "name", c! "xsd:maxLength"), (c! "value", c! "12")] []]],
  .mk (c! "simpletype") none [(c! "name", c! "BaseTrkSubType")] [.mk (c! "restriction") none [(c! "base", c! "StringType")] [.mk (c! "restrict") none [(c! "name", c! "xsd:pattern"), (c! "value", c! "[-A-Za-z0-9_]*")] [], .mk (c! "restrict") none [(c! "name", c! "xsd:maxLength"), (c! "value", c! "8")] []]],
  .mk (c! "simpletype") none [(c! "name", c! "OldTrkSubType")] [.mk (c! "restriction") none [(c! "base", c! "StringType")] [.mk (c! "restrict") none [(c! "name", c! "xsd:pattern"), (c! "value", c! "[- ?+@.()/\\\\A-Za-z0-9_]*")] [], .mk (c! "restrict") none [(c! "name", c! "xsd:maxLength"), (c! "value", c! "8")] []]],
  .mk (c! "simpletype") none [(c! "name", c! "TrkSubType")] [.mk (c! "union") none [(c! "memberTypes", c! "BaseTrkSubType OldTrkSubType")] [], .mk (c! "submitunion") none [(c! "memberTypes", c! "BaseTrkSubType")] []],
  .mk (c! "simpletype") none [(c! "name", c! "VersionType")] [.mk (c! "restriction") none [(c! "base", c! "xsd:string")] [.mk (c! "restrict") none [(c! "name", c! "xsd:enumeration"), (c! "value", c! "2022")] []]],
  .mk (c! "complextype") none [(c! "name", c! "NamesType")] [.mk (c! "sequence") none [] [.mk (c! "element") none [(c! "name", c! "name"), (c! "type", c! "StringTypeW100"), (c! "use", c! "unbounded")] []]],
  .mk (c! "complextype") none [(c! "name", c! "ObservatoryType")] [.mk (c! "all") none [] [.mk (c! "element") none [(c! "name", c! "mpcCode"), (c! "type", c! "StationType")] [], .mk (c! "element") none [(c! "name", c! "name"), (c! "type", c! "StringTypeW100"), (c! "use", c! "optional")] []]]]

def d0_5 : List Elem := [
  .mk (c! "complextype") none [(c! "name", c! "SubmitterType")] [.mk (c! "all") none [] [.mk (c! "element") none [(c! "name", c! "name"), (c! "type", c! "StringTypeW100")] [], .mk (c! "element") none [(c! "name", c! "institution"), (c! "type", c! "StringTypeW100"), (c! "use", c! "optional")] []]],
  .mk (c! "complextype") none [(c! "name", c! "TelescopeType")] [.mk (c! "all") none [] [.mk (c! "element") none [(c! "name", c! "name"), (c! "type", c! "StringTypeW100"), (c! "use", c! "optional")] [], .mk (c! "element") none [(c! "name", c! "design"), (c! "type", c! "StringTypeW25")] [], .mk (c! "element") none [(c! "name", c! "aperture"), (c! "type", c! "PosDecimalTypeW6")] [], .mk (c! "element") none [(c! "name", c! "detector"), (c! "type", c! "StringTypeW25")] [], .mk (c! "element") none [(c! "name", c! "fRatio"), (c! "type", c! "PosDecimalTypeW6"), (c! "use", c! "optional")] [], .mk (c! "element") none [(c! "name", c! "filter"), (c! "type", c! "StringTypeW25"), (c! "use", c! "optional")] [], .mk (c! "element") none [(c! "name", c! "arraySize"), (c! "type", c! "StringTypeW25"), (c! "use", c! "optional")] [], .mk (c! "element") none [(c! "name", c! "pixelScale"), (c! "type", c! "PosDecimalTypeW6"), (c! "use", c! "optional")] []]],
  .mk (c! "complextype") none [(c! "name", c! "SoftwareType")] [.mk (c! "all") none [] [.mk (c! "element") none [(c! "name", c! "astrometry"), (c! "type", c! "StringTypeW100"), (c! "use", c! "optional")] [], .mk (c! "element") none [(c! "name", c! "fitOrder"), (c! "type", c! "StringTypeW25"), (c! "use", c! "optional")] [], .mk (c! "element") none [(c! "name", c! "photometry"), (c! "type", c! "StringTypeW100"), (c! "use", c! "optional")] [], .mk (c! "element") none [(c! "name", c! "objectDetection"), (c! "type", c! "StringTypeW100"), (c! "use", c! "optional")] []]],
  .mk (c! "complextype") none [(c! "name", c! "CommentType")] [.mk (c! "sequence") none [] [.mk (c! "element") none [(c! "name", c! "line"), (c! "type", c! "StringTypeW100"), (c! "use", c! "unbounded")] []]],
  .mk (c! "grouptype") none [(c! "name", c! "MPCID")] [.mk (c! "choice") none [] [.mk (c! "sequence") none [] [.mk (c! "element") none [(c! "ref", c! "permID")] [], .mk (c! "element") none [(c! "ref", c! "provID"), (c! "use", c! "optional")] []], .mk (c! "sequence") none [] [.mk (c! "element") none [(c! "ref", c! "provID")] []], .mk (c! "sequence") none [] [.mk (c! "element") none [(c! "ref", c! "artSat")] []]]],
  .mk (c! "grouptype") none [(c! "name", c! "OpticalID")] [.mk (c! "sequence") none [] [.mk (c! "choice") none [] [.mk (c! "sequence") none [] [.mk (c! "group") none [(c! "ref", c! "MPCID")] [], .mk (c! "element") none [(c! "ref", c! "trkSub"), (c! "use", c! "optional")] []], .mk (c! "sequence") none [] [.mk (c! "element") none [(c! "ref", c! "trkSub")] []]], .mk (c! "element") none [(c! "ref", c! "obsID"), (c! "use", c! "NoSubmit")] [], .mk (c! "element") none [(c! "ref", c! "obsSubID"), (c! "use", c! "optional")] [], .mk (c! "element") none [(c! "ref", c! "trkID"), (c! "use", c! "NoSubmit")] [], .mk (c! "element") none [(c! "ref", c! "trkMPC"), (c! "use", c! "NoSubmit")] []]],
  .mk (c! "grouptype") none [(c! "name", c! "RadarID")] [.mk (c! "sequence") none [] [.mk (c! "group") none [(c! "ref", c! "MPCID")] [], .mk (c! "element") none [(c! "ref", c! "trkSub"), (c! "use", c! "optional")] [], .mk (c! "element") none [(c! "ref", c! "obsID"), (c! "use", c! "NoSubmit")] []]],
  .mk (c! "grouptype") none [(c! "name", c! "RadarValue")] [.mk (c! "choice") none [] [.mk (c! "sequence") none [] [.mk (c! "element") none [(c! "ref", c! "doppler")] [], .mk (c! "element") none [(c! "ref", c! "rmsDoppler")] []], .mk (c! "sequence") none [] [.mk (c! "element") none [(c! "ref", c! "delay")] [], .mk (c! "element") none [(c! "ref", c! "rmsDelay")] []]]],
  .mk (c! "grouptype") none [(c! "name", c! "Precision")] [.mk (c! "sequence") none [] [.mk (c! "element") none [(c! "ref", c! "precTime")] [], .mk (c! "element") none [(c! "ref", c! "precRA")] [], .mk (c! "element") none [(c! "ref", c! "precDec")] []]],
  .mk (c! "grouptype") none [(c! "name", c! "Location")] [.mk (c! "sequence") none [] [.mk (c! "element") none [(c! "ref", c! "sys")] [], .mk (c! "element") none [(c! "ref", c! "ctr")] [], .mk (c! "element") none [(c! "ref", c! "pos1")] [], .mk (c! "element") none [(c! "ref", c! "pos2")] [], .mk (c! "element") none [(c! "ref", c! "pos3")] [], .mk (c! "element") none [(c! "ref", c! "vel1"), (c! "use", c! "optional")] [], .mk (c! "element") none [(c! "ref", c! "vel2"), (c! "use", c! "optional")] [], .mk (c! "element") none [(c! "ref", c! "vel3"), (c! "use", c! "optional")] [], .mk (c! "element") none [(c! "ref", c! "posCov11"), (c! "use", c! "optional")] [], .mk (c! "element") none [(c! "ref", c! "posCov12"), (c! "use", c! "optional")] [], .mk (c! "element") none [(c! "ref", c! "posCov13"), (c! "use", c! "optional")] [], .mk (c! "element") none [(c! "ref", c! "posCov22"), (c! "use", c! "optional")] [], .mk (c! "element") none [(c! "ref", c! "posCov23"), (c! "use", c! "optional")] [], .mk (c! "element") none [(c! "ref", c! "posCov33"), (c! "use", c! "optional")] []]],
  .mk (c! "grouptype") none [(c! "name", c! "Photometry")] [.mk (c! "sequence") none [] [.mk (c! "element") none [(c! "ref", c! "mag")] [], .mk (c! "element") none [(c! "ref", c! "rmsMag"), (c! "use", c! "optional")] [], .mk (c! "element") none [(c! "ref", c! "band")] [], .mk (c! "element") none [(c! "ref", c! "fltr"), (c! "use", c! "optional")] [], .mk (c! "element") none [(c! "ref", c! "photCat"), (c! "use", c! "optional")] [], .mk (c! "element") none [(c! "ref", c! "photAp"), (c! "use", c! "optional")] [], .mk (c! "element") none [(c! "ref", c! "nucMag"), (c! "use", c! "NoSubmit")] []]],
  .mk (c! "grouptype") none [(c! "name", c! "OffsetVal")] [.mk (c! "choice") none [] [.mk (c! "sequence") none [] [.mk (c! "element") none [(c! "ref", c! "deltaRA")] [], .mk (c! "element") none [(c! "ref", c! "deltaDec")] [], .mk (c! "element") none [(c! "ref", c! "rmsRA"), (c! "use", c! "optional")] [], .mk (c! "element") none [(c! "ref", c! "rmsDec"), (c! "use", c! "optional")] [], .mk (c! "element") none [(c! "ref", c! "rmsCorr"), (c! "use", c! "optional")] []], .mk (c! "sequence") none [] [.mk (c! "element") none [(c! "ref", c! "dist")] [], .mk (c! "element") none [(c! "ref", c! "pa")] [], .mk (c! "element") none [(c! "ref", c! "rmsDist"), (c! "use", c! "optional")] [], .mk (c! "element") none [(c! "ref", c! "rmsPA"), (c! "use", c! "optional")] [], .mk (c! "element") none [(c! "ref", c! "rmsCorr"), (c! "use", c! "optional")] []]]]]

def d0_6 : List Elem := [
  .mk (c! "grouptype") none [(c! "name", c! "OpticalRes")] [.mk (c! "sequence") none [] [.mk (c! "element") none [(c! "ref", c! "resRA")] [], .mk (c! "element") none [(c! "ref", c! "resDec")] [], .mk (c! "element") none [(c! "ref", c! "selAst")] [], .mk (c! "element") none [(c! "ref", c! "sigRA")] [], .mk (c! "element") none [(c! "ref", c! "sigDec")] [], .mk (c! "element") none [(c! "ref", c! "sigCorr"), (c! "use", c! "optional")] [], .mk (c! "element") none [(c! "ref", c! "sigTime"), (c! "use", c! "optional")] [], .mk (c! "element") none [(c! "ref", c! "biasRA"), (c! "use", c! "optional")] [], .mk (c! "element") none [(c! "ref", c! "biasDec"), (c! "use", c! "optional")] [], .mk (c! "element") none [(c! "ref", c! "biasTime"), (c! "use", c! "optional")] []]],
  .mk (c! "grouptype") none [(c! "name", c! "OpticalResMag")] [.mk (c! "sequence") none [] [.mk (c! "element") none [(c! "ref", c! "photProd"), (c! "use", c! "optional")] [], .mk (c! "element") none [(c! "ref", c! "resMag")] [], .mk (c! "element") none [(c! "ref", c! "selPhot")] [], .mk (c! "element") none [(c! "ref", c! "sigMag")] [], .mk (c! "element") none [(c! "ref", c! "biasMag"), (c! "use", c! "optional")] [], .mk (c! "element") none [(c! "ref", c! "photMod"), (c! "use", c! "optional")] []]],
  .mk (c! "grouptype") none [(c! "name", c! "OpticalResiduals")] [.mk (c! "sequence") none [] [.mk (c! "element") none [(c! "ref", c! "orbProd")] [], .mk (c! "element") none [(c! "ref", c! "orbID")] [], .mk (c! "choice") none [] [.mk (c! "sequence") none [] [.mk (c! "group") none [(c! "ref", c! "OpticalRes")] [], .mk (c! "group") none [(c! "ref", c! "OpticalResMag"), (c! "use", c! "optional")] []], .mk (c! "sequence") none [] [.mk (c! "group") none [(c! "ref", c! "OpticalResMag")] []]]]],
  .mk (c! "grouptype") none [(c! "name", c! "RadarResiduals")] [.mk (c! "sequence") none [] [.mk (c! "element") none [(c! "ref", c! "orbProd")] [], .mk (c! "element") none [(c! "ref", c! "orbID")] [], .mk (c! "choice") none [] [.mk (c! "sequence") none [] [.mk (c! "element") none [(c! "ref", c! "resDelay")] [], .mk (c! "element") none [(c! "ref", c! "selDelay")] [], .mk (c! "element") none [(c! "ref", c! "sigDelay")] []], .mk (c! "sequence") none [] [.mk (c! "element") none [(c! "ref", c! "resDoppler")] [], .mk (c! "element") none [(c! "ref", c! "selDoppler")] [], .mk (c! "element") none [(c! "ref", c! "sigDoppler")] []]]]],
  .mk (c! "complextype") none [(c! "name", c! "LocalUseType")] [.mk (c! "sequence") none [] [.mk (c! "any") none [] []]],
  .mk (c! "complextype") none [(c! "name", c! "OpticalType")] [.mk (c! "sequence") none [] [.mk (c! "group") none [(c! "ref", c! "OpticalID")] [], .mk (c! "element") none [(c! "ref", c! "mode")] [], .mk (c! "element") none [(c! "ref", c! "stn")] [], .mk (c! "group") none [(c! "ref", c! "Location"), (c! "use", c! "optional")] [], .mk (c! "element") none [(c! "ref", c! "prog"), (c! "use", c! "NoSubmit")] [], .mk (c! "element") none [(c! "ref", c! "obsTime")] [], .mk (c! "element") none [(c! "ref", c! "rmsTime"), (c! "use", c! "optional")] [], .mk (c! "element") none [(c! "ref", c! "ra")] [], .mk (c! "element") none [(c! "ref", c! "dec")] [], .mk (c! "element") none [(c! "ref", c! "rmsRA"), (c! "use", c! "optional")] [], .mk (c! "element") none [(c! "ref", c! "rmsDec"), (c! "use", c! "optional")] [], .mk (c! "element") none [(c! "ref", c! "rmsCorr"), (c! "use", c! "optional")] [], .mk (c! "element") none [(c! "ref", c! "astCat")] [], .mk (c! "group") none [(c! "ref", c! "Photometry"), (c! "use", c! "optional")] [], .mk (c! "element") none [(c! "ref", c! "logSNR"), (c! "use", c! "optional")] [], .mk (c! "element") none [(c! "ref", c! "seeing"), (c! "use", c! "optional")] [], .mk (c! "element") none [(c! "ref", c! "exp"), (c! "use", c! "optional")] [], .mk (c! "element") none [(c! "ref", c! "rmsFit"), (c! "use", c! "optional")] [], .mk (c! "element") none [(c! "ref", c! "nStars"), (c! "use", c! "optional")] [], .mk (c! "element") none [(c! "ref", c! "ref"), (c! "use", c! "NoSubmit")] [], .mk (c! "element") none [(c! "ref", c! "disc"), (c! "use", c! "optional")] [], .mk (c! "element") none [(c! "ref", c! "subFrm"), (c! "use", c! "NoSubmit")] [], .mk (c! "element") none [(c! "ref", c! "subFmt"), (c! "use", c! "NoSubmit")] [], .mk (c! "group") none [(c! "ref", c! "Precision"), (c! "use", c! "NoSubmit")] [], .mk (c! "element") none [(c! "ref", c! "uncTime"), (c! "use", c! "optional")] [], .mk (c! "element") none [(c! "ref", c! "notes"), (c! "use", c! "optional")] [], .mk (c! "element") none [(c! "ref", c! "remarks"), (c! "use", c! "optional")] [], .mk (c! "group") none [(c! "ref", c! "OpticalResiduals"), (c! "use", c! "NoSubmit")] [], .mk (c! "element") none [(c! "ref", c! "deprecated"), (c! "use", c! "NoSubmit")] [], .mk (c! "element") none [(c! "ref", c! "localUse"), (c! "use", c! "NoSubmit")] []]],
  .mk (c! "complextype") none [(c! "name", c! "OffsetType")] [.mk (c! "sequence") none [] [.mk (c! "group") none [(c! "ref", c! "OpticalID")] [], .mk (c! "element") none [(c! "ref", c! "mode")] [], .mk (c! "element") none [(c! "ref", c! "stn")] [], .mk (c! "group") none [(c! "ref", c! "Location"), (c! "use", c! "optional")] [], .mk (c! "element") none [(c! "ref", c! "prog"), (c! "use", c! "NoSubmit")] [], .mk (c! "element") none [(c! "ref", c! "obsTime")] [], .mk (c! "element") none [(c! "ref", c! "rmsTime"), (c! "use", c! "optional")] [], .mk (c! "element") none [(c! "ref", c! "obsCenter")] [], .mk (c! "group") none [(c! "ref", c! "OffsetVal")] [], .mk (c! "group") none [(c! "ref", c! "Photometry"), (c! "use", c! "optional")] [], .mk (c! "element") none [(c! "ref", c! "logSNR"), (c! "use", c! "optional")] [], .mk (c! "element") none [(c! "ref", c! "seeing"), (c! "use", c! "optional")] [], .mk (c! "element") none [(c! "ref", c! "exp"), (c! "use", c! "optional")] [], .mk (c! "element") none [(c! "ref", c! "rmsFit"), (c! "use", c! "optional")] [], .mk (c! "element") none [(c! "ref", c! "nStars"), (c! "use", c! "optional")] [], .mk (c! "element") none [(c! "ref", c! "ref"), (c! "use", c! "NoSubmit")] [], .mk (c! "element") none [(c! "ref", c! "disc"), (c! "use", c! "optional")] [], .mk (c! "element") none [(c! "ref", c! "subFrm"), (c! "use", c! "NoSubmit")] [], .mk (c! "element") none [(c! "ref", c! "subFmt"), (c! "use", c! "NoSubmit")] [], .mk (c! "group") none [(c! "ref", c! "Precision"), (c! "use", c! "NoSubmit")] [], .mk (c! "element") none [(c! "ref", c! "uncTime"), (c! "use", c! "optional")] [], .mk (c! "element") none [(c! "ref", c! "notes"), (c! "use", c! "optional")] [], .mk (c! "element") none [(c! "ref", c! "remarks"), (c! "use", c! "optional")] [], .mk (c! "group") none [(c! "ref", c! "OpticalResiduals"), (c! "use", c! "NoSubmit")] [], .mk (c! "element") none [(c! "ref", c! "deprecated"), (c! "use", c! "NoSubmit")] [], .mk (c! "element") none [(c! "ref", c! "localUse"), (c! "use", c! "NoSubmit")] []]],
  .mk (c! "complextype") none [(c! "name", c! "OccultationType")] [.mk (c! "sequence") none [] [.mk (c! "group") none [(c! "ref", c! "OpticalID")] [], .mk (c! "element") none [(c! "ref", c! "mode")] [], .mk (c! "element") none [(c! "ref", c! "stn")] [], .mk (c! "group") none [(c! "ref", c! "Location"), (c! "use", c! "optional")] [], .mk (c! "element") none [(c! "ref", c! "prog"), (c! "use", c! "NoSubmit")] [], .mk (c! "element") none [(c! "ref", c! "obsTime")] [], .mk (c! "element") none [(c! "ref", c! "rmsTime"), (c! "use", c! "optional")] [], .mk (c! "element") none [(c! "ref", c! "raStar")] [], .mk (c! "element") none [(c! "ref", c! "decStar")] [], .mk (c! "group") none [(c! "ref", c! "OffsetVal")] [], .mk (c! "element") none [(c! "ref", c! "astCat")] [], .mk (c! "group") none [(c! "ref", c! "Photometry"), (c! "use", c! "optional")] [], .mk (c! "element") none [(c! "ref", c! "logSNR"), (c! "use", c! "optional")] [], .mk (c! "element") none [(c! "ref", c! "shapeOcc"), (c! "use", c! "optional")] [], .mk (c! "element") none [(c! "ref", c! "seeing"), (c! "use", c! "optional")] [], .mk (c! "element") none [(c! "ref", c! "ref"), (c! "use", c! "NoSubmit")] [], .mk (c! "element") none [(c! "ref", c! "disc"), (c! "use", c! "optional")] [], .mk (c! "element") none [(c! "ref", c! "subFrm"), (c! "use", c! "NoSubmit")] [], .mk (c! "element") none [(c! "ref", c! "subFmt"), (c! "use", c! "NoSubmit")] [], .mk (c! "group") none [(c! "ref", c! "Precision"), (c! "use", c! "NoSubmit")] [], .mk (c! "element") none [(c! "ref", c! "uncTime"), (c! "use", c! "optional")] [], .mk (c! "element") none [(c! "ref", c! "notes"), (c! "use", c! "optional")] [], .mk (c! "element") none [(c! "ref", c! "remarks"), (c! "use", c! "optional")] [], .mk (c! "group") none [(c! "ref", c! "OpticalResiduals"), (c! "use", c! "NoSubmit")] [], .mk (c! "element") none [(c! "ref", c! "deprecated"), (c! "use", c! "NoSubmit")] [], .mk (c! "element") none [(c! "ref", c! "localUse"), (c! "use", c! "NoSubmit")] []]],
  .mk (c! "complextype") none [(c! "name", c! "RadarType")] [.mk (c! "sequence") none [] [.mk (c! "group") none [(c! "ref", c! "RadarID")] [], .mk (c! "element") none [(c! "ref", c! "trx")] [], .mk (c! "element") none [(c! "ref", c! "rcv")] [], .mk (c! "element") none [(c! "ref", c! "prog"), (c! "use", c! "NoSubmit")] [], .mk (c! "element") none [(c! "ref", c! "obsTime")] [], .mk (c! "group") none [(c! "ref", c! "RadarValue")] [], .mk (c! "element") none [(c! "ref", c! "logSNR"), (c! "use", c! "optional")] [], .mk (c! "element") none [(c! "ref", c! "com"), (c! "use", c! "optional")] [], .mk (c! "element") none [(c! "ref", c! "frq")] [], .mk (c! "element") none [(c! "ref", c! "ref"), (c! "use", c! "NoSubmit")] [], .mk (c! "element") none [(c! "ref", c! "remarks"), (c! "use", c! "optional")] [], .mk (c! "group") none [(c! "ref", c! "RadarResiduals"), (c! "use", c! "NoSubmit")] [], .mk (c! "element") none [(c! "ref", c! "localUse"), (c! "use", c! "NoSubmit")] []]],
  .mk (c! "complextype") none [(c! "name", c! "ObsContextType")] [.mk (c! "all") none [] [.mk (c! "element") none [(c! "ref", c! "observatory")] [], .mk (c! "element") none [(c! "ref", c! "submitter")] [], .mk (c! "element") none [(c! "ref", c! "observers"), (c! "use", c! "optional")] [], .mk (c! "element") none [(c! "ref", c! "measurers")] [], .mk (c! "element") none [(c! "ref", c! "telescope")] [], .mk (c! "element") none [(c! "ref", c! "software"), (c! "use", c! "optional")] [], .mk (c! "element") none [(c! "ref", c! "coinvestigators"), (c! "use", c! "optional")] [], .mk (c! "element") none [(c! "ref", c! "collaborators"), (c! "use", c! "optional")] [], .mk (c! "element") none [(c! "ref", c! "fundingSource"), (c! "use", c! "optional")] [], .mk (c! "element") none [(c! "ref", c! "comment"), (c! "use", c! "optional")] []]],
  .mk (c! "complextype") none [(c! "name", c! "ObsDataType")] [.mk (c! "choice") none [] [.mk (c! "element") none [(c! "ref", c! "optical"), (c! "use", c! "unbounded")] [], .mk (c! "element") none [(c! "ref", c! "offset"), (c! "use", c! "unbounded")] [], .mk (c! "element") none [(c! "ref", c! "occultation"), (c! "use", c! "unbounded")] [], .mk (c! "element") none [(c! "ref", c! "radar"), (c! "use", c! "unbounded")] []]],
  .mk (c! "complextype") none [(c! "name", c! "ObsBlockType")] [.mk (c! "sequence") none [] [.mk (c! "element") none [(c! "ref", c! "obsContext")] [], .mk (c! "element") none [(c! "ref", c! "obsData")] []]]]

def d0_7 : List Elem := [
  .mk (c! "complextype") none [(c! "name", c! "OpticalResType")] [.mk (c! "sequence") none [] [.mk (c! "group") none [(c! "ref", c! "OpticalID")] [], .mk (c! "element") none [(c! "ref", c! "obsTime")] [], .mk (c! "group") none [(c! "ref", c! "OpticalResiduals")] []]],
  .mk (c! "complextype") none [(c! "name", c! "RadarResType")] [.mk (c! "sequence") none [] [.mk (c! "group") none [(c! "ref", c! "RadarID")] [], .mk (c! "element") none [(c! "ref", c! "obsTime")] [], .mk (c! "group") none [(c! "ref", c! "RadarResiduals")] []]],
  .mk (c! "complextype") none [(c! "name", c! "ADESType")] [.mk (c! "attribute") none [(c! "name", c! "version"), (c! "type", c! "VersionType"), (c! "use", c! "requiredAttribute")] [], .mk (c! "choice") none [(c! "use", c! "unbounded")] [.mk (c! "element") none [(c! "ref", c! "optical"), (c! "use", c! "NoSubmit")] [], .mk (c! "element") none [(c! "ref", c! "offset"), (c! "use", c! "NoSubmit")] [], .mk (c! "element") none [(c! "ref", c! "occultation"), (c! "use", c! "NoSubmit")] [], .mk (c! "element") none [(c! "ref", c! "radar"), (c! "use", c! "NoSubmit")] [], .mk (c! "element") none [(c! "ref", c! "opticalResidual"), (c! "use", c! "NoSubmit")] [], .mk (c! "element") none [(c! "ref", c! "radarResidual"), (c! "use", c! "NoSubmit")] [], .mk (c! "element") none [(c! "ref", c! "obsBlock")] []]]]

/-- /repo/xml/adesmaster.xml section XSDTypes -/
def sec0 : Elem := .mk (c! "XSDTypes") none [] (d0_0 ++ d0_1 ++ d0_2 ++ d0_3 ++ d0_4 ++ d0_5 ++ d0_6 ++ d0_7)

def d1_0 : List Elem := [
  .mk (c! "element") none [(c! "name", c! "permID"), (c! "type", c! "PermIDType")] [],
  .mk (c! "element") none [(c! "name", c! "provID"), (c! "type", c! "ProvIDType")] [],
  .mk (c! "element") none [(c! "name", c! "artSat"), (c! "type", c! "StringTypeW25")] [],
  .mk (c! "element") none [(c! "name", c! "trkSub"), (c! "type", c! "TrkSubType")] [],
  .mk (c! "element") none [(c! "name", c! "obsID"), (c! "type", c! "ObsIDType")] [],
  .mk (c! "element") none [(c! "name", c! "obsSubID"), (c! "type", c! "StringTypeW25")] [],
  .mk (c! "element") none [(c! "name", c! "trkID"), (c! "type", c! "TrkIDType")] [],
  .mk (c! "element") none [(c! "name", c! "trkMPC"), (c! "type", c! "TrkIDType")] [],
  .mk (c! "element") none [(c! "name", c! "mode"), (c! "type", c! "ModeType")] [],
  .mk (c! "element") none [(c! "name", c! "stn"), (c! "type", c! "StationType")] [],
  .mk (c! "element") none [(c! "name", c! "trx"), (c! "type", c! "StationType")] [],
  .mk (c! "element") none [(c! "name", c! "rcv"), (c! "type", c! "StationType")] []]

def d1_1 : List Elem := [
  .mk (c! "element") none [(c! "name", c! "sys"), (c! "type", c! "SysType")] [],
  .mk (c! "element") none [(c! "name", c! "ctr"), (c! "type", c! "CtrType")] [],
  .mk (c! "element") none [(c! "name", c! "pos1"), (c! "type", c! "DecimalTypeW14")] [],
  .mk (c! "element") none [(c! "name", c! "pos2"), (c! "type", c! "DecimalTypeW14")] [],
  .mk (c! "element") none [(c! "name", c! "pos3"), (c! "type", c! "DecimalTypeW14")] [],
  .mk (c! "element") none [(c! "name", c! "vel1"), (c! "type", c! "DecimalTypeW14")] [],
  .mk (c! "element") none [(c! "name", c! "vel2"), (c! "type", c! "DecimalTypeW14")] [],
  .mk (c! "element") none [(c! "name", c! "vel3"), (c! "type", c! "DecimalTypeW14")] [],
  .mk (c! "element") none [(c! "name", c! "posCov11"), (c! "type", c! "DoubleTypeW21")] [],
  .mk (c! "element") none [(c! "name", c! "posCov12"), (c! "type", c! "DoubleTypeW21")] [],
  .mk (c! "element") none [(c! "name", c! "posCov13"), (c! "type", c! "DoubleTypeW21")] [],
  .mk (c! "element") none [(c! "name", c! "posCov22"), (c! "type", c! "DoubleTypeW21")] []]

def d1_2 : List Elem := [
  .mk (c! "element") none [(c! "name", c! "posCov23"), (c! "type", c! "DoubleTypeW21")] [],
  .mk (c! "element") none [(c! "name", c! "posCov33"), (c! "type", c! "DoubleTypeW21")] [],
  .mk (c! "element") none [(c! "name", c! "prog"), (c! "type", c! "ProgType")] [],
  .mk (c! "element") none [(c! "name", c! "obsTime"), (c! "type", c! "TimeType")] [],
  .mk (c! "element") none [(c! "name", c! "rmsTime"), (c! "type", c! "PosDecimalTypeW8")] [],
  .mk (c! "element") none [(c! "name", c! "ra"), (c! "type", c! "RAType")] [],
  .mk (c! "element") none [(c! "name", c! "dec"), (c! "type", c! "DeclinationType")] [],
  .mk (c! "element") none [(c! "name", c! "raStar"), (c! "type", c! "RAType")] [],
  .mk (c! "element") none [(c! "name", c! "decStar"), (c! "type", c! "DeclinationType")] [],
  .mk (c! "element") none [(c! "name", c! "obsCenter"), (c! "type", c! "ObsCenterType")] [],
  .mk (c! "element") none [(c! "name", c! "deltaRA"), (c! "type", c! "DecimalTypeW10")] [],
  .mk (c! "element") none [(c! "name", c! "deltaDec"), (c! "type", c! "DecimalTypeW10")] []]

def d1_3 : List Elem := [
  .mk (c! "element") none [(c! "name", c! "dist"), (c! "type", c! "PosDecimalTypeW10")] [],
  .mk (c! "element") none [(c! "name", c! "pa"), (c! "type", c! "RAType")] [],
  .mk (c! "element") none [(c! "name", c! "rmsRA"), (c! "type", c! "PosDecimalTypeW7")] [],
  .mk (c! "element") none [(c! "name", c! "rmsDec"), (c! "type", c! "PosDecimalTypeW7")] [],
  .mk (c! "element") none [(c! "name", c! "rmsDist"), (c! "type", c! "PosDecimalTypeW6")] [],
  .mk (c! "element") none [(c! "name", c! "rmsPA"), (c! "type", c! "PosDecimalTypeW6")] [],
  .mk (c! "element") none [(c! "name", c! "rmsCorr"), (c! "type", c! "CorrDecimalType")] [],
  .mk (c! "element") none [(c! "name", c! "delay"), (c! "type", c! "PosDecimalTypeW14")] [],
  .mk (c! "element") none [(c! "name", c! "rmsDelay"), (c! "type", c! "PosDecimalTypeW6")] [],
  .mk (c! "element") none [(c! "name", c! "doppler"), (c! "type", c! "DecimalTypeW14")] [],
  .mk (c! "element") none [(c! "name", c! "rmsDoppler"), (c! "type", c! "PosDecimalTypeW6")] [],
  .mk (c! "element") none [(c! "name", c! "astCat"), (c! "type", c! "CatType")] []]

def d1_4 : List Elem := [
  .mk (c! "element") none [(c! "name", c! "mag"), (c! "type", c! "MagType")] [],
  .mk (c! "element") none [(c! "name", c! "rmsMag"), (c! "type", c! "PosDecimalTypeW6")] [],
  .mk (c! "element") none [(c! "name", c! "band"), (c! "type", c! "BandType")] [],
  .mk (c! "element") none [(c! "name", c! "fltr"), (c! "type", c! "BandType")] [],
  .mk (c! "element") none [(c! "name", c! "photCat"), (c! "type", c! "CatType")] [],
  .mk (c! "element") none [(c! "name", c! "photAp"), (c! "type", c! "PosDecimalTypeW6")] [],
  .mk (c! "element") none [(c! "name", c! "nucMag"), (c! "type", c! "LogicalType")] [],
  .mk (c! "element") none [(c! "name", c! "logSNR"), (c! "type", c! "DecimalTypeW6")] [],
  .mk (c! "element") none [(c! "name", c! "shapeOcc"), (c! "type", c! "LogicalType")] [],
  .mk (c! "element") none [(c! "name", c! "seeing"), (c! "type", c! "PosDecimalTypeW6")] [],
  .mk (c! "element") none [(c! "name", c! "exp"), (c! "type", c! "PosDecimalTypeW6")] [],
  .mk (c! "element") none [(c! "name", c! "rmsFit"), (c! "type", c! "PosDecimalTypeW6")] []]

def d1_5 : List Elem := [
  .mk (c! "element") none [(c! "name", c! "nStars"), (c! "type", c! "PosIntegerTypeW6")] [],
  .mk (c! "element") none [(c! "name", c! "com"), (c! "type", c! "LogicalType")] [],
  .mk (c! "element") none [(c! "name", c! "frq"), (c! "type", c! "FrequencyType")] [],
  .mk (c! "element") none [(c! "name", c! "ref"), (c! "type", c! "RefType")] [],
  .mk (c! "element") none [(c! "name", c! "disc"), (c! "type", c! "DiscType")] [],
  .mk (c! "element") none [(c! "name", c! "subFrm"), (c! "type", c! "SubFrmType")] [],
  .mk (c! "element") none [(c! "name", c! "subFmt"), (c! "type", c! "SubFmtType")] [],
  .mk (c! "element") none [(c! "name", c! "precTime"), (c! "type", c! "TimePrecType")] [],
  .mk (c! "element") none [(c! "name", c! "precRA"), (c! "type", c! "RaDecPrecType")] [],
  .mk (c! "element") none [(c! "name", c! "precDec"), (c! "type", c! "RaDecPrecType")] [],
  .mk (c! "element") none [(c! "name", c! "uncTime"), (c! "type", c! "PosDecimalTypeW8")] [],
  .mk (c! "element") none [(c! "name", c! "notes"), (c! "type", c! "NotesType")] []]

def d1_6 : List Elem := [
  .mk (c! "element") none [(c! "name", c! "remarks"), (c! "type", c! "RemarkType")] [],
  .mk (c! "element") none [(c! "name", c! "deprecated"), (c! "type", c! "DeprecatedType")] [],
  .mk (c! "element") none [(c! "name", c! "localUse"), (c! "type", c! "LocalUseType")] []]

/-- /repo/xml/adesmaster.xml section XSDElementTypes -/
def sec1 : Elem := .mk (c! "XSDElementTypes") none [] (d1_0 ++ d1_1 ++ d1_2 ++ d1_3 ++ d1_4 ++ d1_5 ++ d1_6)

def d2_0 : List Elem := [
  .mk (c! "element") none [(c! "name", c! "orbProd"), (c! "type", c! "StringTypeW100")] [],
  .mk (c! "element") none [(c! "name", c! "orbID"), (c! "type", c! "StringTypeW25")] [],
  .mk (c! "element") none [(c! "name", c! "resRA"), (c! "type", c! "DoubleTypeW7")] [],
  .mk (c! "element") none [(c! "name", c! "resDec"), (c! "type", c! "DoubleTypeW7")] [],
  .mk (c! "element") none [(c! "name", c! "selAst"), (c! "type", c! "SelResType")] [],
  .mk (c! "element") none [(c! "name", c! "sigRA"), (c! "type", c! "PosDecimalTypeW7")] [],
  .mk (c! "element") none [(c! "name", c! "sigDec"), (c! "type", c! "PosDecimalTypeW7")] [],
  .mk (c! "element") none [(c! "name", c! "sigCorr"), (c! "type", c! "CorrDecimalType")] [],
  .mk (c! "element") none [(c! "name", c! "sigTime"), (c! "type", c! "PosDecimalTypeW8")] [],
  .mk (c! "element") none [(c! "name", c! "biasRA"), (c! "type", c! "DecimalTypeW8")] [],
  .mk (c! "element") none [(c! "name", c! "biasDec"), (c! "type", c! "DecimalTypeW8")] [],
  .mk (c! "element") none [(c! "name", c! "biasTime"), (c! "type", c! "DecimalTypeW10")] []]

def d2_1 : List Elem := [
  .mk (c! "element") none [(c! "name", c! "photProd"), (c! "type", c! "StringTypeW100")] [],
  .mk (c! "element") none [(c! "name", c! "resMag"), (c! "type", c! "DoubleTypeW7")] [],
  .mk (c! "element") none [(c! "name", c! "selPhot"), (c! "type", c! "SelResType")] [],
  .mk (c! "element") none [(c! "name", c! "sigMag"), (c! "type", c! "PosDecimalTypeW6")] [],
  .mk (c! "element") none [(c! "name", c! "biasMag"), (c! "type", c! "DecimalTypeW6")] [],
  .mk (c! "element") none [(c! "name", c! "photMod"), (c! "type", c! "PhotModType")] [],
  .mk (c! "element") none [(c! "name", c! "resDelay"), (c! "type", c! "DoubleTypeW7")] [],
  .mk (c! "element") none [(c! "name", c! "selDelay"), (c! "type", c! "SelResType")] [],
  .mk (c! "element") none [(c! "name", c! "sigDelay"), (c! "type", c! "PosDecimalTypeW6")] [],
  .mk (c! "element") none [(c! "name", c! "resDoppler"), (c! "type", c! "DoubleTypeW7")] [],
  .mk (c! "element") none [(c! "name", c! "selDoppler"), (c! "type", c! "SelResType")] [],
  .mk (c! "element") none [(c! "name", c! "sigDoppler"), (c! "type", c! "PosDecimalTypeW6")] []]

/-- /repo/xml/adesmaster.xml section XSDElementTypes -/
def sec2 : Elem := .mk (c! "XSDElementTypes") none [] (d2_0 ++ d2_1)

def d3_0 : List Elem := [
  .mk (c! "element") none [(c! "name", c! "observatory"), (c! "type", c! "ObservatoryType")] [],
  .mk (c! "element") none [(c! "name", c! "submitter"), (c! "type", c! "SubmitterType")] [],
  .mk (c! "element") none [(c! "name", c! "observers"), (c! "type", c! "NamesType")] [],
  .mk (c! "element") none [(c! "name", c! "measurers"), (c! "type", c! "NamesType")] [],
  .mk (c! "element") none [(c! "name", c! "telescope"), (c! "type", c! "TelescopeType")] [],
  .mk (c! "element") none [(c! "name", c! "software"), (c! "type", c! "SoftwareType")] [],
  .mk (c! "element") none [(c! "name", c! "coinvestigators"), (c! "type", c! "NamesType")] [],
  .mk (c! "element") none [(c! "name", c! "collaborators"), (c! "type", c! "NamesType")] [],
  .mk (c! "element") none [(c! "name", c! "fundingSource"), (c! "type", c! "StringTypeW100")] [],
  .mk (c! "element") none [(c! "name", c! "comment"), (c! "type", c! "CommentType")] []]

/-- /repo/xml/adesmaster.xml section XSDElementTypes -/
def sec3 : Elem := .mk (c! "XSDElementTypes") none [] (d3_0)

def d4_0 : List Elem := [
  .mk (c! "element") none [(c! "name", c! "optical"), (c! "type", c! "OpticalType")] [],
  .mk (c! "element") none [(c! "name", c! "offset"), (c! "type", c! "OffsetType")] [],
  .mk (c! "element") none [(c! "name", c! "occultation"), (c! "type", c! "OccultationType")] [],
  .mk (c! "element") none [(c! "name", c! "radar"), (c! "type", c! "RadarType")] []]

/-- /repo/xml/adesmaster.xml section XSDElementTypes -/
def sec4 : Elem := .mk (c! "XSDElementTypes") none [] (d4_0)

def d5_0 : List Elem := [
  .mk (c! "element") none [(c! "name", c! "obsContext"), (c! "type", c! "ObsContextType")] [],
  .mk (c! "element") none [(c! "name", c! "obsData"), (c! "type", c! "ObsDataType")] [],
  .mk (c! "element") none [(c! "name", c! "obsBlock"), (c! "type", c! "ObsBlockType")] []]

/-- /repo/xml/adesmaster.xml section XSDElementTypes -/
def sec5 : Elem := .mk (c! "XSDElementTypes") none [] (d5_0)

def d6_0 : List Elem := [
  .mk (c! "element") none [(c! "name", c! "opticalResidual"), (c! "type", c! "OpticalResType")] [],
  .mk (c! "element") none [(c! "name", c! "radarResidual"), (c! "type", c! "RadarResType")] []]

/-- /repo/xml/adesmaster.xml section XSDElementTypes -/
def sec6 : Elem := .mk (c! "XSDElementTypes") none [] (d6_0)

def d7_0 : List Elem := [
  .mk (c! "element") none [(c! "name", c! "ades"), (c! "type", c! "ADESType")] []]

/-- /repo/xml/adesmaster.xml section XSDElementTypes -/
def sec7 : Elem := .mk (c! "XSDElementTypes") none [] (d7_0)

def d8_0 : List Elem := [
  .mk (c! "psv") none [(c! "tagtype", c! "optical"), (c! "name", c! "permID"), (c! "width", c! "7"), (c! "justification", c! "R"), (c! "dpos", c! "0")] [],
  .mk (c! "psv") none [(c! "tagtype", c! "optical"), (c! "name", c! "provID"), (c! "width", c! "11"), (c! "justification", c! "L"), (c! "dpos", c! "0")] [],
  .mk (c! "psv") none [(c! "tagtype", c! "optical"), (c! "name", c! "artSat"), (c! "width", c! "8"), (c! "justification", c! "R"), (c! "dpos", c! "0")] [],
  .mk (c! "psv") none [(c! "tagtype", c! "optical"), (c! "name", c! "trkSub"), (c! "width", c! "7"), (c! "justification", c! "R"), (c! "dpos", c! "0")] [],
  .mk (c! "psv") none [(c! "tagtype", c! "optical"), (c! "name", c! "mode"), (c! "width", c! "3"), (c! "justification", c! "R"), (c! "dpos", c! "0")] [],
  .mk (c! "psv") none [(c! "tagtype", c! "optical"), (c! "name", c! "stn"), (c! "width", c! "4"), (c! "justification", c! "L"), (c! "dpos", c! "0")] [],
  .mk (c! "psv") none [(c! "tagtype", c! "optical"), (c! "name", c! "prog"), (c! "width", c! "2"), (c! "justification", c! "R"), (c! "dpos", c! "0")] [],
  .mk (c! "psv") none [(c! "tagtype", c! "optical"), (c! "name", c! "obsTime"), (c! "width", c! "23"), (c! "justification", c! "L"), (c! "dpos", c! "0")] [],
  .mk (c! "psv") none [(c! "tagtype", c! "optical"), (c! "name", c! "ra"), (c! "width", c! "12"), (c! "justification", c! "D"), (c! "dpos", c! "4")] [],
  .mk (c! "psv") none [(c! "tagtype", c! "optical"), (c! "name", c! "dec"), (c! "width", c! "12"), (c! "justification", c! "D"), (c! "dpos", c! "4")] [],
  .mk (c! "psv") none [(c! "tagtype", c! "optical"), (c! "name", c! "rmsRA"), (c! "width", c! "7"), (c! "justification", c! "D"), (c! "dpos", c! "2")] [],
  .mk (c! "psv") none [(c! "tagtype", c! "optical"), (c! "name", c! "rmsDec"), (c! "width", c! "7"), (c! "justification", c! "D"), (c! "dpos", c! "2")] []]

def d8_1 : List Elem := [
  .mk (c! "psv") none [(c! "tagtype", c! "optical"), (c! "name", c! "rmsCorr"), (c! "width", c! "7"), (c! "justification", c! "D"), (c! "dpos", c! "3")] [],
  .mk (c! "psv") none [(c! "tagtype", c! "optical"), (c! "name", c! "astCat"), (c! "width", c! "3"), (c! "justification", c! "R"), (c! "dpos", c! "0")] [],
  .mk (c! "psv") none [(c! "tagtype", c! "optical"), (c! "name", c! "mag"), (c! "width", c! "5"), (c! "justification", c! "D"), (c! "dpos", c! "3")] [],
  .mk (c! "psv") none [(c! "tagtype", c! "optical"), (c! "name", c! "rmsMag"), (c! "width", c! "4"), (c! "justification", c! "D"), (c! "dpos", c! "2")] [],
  .mk (c! "psv") none [(c! "tagtype", c! "optical"), (c! "name", c! "band"), (c! "width", c! "3"), (c! "justification", c! "R"), (c! "dpos", c! "0")] [],
  .mk (c! "psv") none [(c! "tagtype", c! "optical"), (c! "name", c! "photCat"), (c! "width", c! "3"), (c! "justification", c! "R"), (c! "dpos", c! "0")] [],
  .mk (c! "psv") none [(c! "tagtype", c! "optical"), (c! "name", c! "photAp"), (c! "width", c! "4"), (c! "justification", c! "D"), (c! "dpos", c! "3")] [],
  .mk (c! "psv") none [(c! "tagtype", c! "optical"), (c! "name", c! "logSNR"), (c! "width", c! "4"), (c! "justification", c! "D"), (c! "dpos", c! "2")] [],
  .mk (c! "psv") none [(c! "tagtype", c! "optical"), (c! "name", c! "seeing"), (c! "width", c! "3"), (c! "justification", c! "D"), (c! "dpos", c! "2")] [],
  .mk (c! "psv") none [(c! "tagtype", c! "optical"), (c! "name", c! "exp"), (c! "width", c! "4"), (c! "justification", c! "R"), (c! "dpos", c! "0")] [],
  .mk (c! "psv") none [(c! "tagtype", c! "optical"), (c! "name", c! "notes"), (c! "width", c! "5"), (c! "justification", c! "L"), (c! "dpos", c! "0")] [],
  .mk (c! "psv") none [(c! "tagtype", c! "optical"), (c! "name", c! "remarks"), (c! "width", c! "0"), (c! "justification", c! "L"), (c! "dpos", c! "0")] []]

def d8_2 : List Elem := [
  .mk (c! "psv") none [(c! "tagtype", c! "offset"), (c! "name", c! "permID"), (c! "width", c! "7"), (c! "justification", c! "R"), (c! "dpos", c! "0")] [],
  .mk (c! "psv") none [(c! "tagtype", c! "offset"), (c! "name", c! "provID"), (c! "width", c! "11"), (c! "justification", c! "L"), (c! "dpos", c! "0")] [],
  .mk (c! "psv") none [(c! "tagtype", c! "offset"), (c! "name", c! "artSat"), (c! "width", c! "8"), (c! "justification", c! "R"), (c! "dpos", c! "0")] [],
  .mk (c! "psv") none [(c! "tagtype", c! "offset"), (c! "name", c! "trkSub"), (c! "width", c! "7"), (c! "justification", c! "R"), (c! "dpos", c! "0")] [],
  .mk (c! "psv") none [(c! "tagtype", c! "offset"), (c! "name", c! "mode"), (c! "width", c! "3"), (c! "justification", c! "R"), (c! "dpos", c! "0")] [],
  .mk (c! "psv") none [(c! "tagtype", c! "offset"), (c! "name", c! "stn"), (c! "width", c! "4"), (c! "justification", c! "L"), (c! "dpos", c! "0")] [],
  .mk (c! "psv") none [(c! "tagtype", c! "offset"), (c! "name", c! "prog"), (c! "width", c! "2"), (c! "justification", c! "R"), (c! "dpos", c! "0")] [],
  .mk (c! "psv") none [(c! "tagtype", c! "offset"), (c! "name", c! "obsTime"), (c! "width", c! "23"), (c! "justification", c! "L"), (c! "dpos", c! "0")] [],
  .mk (c! "psv") none [(c! "tagtype", c! "offset"), (c! "name", c! "obsCenter"), (c! "width", c! "8"), (c! "justification", c! "L"), (c! "dpos", c! "0")] [],
  .mk (c! "psv") none [(c! "tagtype", c! "offset"), (c! "name", c! "deltaRA"), (c! "width", c! "12"), (c! "justification", c! "D"), (c! "dpos", c! "4")] [],
  .mk (c! "psv") none [(c! "tagtype", c! "offset"), (c! "name", c! "deltaDec"), (c! "width", c! "12"), (c! "justification", c! "D"), (c! "dpos", c! "4")] [],
  .mk (c! "psv") none [(c! "tagtype", c! "offset"), (c! "name", c! "rmsRA"), (c! "width", c! "7"), (c! "justification", c! "D"), (c! "dpos", c! "2")] []]

def d8_3 : List Elem := [
  .mk (c! "psv") none [(c! "tagtype", c! "offset"), (c! "name", c! "rmsDec"), (c! "width", c! "7"), (c! "justification", c! "D"), (c! "dpos", c! "2")] [],
  .mk (c! "psv") none [(c! "tagtype", c! "offset"), (c! "name", c! "dist"), (c! "width", c! "5"), (c! "justification", c! "D"), (c! "dpos", c! "2")] [],
  .mk (c! "psv") none [(c! "tagtype", c! "offset"), (c! "name", c! "pa"), (c! "width", c! "6"), (c! "justification", c! "D"), (c! "dpos", c! "2")] [],
  .mk (c! "psv") none [(c! "tagtype", c! "offset"), (c! "name", c! "rmsdist"), (c! "width", c! "7"), (c! "justification", c! "D"), (c! "dpos", c! "3")] [],
  .mk (c! "psv") none [(c! "tagtype", c! "offset"), (c! "name", c! "rmsPA"), (c! "width", c! "6"), (c! "justification", c! "D"), (c! "dpos", c! "3")] [],
  .mk (c! "psv") none [(c! "tagtype", c! "offset"), (c! "name", c! "rmsCorr"), (c! "width", c! "6"), (c! "justification", c! "D"), (c! "dpos", c! "2")] [],
  .mk (c! "psv") none [(c! "tagtype", c! "offset"), (c! "name", c! "astCat"), (c! "width", c! "3"), (c! "justification", c! "R"), (c! "dpos", c! "0")] [],
  .mk (c! "psv") none [(c! "tagtype", c! "offset"), (c! "name", c! "astCat"), (c! "width", c! "3"), (c! "justification", c! "R"), (c! "dpos", c! "0")] [],
  .mk (c! "psv") none [(c! "tagtype", c! "offset"), (c! "name", c! "mag"), (c! "width", c! "5"), (c! "justification", c! "D"), (c! "dpos", c! "3")] [],
  .mk (c! "psv") none [(c! "tagtype", c! "offset"), (c! "name", c! "rmsMag"), (c! "width", c! "4"), (c! "justification", c! "D"), (c! "dpos", c! "2")] [],
  .mk (c! "psv") none [(c! "tagtype", c! "offset"), (c! "name", c! "band"), (c! "width", c! "3"), (c! "justification", c! "R"), (c! "dpos", c! "0")] [],
  .mk (c! "psv") none [(c! "tagtype", c! "offset"), (c! "name", c! "photCat"), (c! "width", c! "3"), (c! "justification", c! "R"), (c! "dpos", c! "0")] []]

def d8_4 : List Elem := [
  .mk (c! "psv") none [(c! "tagtype", c! "offset"), (c! "name", c! "photAp"), (c! "width", c! "4"), (c! "justification", c! "D"), (c! "dpos", c! "3")] [],
  .mk (c! "psv") none [(c! "tagtype", c! "offset"), (c! "name", c! "logSNR"), (c! "width", c! "4"), (c! "justification", c! "D"), (c! "dpos", c! "2")] [],
  .mk (c! "psv") none [(c! "tagtype", c! "offset"), (c! "name", c! "seeing"), (c! "width", c! "3"), (c! "justification", c! "D"), (c! "dpos", c! "2")] [],
  .mk (c! "psv") none [(c! "tagtype", c! "offset"), (c! "name", c! "exp"), (c! "width", c! "4"), (c! "justification", c! "R"), (c! "dpos", c! "0")] [],
  .mk (c! "psv") none [(c! "tagtype", c! "offset"), (c! "name", c! "notes"), (c! "width", c! "5"), (c! "justification", c! "L"), (c! "dpos", c! "0")] [],
  .mk (c! "psv") none [(c! "tagtype", c! "offset"), (c! "name", c! "remarks"), (c! "width", c! "0"), (c! "justification", c! "L"), (c! "dpos", c! "0")] [],
  .mk (c! "psv") none [(c! "tagtype", c! "occultation"), (c! "name", c! "permID"), (c! "width", c! "7"), (c! "justification", c! "R"), (c! "dpos", c! "0")] [],
  .mk (c! "psv") none [(c! "tagtype", c! "occultation"), (c! "name", c! "provID"), (c! "width", c! "11"), (c! "justification", c! "L"), (c! "dpos", c! "0")] [],
  .mk (c! "psv") none [(c! "tagtype", c! "occultation"), (c! "name", c! "artSat"), (c! "width", c! "8"), (c! "justification", c! "R"), (c! "dpos", c! "0")] [],
  .mk (c! "psv") none [(c! "tagtype", c! "occultation"), (c! "name", c! "trkSub"), (c! "width", c! "7"), (c! "justification", c! "R"), (c! "dpos", c! "0")] [],
  .mk (c! "psv") none [(c! "tagtype", c! "occultation"), (c! "name", c! "stn"), (c! "width", c! "4"), (c! "justification", c! "L"), (c! "dpos", c! "0")] [],
  .mk (c! "psv") none [(c! "tagtype", c! "occultation"), (c! "name", c! "prog"), (c! "width", c! "2"), (c! "justification", c! "R"), (c! "dpos", c! "0")] []]

def d8_5 : List Elem := [
  .mk (c! "psv") none [(c! "tagtype", c! "occultation"), (c! "name", c! "obsTime"), (c! "width", c! "23"), (c! "justification", c! "L"), (c! "dpos", c! "0")] [],
  .mk (c! "psv") none [(c! "tagtype", c! "occultation"), (c! "name", c! "obsCenter"), (c! "width", c! "8"), (c! "justification", c! "L"), (c! "dpos", c! "0")] [],
  .mk (c! "psv") none [(c! "tagtype", c! "occultation"), (c! "name", c! "raStar"), (c! "width", c! "13"), (c! "justification", c! "D"), (c! "dpos", c! "4")] [],
  .mk (c! "psv") none [(c! "tagtype", c! "occultation"), (c! "name", c! "decStar"), (c! "width", c! "12"), (c! "justification", c! "D"), (c! "dpos", c! "4")] [],
  .mk (c! "psv") none [(c! "tagtype", c! "occultation"), (c! "name", c! "deltaRA"), (c! "width", c! "12"), (c! "justification", c! "D"), (c! "dpos", c! "4")] [],
  .mk (c! "psv") none [(c! "tagtype", c! "occultation"), (c! "name", c! "deltaDec"), (c! "width", c! "13"), (c! "justification", c! "D"), (c! "dpos", c! "4")] [],
  .mk (c! "psv") none [(c! "tagtype", c! "occultation"), (c! "name", c! "rmsRA"), (c! "width", c! "7"), (c! "justification", c! "D"), (c! "dpos", c! "3")] [],
  .mk (c! "psv") none [(c! "tagtype", c! "occultation"), (c! "name", c! "rmsDec"), (c! "width", c! "7"), (c! "justification", c! "D"), (c! "dpos", c! "3")] [],
  .mk (c! "psv") none [(c! "tagtype", c! "occultation"), (c! "name", c! "dist"), (c! "width", c! "11"), (c! "justification", c! "D"), (c! "dpos", c! "4")] [],
  .mk (c! "psv") none [(c! "tagtype", c! "occultation"), (c! "name", c! "pa"), (c! "width", c! "11"), (c! "justification", c! "D"), (c! "dpos", c! "4")] [],
  .mk (c! "psv") none [(c! "tagtype", c! "occultation"), (c! "name", c! "rmsdist"), (c! "width", c! "6"), (c! "justification", c! "D"), (c! "dpos", c! "3")] [],
  .mk (c! "psv") none [(c! "tagtype", c! "occultation"), (c! "name", c! "rmsPA"), (c! "width", c! "6"), (c! "justification", c! "D"), (c! "dpos", c! "3")] []]

def d8_6 : List Elem := [
  .mk (c! "psv") none [(c! "tagtype", c! "occultation"), (c! "name", c! "rmsCorr"), (c! "width", c! "5"), (c! "justification", c! "D"), (c! "dpos", c! "2")] [],
  .mk (c! "psv") none [(c! "tagtype", c! "occultation"), (c! "name", c! "astCat"), (c! "width", c! "3"), (c! "justification", c! "R"), (c! "dpos", c! "0")] [],
  .mk (c! "psv") none [(c! "tagtype", c! "occultation"), (c! "name", c! "mag"), (c! "width", c! "5"), (c! "justification", c! "D"), (c! "dpos", c! "3")] [],
  .mk (c! "psv") none [(c! "tagtype", c! "occultation"), (c! "name", c! "rmsMag"), (c! "width", c! "4"), (c! "justification", c! "D"), (c! "dpos", c! "2")] [],
  .mk (c! "psv") none [(c! "tagtype", c! "occultation"), (c! "name", c! "band"), (c! "width", c! "3"), (c! "justification", c! "R"), (c! "dpos", c! "0")] [],
  .mk (c! "psv") none [(c! "tagtype", c! "occultation"), (c! "name", c! "photCat"), (c! "width", c! "3"), (c! "justification", c! "R"), (c! "dpos", c! "0")] [],
  .mk (c! "psv") none [(c! "tagtype", c! "occultation"), (c! "name", c! "photAp"), (c! "width", c! "4"), (c! "justification", c! "D"), (c! "dpos", c! "3")] [],
  .mk (c! "psv") none [(c! "tagtype", c! "occultation"), (c! "name", c! "logSNR"), (c! "width", c! "4"), (c! "justification", c! "D"), (c! "dpos", c! "2")] [],
  .mk (c! "psv") none [(c! "tagtype", c! "occultation"), (c! "name", c! "shapeOcc"), (c! "width", c! "1"), (c! "justification", c! "L"), (c! "dpos", c! "0")] [],
  .mk (c! "psv") none [(c! "tagtype", c! "occultation"), (c! "name", c! "seeing"), (c! "width", c! "3"), (c! "justification", c! "D"), (c! "dpos", c! "2")] [],
  .mk (c! "psv") none [(c! "tagtype", c! "occultation"), (c! "name", c! "exp"), (c! "width", c! "4"), (c! "justification", c! "R"), (c! "dpos", c! "0")] [],
  .mk (c! "psv") none [(c! "tagtype", c! "occultation"), (c! "name", c! "notes"), (c! "width", c! "5"), (c! "justification", c! "L"), (c! "dpos", c! "0")] []]

def d8_7 : List Elem := [
  .mk (c! "psv") none [(c! "tagtype", c! "occultation"), (c! "name", c! "remarks"), (c! "width", c! "0"), (c! "justification", c! "L"), (c! "dpos", c! "0")] [],
  .mk (c! "psv") none [(c! "tagtype", c! "radar"), (c! "name", c! "permID"), (c! "width", c! "7"), (c! "justification", c! "R"), (c! "dpos", c! "0")] [],
  .mk (c! "psv") none [(c! "tagtype", c! "radar"), (c! "name", c! "provID"), (c! "width", c! "11"), (c! "justification", c! "L"), (c! "dpos", c! "0")] [],
  .mk (c! "psv") none [(c! "tagtype", c! "radar"), (c! "name", c! "trkSub"), (c! "width", c! "7"), (c! "justification", c! "R"), (c! "dpos", c! "0")] [],
  .mk (c! "psv") none [(c! "tagtype", c! "radar"), (c! "name", c! "obsID"), (c! "width", c! "7"), (c! "justification", c! "R"), (c! "dpos", c! "0")] [],
  .mk (c! "psv") none [(c! "tagtype", c! "radar"), (c! "name", c! "trx"), (c! "width", c! "4"), (c! "justification", c! "L"), (c! "dpos", c! "0")] [],
  .mk (c! "psv") none [(c! "tagtype", c! "radar"), (c! "name", c! "rcv"), (c! "width", c! "4"), (c! "justification", c! "L"), (c! "dpos", c! "0")] [],
  .mk (c! "psv") none [(c! "tagtype", c! "radar"), (c! "name", c! "prog"), (c! "width", c! "2"), (c! "justification", c! "R"), (c! "dpos", c! "0")] [],
  .mk (c! "psv") none [(c! "tagtype", c! "radar"), (c! "name", c! "obsTime"), (c! "width", c! "23"), (c! "justification", c! "L"), (c! "dpos", c! "0")] [],
  .mk (c! "psv") none [(c! "tagtype", c! "radar"), (c! "name", c! "doppler"), (c! "width", c! "11"), (c! "justification", c! "D"), (c! "dpos", c! "4")] [],
  .mk (c! "psv") none [(c! "tagtype", c! "radar"), (c! "name", c! "delay"), (c! "width", c! "11"), (c! "justification", c! "D"), (c! "dpos", c! "4")] [],
  .mk (c! "psv") none [(c! "tagtype", c! "radar"), (c! "name", c! "rmsDoppler"), (c! "width", c! "6"), (c! "justification", c! "D"), (c! "dpos", c! "3")] []]

def d8_8 : List Elem := [
  .mk (c! "psv") none [(c! "tagtype", c! "radar"), (c! "name", c! "rmsDelay"), (c! "width", c! "6"), (c! "justification", c! "D"), (c! "dpos", c! "3")] [],
  .mk (c! "psv") none [(c! "tagtype", c! "radar"), (c! "name", c! "logSNR"), (c! "width", c! "4"), (c! "justification", c! "D"), (c! "dpos", c! "2")] [],
  .mk (c! "psv") none [(c! "tagtype", c! "radar"), (c! "name", c! "remarks"), (c! "width", c! "0"), (c! "justification", c! "L"), (c! "dpos", c! "0")] []]

/-- /repo/xml/adesmaster.xml section PSVObservationFields -/
def sec8 : Elem := .mk (c! "PSVObservationFields") none [] (d8_0 ++ d8_1 ++ d8_2 ++ d8_3 ++ d8_4 ++ d8_5 ++ d8_6 ++ d8_7 ++ d8_8)

/-- the root element of /repo/xml/adesmaster.xml -/
def adesmaster : Elem := .mk (c! "ades") none [] [sec0, sec1, sec2, sec3, sec4, sec5, sec6, sec7, sec8]

end Verif.Master
