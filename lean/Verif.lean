import Verif.Py
import Verif.Regex
import Verif.PackUtil
import Verif.Lemmas.Regex
import Verif.Spec.Designation
import Verif.Lemmas.Num
import Verif.Lemmas.PackPerm
import Verif.Lemmas.PackProv
import Verif.Lemmas.Unpack
import Verif.Lemmas.UnpackComet
import Verif.Props.Designation
import Verif.Lemmas.Shape
import Verif.Lemmas.Total
import Verif.Lemmas.TotalUnpack
import Verif.Props.Total
import Verif.Lemmas.Dec
import Verif.Spec.Reference
import Verif.Props.Codes
import Verif.Tables
import Verif.Justify
import Verif.Lemmas.Split
import Verif.Props.Justify
import Verif.Xml
import Verif.PsvToXml
import Verif.Lemmas.ElementStack
import Verif.Spec.Events
import Verif.Props.ElementStack
import Verif.Spec.Psv
import Verif.Lemmas.Psv
import Verif.Lemmas.PsvText
import Verif.Lemmas.PsvRun
import Verif.Props.Psv
import Verif.Spec.Schema
import Verif.MasterData
import Verif.Master
import Verif.Lemmas.SchemaCheck
import Verif.Props.Schema
import Verif.MasterTables
import Verif.Props.Tables
import Verif.XmlToPsv
import Verif.Lemmas.XmlToPsv
import Verif.Spec.Writable
import Verif.Lemmas.XmlToPsvRun
import Verif.Lemmas.XmlToPsvTotal
import Verif.Lemmas.XmlToPsvTable
import Verif.Lemmas.XmlToPsvAligned
import Verif.Lemmas.XmlToPsvChunks
import Verif.Props.XmlToPsv
import Verif.Float
import Verif.SexVals
import Verif.Spec.Sexagesimal
import Verif.Lemmas.Float
import Verif.Lemmas.SexText
import Verif.Lemmas.SexRead
import Verif.Lemmas.SexArith
import Verif.Lemmas.SexRa
import Verif.Lemmas.SexDec
import Verif.Props.Sexagesimal
import Verif.Props.ObsDate
import Verif.Mpc80
import Verif.Spec.Mpc80
import Verif.Lemmas.Mpc80Layout
import Verif.Lemmas.Mpc80Decode
import Verif.Lemmas.Mpc80Header
import Verif.Props.Mpc80Columns
import Verif.Lemmas.Mpc80Lines
import Verif.Props.Mpc80Lines
import Verif.Spec.Mpc80Doc
import Verif.Lemmas.Mpc80Doc
import Verif.Props.Mpc80Document
import Verif.Spec.Mpc80Optical
import Verif.Lemmas.Mpc80Optical
import Verif.Lemmas.Mpc80Element
import Verif.Lemmas.Mpc80Second
import Verif.Props.Mpc80Optical
import Verif.XmlToMpc80
import Verif.Lemmas.SexBack
import Verif.Spec.Mpc80Back
import Verif.Lemmas.BackDict
import Verif.Lemmas.BackColumns
import Verif.Lemmas.BackRun
import Verif.Lemmas.BackNormal
import Verif.Props.Mpc80Back
import Verif.Convert
import Verif.Spec.Convert
import Verif.Lemmas.Convert
import Verif.Props.Convert
import Verif.Spec.Numeral
import Verif.Spec.Widths
import Verif.Lemmas.Numeral
import Verif.Lemmas.Widths
import Verif.Lemmas.WidthsRun
import Verif.Props.Widths
import Verif.Spec.Angles
import Verif.Lemmas.Angles
import Verif.Lemmas.AnglesRa
import Verif.Lemmas.AnglesDec
import Verif.Props.Angles
import Verif.Spec.Written80
import Verif.Lemmas.Written80
import Verif.Props.Written80
import Verif.Spec.Sent
import Verif.Lemmas.Sent
import Verif.Lemmas.SentBack
import Verif.Props.Sent
import Verif.Spec.Radar
import Verif.Lemmas.Radar
import Verif.Lemmas.RadarSplit
import Verif.Props.Radar
import Verif.Lemmas.RadarBack
import Verif.Props.RadarBack
import Verif.Json
import Verif.Spec.Json
import Verif.Lemmas.Json
import Verif.Lemmas.JsonSchema
import Verif.Props.Json
import Verif.Validate
import Verif.Spec.Validate
import Verif.Lemmas.Validate
import Verif.Props.Validate
import Verif.Spec.IsoTime
import Verif.Lemmas.IsoTime
import Verif.Props.IsoTime
import Verif.Props.Submission
import Verif.Props.Fields
import Verif.Props.Submit80
import Verif.Props.Checked80
import Verif.Props.Packing
import Verif.Props.Unpacking
import Verif.Props.Report80
import Verif.Props.Trip80
import Verif.Props.ObsDateNext
import Verif.Props.PsvErrors
import Verif.Props.References
import Verif.Props.Characters
import Verif.Props.Positions
import Verif.Props.Decoded
import Verif.Props.Second
import Verif.Props.RadarLines
