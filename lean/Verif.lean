import Verif.Basic
import Verif.Nom
import Verif.Num
import Verif.Chrono
import Verif.Ser
import Verif.Line
import Verif.Values
import Verif.Derive
import Verif.Components
import Verif.Iter
import Verif.Lemmas.Str
import Verif.Spec.Fold
import Verif.Lemmas.Fold
import Verif.Props.Fold
import Verif.Lemmas.SMap
import Verif.Lemmas.Nom
import Verif.Spec.Line
import Verif.Lemmas.Line
import Verif.Spec.Text
import Verif.Lemmas.Text
import Verif.Props.Text
import Verif.Props.Line
import Verif.Spec.Parse
import Verif.Lemmas.Derive
import Verif.Spec.Components
import Verif.Props.Parse
import Verif.TestPlatform
import Verif.Lemmas.Component
import Verif.Spec.Document
import Verif.Props.Component
import Verif.Spec.Num
import Verif.Lemmas.Num
import Verif.Props.Names
import Verif.Spec.Calendar
import Verif.Lemmas.Calendar
import Verif.Lemmas.DateTime
import Verif.Spec.DateText
import Verif.Props.Calendar
import Verif.Spec.Duration
import Verif.Lemmas.Duration
import Verif.Props.Duration
import Verif.Lemmas.Arith
import Verif.Props.Order
import Verif.Spec.Rule
import Verif.Lemmas.Rule
import Verif.Props.Rule
import Verif.Props.Panic
import Verif.Spec.Recurrence
import Verif.Lemmas.Recur
import Verif.Props.Recur
import Verif.Lemmas.Steps
import Verif.Props.Steps
import Verif.Props.Range
import Verif.Spec.RoundTrip
import Verif.Lemmas.Written
import Verif.Lemmas.Values
import Verif.Lemmas.Fields
import Verif.Lemmas.Lives
import Verif.Lemmas.Frame
import Verif.Props.RoundTrip
import Verif.Props.AlarmText
import Verif.Props.Absent
import Verif.Spec.Tidy
import Verif.Lemmas.Tidy
import Verif.Lemmas.Guard
import Verif.Props.Broken
import Verif.Lemmas.Blocks
import Verif.Spec.Reread
import Verif.Props.Nested
import Verif.Spec.Zone
import Verif.Props.Convert
import Verif.Spec.Grammar
import Verif.Lemmas.Scan
import Verif.Props.Grammar
import Verif.Macros
import Verif.Spec.Macros
import Verif.Lemmas.Macros
import Verif.Lemmas.Meaning
import Verif.Lemmas.MacroAccept
import Verif.Props.Macros
import Verif.Props.Fate
import Verif.Spec.Names
import Verif.Spec.Output
import Verif.Lemmas.Output
import Verif.Props.Output
import Verif.Spec.Reading
import Verif.Props.Reading
import Verif.Spec.Failing
import Verif.Props.Failing
import Verif.Spec.Echo
import Verif.Lemmas.Echo
import Verif.Props.Echo
import Verif.Props.Forward
import Verif.Props.Select
import Verif.Spec.Sound
import Verif.Props.Sound
import Verif.Spec.Ascii
import Verif.Props.Ascii
import Verif.Spec.Call
import Verif.Props.Call
import Verif.Format
import Verif.Spec.Format
import Verif.Lemmas.Format
import Verif.Props.Format
import Verif.Generate
import Verif.Spec.Generate
import Verif.Lemmas.Generate
import Verif.Props.Generate
import Verif.Equality
import Verif.Spec.Equality
import Verif.Lemmas.Equality
import Verif.Props.Equality
import Verif.Messages
import Verif.Spec.Operators
import Verif.Spec.Windows
import Verif.Props.Fields
import Verif.Props.Operators
import Verif.Props.Windows
import Verif.Props.Messages
import Verif.Orders
import Verif.Props.Frequencies
import Verif.Props.Struct
import Verif.Spec.Faults
import Verif.Props.Faults
import Verif.Spec.Rfc
import Verif.Props.Rfc
import Verif.Props.Commas
import Verif.Float
import Verif.Spec.Float
import Verif.Lemmas.Float
import Verif.Lemmas.FloatText
import Verif.Props.Float
import Verif.Spec.MacroDuration
import Verif.Props.MacroDuration
import Verif.Trace
import Verif.Spec.Trace
import Verif.Spec.TraceValues
import Verif.Lemmas.Trace
import Verif.Lemmas.TraceStops
import Verif.Props.Trace
import Verif.Props.TraceValues
import Verif.Props.TraceMessage
import Verif.Debug
import Verif.Spec.Debug
import Verif.Lemmas.Debug
import Verif.Lemmas.DebugValues
import Verif.Lemmas.DebugTells
import Verif.Lemmas.DebugFloat
import Verif.Props.DebugText
import Verif.Props.Debug
import Verif.Reasons
import Verif.Spec.Reasons
import Verif.Spec.Quote
import Verif.Lemmas.ReasonsInt
import Verif.Lemmas.ReasonsDate
import Verif.Lemmas.ReasonsRead
import Verif.Lemmas.ReasonsMore
import Verif.Props.Quote
import Verif.Props.Reasons
import Verif.Failure
import Verif.Spec.Failure
import Verif.Props.Failure
import Verif.Spec.Abnf
import Verif.Props.Abnf
import Verif.Spec.Fine
import Verif.Props.Fine
import Verif.Props.Earlier
import Verif.Spec.Kinds
import Verif.Props.Kinds
import Verif.Spec.Saves
import Verif.Spec.SavesValues
import Verif.Lemmas.Saves
import Verif.Props.Saves
import Verif.Props.SavesValues
import Verif.Spec.Zones
import Verif.Lemmas.Zones
import Verif.Props.Zones
import Verif.Cost
import Verif.Lemmas.Cost
import Verif.Props.Cost
import Verif.Props.Shape
import Verif.Spec.Torn
import Verif.Lemmas.Torn
import Verif.Lemmas.TornText
import Verif.Props.Torn
import Verif.Spec.Edit
import Verif.Lemmas.Edit
import Verif.Lemmas.EditUnknown
import Verif.Props.Edit
import Verif.Props.EditWritten
import Verif.Spec.Size
import Verif.Lemmas.Size
import Verif.Lemmas.SizeValues
import Verif.Lemmas.SizeParts
import Verif.Props.Size
import Verif.Conformance.Debug
import Verif.Conformance.Events
import Verif.Conformance.Calendars
import Verif.Conformance.Calendars2
import Verif.Conformance.Others
import Verif.Conformance.UnitTests
