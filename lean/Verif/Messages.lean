import Verif.Components

/-!
# Error messages (`src/errors.rs`)
-/

namespace Ikal

/-- The texts inside errors the model keeps no payload of: the message of chrono, of `ParseIntError` and of nom, the formatted messages of
`parse_duration` and of `Serialize`, and the `Debug` rendering of a date-time. -/
class Payloads where
  date : Str
  localTime : Str
  parseDuration : Str
  parseInt : Str
  parser : Str
  serialize : Str

/-- `Display for Error` as derived by thiserror (`src/errors.rs:3-31`). -/
def Error.message [Payloads] : Error → Str
  | .alarm s => c!"Invalid alarm action: " ++ s
  | .date => Payloads.date
  | .freq s => c!"Invalid freq " ++ s
  | .key s => c!"Unknow key " ++ s
  | .localTime => c!"Invalid date in local timezone: " ++ Payloads.localTime
  | .parseDuration => Payloads.parseDuration
  | .parseInt => Payloads.parseInt
  | .parser => Payloads.parser
  | .priority n => c!"Invalid priority: " ++ natStr n
  | .serialize => Payloads.serialize
  | .status s => c!"Unknow status " ++ s
  | .timeTransparency s => c!"Unknow time transparency " ++ s
  | .weekday s => c!"Invalid weekday " ++ s

end Ikal
