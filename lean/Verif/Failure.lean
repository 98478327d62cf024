import Verif.Reasons

/-!
# The error type as a value (`src/errors.rs:3-37`)

`Error` with all its payloads: its equality (derived, `src/errors.rs:3`), its `Debug` (derived), its `Display` and its `source` (both derived by thiserror), and
how the errors of nom, of chrono and of the standard library become errors of the crate.
-/

namespace Ikal

/-- `Error` (`src/errors.rs:4-31`), with all payloads.  The derived equality compares the variants and the payloads, as `DecidableEq` does here; that of
`chrono::DateTime` inside `Local` compares instants, which are what `DateTime.loc` keeps. -/
inductive CrateError where
  | alarm (s : Str)
  | date (r : DateReason)
  | freq (s : Str)
  | key (s : Str)
  | localTime (t : DateTime)
  | parseDuration (s : Str)
  | parseInt (r : IntReason)
  | parser (s : Str)
  | priority (n : Nat)
  | serialize (s : Str)
  | status (s : Str)
  | timeTransparency (s : Str)
  | weekday (s : Str)
  deriving DecidableEq, Repr

/-- The error without the payloads that are only text for humans: the error of the main model (`Verif/Basic.lean`). -/
def CrateError.forget : CrateError → Error
  | .alarm s => .alarm s
  | .date _ => .date
  | .freq s => .freq s
  | .key s => .key s
  | .localTime _ => .localTime
  | .parseDuration _ => .parseDuration
  | .parseInt _ => .parseInt
  | .parser _ => .parser
  | .priority n => .priority n
  | .serialize _ => .serialize
  | .status s => .status s
  | .timeTransparency s => .timeTransparency s
  | .weekday s => .weekday s

/-- `derive(Debug)` of `chrono::ParseErrorKind`. -/
instance : Dbg DateReason := ⟨fun
  | .outOfRange => .word c!"OutOfRange"
  | .invalid => .word c!"Invalid"
  | .tooShort => .word c!"TooShort"
  | .tooLong => .word c!"TooLong"⟩

/-- `derive(Debug)` of `std::num::IntErrorKind`. -/
instance : Dbg IntReason := ⟨fun
  | .empty => .word c!"Empty"
  | .invalidDigit => .word c!"InvalidDigit"
  | .posOverflow => .word c!"PosOverflow"
  | .negOverflow => .word c!"NegOverflow"⟩

section
variable [Platform]

/-- `derive(Debug)` (`src/errors.rs:3`).  `chrono::ParseError` is a tuple struct, `ParseIntError` a struct with the field `kind`. -/
instance : Dbg CrateError := ⟨fun
  | .alarm s => .tuple c!"Alarm" [dbg s]
  | .date r => .tuple c!"Date" [.tuple c!"ParseError" [dbg r]]
  | .freq s => .tuple c!"Freq" [dbg s]
  | .key s => .tuple c!"Key" [dbg s]
  | .localTime t => .tuple c!"Local" [dbg t]
  | .parseDuration s => .tuple c!"ParseDuration" [dbg s]
  | .parseInt r => .tuple c!"ParseIntError" [.struct c!"ParseIntError" [(c!"kind", dbg r)]]
  | .parser s => .tuple c!"Parser" [dbg s]
  | .priority n => .tuple c!"Priority" [dbg n]
  | .serialize s => .tuple c!"Serialize" [dbg s]
  | .status s => .tuple c!"Status" [dbg s]
  | .timeTransparency s => .tuple c!"TimeTransparency" [dbg s]
  | .weekday s => .tuple c!"Weekday" [dbg s]⟩

variable [DebugChars]

/-- `Display for Error`, derived by thiserror (`src/errors.rs:5-30`). -/
def CrateError.message : CrateError → Str
  | .alarm s => c!"Invalid alarm action: " ++ s
  | .date r => r.text
  | .freq s => c!"Invalid freq " ++ s
  | .key s => c!"Unknow key " ++ s
  | .localTime t => c!"Invalid date in local timezone: " ++ debugText t
  | .parseDuration s => s
  | .parseInt r => r.text
  | .parser s => s
  | .priority n => c!"Invalid priority: " ++ natStr n
  | .serialize s => s
  | .status s => c!"Unknow status " ++ s
  | .timeTransparency s => c!"Unknow time transparency " ++ s
  | .weekday s => c!"Invalid weekday " ++ s

/-- `Error::source`, derived by thiserror (`src/errors.rs:8,17`): the variants with `#[from]` have one.  Its `Display`. -/
def CrateError.source : CrateError → Option Str
  | .date r => some r.text
  | .parseInt r => some r.text
  | _ => none

/-- `From<ParseIntError>`, `From<chrono::ParseError>` (`src/errors.rs:8,17`), `Error::Local` (`src/properties/date.rs:79`), `Error::ParseDuration` (`src/lib.rs:139,167`). -/
def Reason.failure : Reason → CrateError
  | .date r => .date r
  | .localTime t => .localTime t
  | .parseDuration s => .parseDuration s
  | .parseInt r => .parseInt r

/-- `From<nom::Err<VerboseError<I>>>` (`src/errors.rs:33-37`). -/
def Trace.failure (t : Trace) : CrateError := .parser t.message

/-- The error of a result, if there is one: of the readers with payloads of `Verif/Reasons.lean`, -/
def Told.failure {α : Type} : Told α → Option CrateError
  | .err r => some r.failure
  | _ => none

/-- and of the parsers of `Verif/Trace.lean`. -/
def TRes.failure {α : Type u} : TRes α → Option CrateError
  | .err t => some t.failure
  | _ => none

end

end Ikal
