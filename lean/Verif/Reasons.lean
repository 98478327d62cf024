import Verif.Debug
import Verif.Messages

/-!
# Errors with their payloads (`src/errors.rs`)

`Error` (in `Verif/Basic.lean`) forgets what chrono, the standard library and `parse_duration` say.  Here the readers whose errors reach the
user are modelled once more with these payloads: `FromStr` of date-times, dates, triggers, offsets and integers, `parse_duration`, and the
conversion of a date-time to local time.
-/

namespace Ikal

/-! ## What chrono and the standard library say -/

/-- `std::num::IntErrorKind`, as far as `from_str` returns it. -/
inductive IntReason where
  | empty | invalidDigit | posOverflow | negOverflow
  deriving DecidableEq, Repr

/-- `Display for ParseIntError`. -/
def IntReason.text : IntReason → Str
  | .empty => c!"cannot parse integer from empty string"
  | .invalidDigit => c!"invalid digit found in string"
  | .posOverflow => c!"number too large to fit in target type"
  | .negOverflow => c!"number too small to fit in target type"

/-- `chrono::format::ParseErrorKind`, as far as the formats of the crate return it. -/
inductive DateReason where
  | outOfRange | invalid | tooShort | tooLong
  deriving DecidableEq, Repr

/-- `Display for chrono::ParseError`. -/
def DateReason.text : DateReason → Str
  | .outOfRange => c!"input is out of range"
  | .invalid => c!"input contains invalid characters"
  | .tooShort => c!"premature end of input"
  | .tooLong => c!"trailing input"

/-- The errors with a payload that `Error` forgets (`src/errors.rs:7-17`), without that of nom (`Verif/Trace.lean`). -/
inductive Reason where
  | date (r : DateReason)
  | localTime (t : DateTime)
  | parseDuration (s : Str)
  | parseInt (r : IntReason)
  deriving DecidableEq, Repr

/-- The result of a reader, with the payload of the error. -/
inductive Told (α : Type) where
  | ok (a : α)
  | err (r : Reason)
  | panic
  deriving Repr

/-- The error without its payload. -/
def Reason.forget : Reason → Error
  | .date _ => .date
  | .localTime _ => .localTime
  | .parseDuration _ => .parseDuration
  | .parseInt _ => .parseInt

namespace Told

/-- The result without the payload. -/
def forget {α : Type} : Told α → Res α
  | ok a => .ok a
  | err r => .err r.forget
  | panic => .panic

def bind {α β : Type} (x : Told α) (f : α → Told β) : Told β :=
  match x with
  | ok a => f a
  | err r => err r
  | panic => panic

instance : Monad Told where
  pure := ok
  bind := bind

def map {α β : Type} (f : α → β) : Told α → Told β
  | ok a => ok (f a)
  | err r => err r
  | panic => panic

/-- `Option::unwrap`. -/
def unwrap {α : Type} : Option α → Told α
  | some a => ok a
  | none => panic

/-- `?` after `str::parse` of an integer: `From<ParseIntError> for Error` (`src/errors.rs:16-17`). -/
def int {α : Type} : Except IntReason α → Told α
  | .ok a => ok a
  | .error r => err (.parseInt r)

/-- `?` after a reader of chrono: `From<chrono::ParseError> for Error` (`src/errors.rs:7-8`). -/
def chrono {α : Type} : Except DateReason α → Told α
  | .ok a => ok a
  | .error r => err (.date r)

end Told

/-! ## Integers -/

/-- The checked loop of `from_str_radix(10)`: a character that is no digit is reported before an overflow at the same place, an overflow before
any later character.  (For short texts the standard library uses a loop without checks; it gives the same results, as these cannot overflow.) -/
def intLoop (neg : Bool) (lo hi : Int) : Int → Str → Except IntReason Int
  | v, [] => .ok v
  | v, c :: cs =>
    if c.isDigit then
      let v10 := v * 10
      let v' := if neg then v10 - digitVal c else v10 + digitVal c
      if lo ≤ v10 ∧ v10 ≤ hi ∧ lo ≤ v' ∧ v' ≤ hi then intLoop neg lo hi v' cs
      else .error (if neg then .negOverflow else .posOverflow)
    else .error .invalidDigit

/-- `from_str_radix(10)` of an integer type with the range `lo..=hi` (`src/lib.rs:160-165`, `src/parser/change.rs:36`,
`src/parser/descriptive.rs:69,76`): a sign alone is an invalid digit, and so is a `-` if the type is unsigned. -/
def readInt (signed : Bool) (lo hi : Int) (s : Str) : Except IntReason Int :=
  match s with
  | [] => .error .empty
  | c :: r =>
    if r.isEmpty ∧ (c = '+' ∨ c = '-') then .error .invalidDigit
    else if c = '+' then intLoop false lo hi 0 r
    else if c = '-' ∧ signed then intLoop true lo hi 0 r
    else intLoop false lo hi 0 s

/-- `str::parse::<u8>`. -/
def readU8 (s : Str) : Except IntReason Int := readInt false 0 u8Max s
/-- `str::parse::<u32>`. -/
def readU32 (s : Str) : Except IntReason Int := readInt false 0 u32Max s
/-- `str::parse::<i8>`. -/
def readI8 (s : Str) : Except IntReason Int := readInt true (-128) 127 s
/-- `str::parse::<i64>`. -/
def readI64 (s : Str) : Except IntReason Int := readInt true (-i64Max - 1) i64Max s

/-! ## Dates -/

/-- The loop of chrono's `scan::number`: at most `max` digits, at least one (`first`). -/
def numberLoop : Nat → Bool → Nat → Str → Except DateReason (Nat × Str)
  | 0, _, n, s => .ok (n, s)
  | _ + 1, _, n, [] => .ok (n, [])
  | m + 1, first, n, c :: s =>
    if c.isDigit then
      if ((n * 10 + digitVal c : Nat) : Int) ≤ i64Max then numberLoop m false (n * 10 + digitVal c) s else .error .outOfRange
    else if first then .error .invalid
    else .ok (n, c :: s)

/-- chrono's `scan::number(s, 1, max)`. -/
def number (max : Nat) (s : Str) : Except DateReason (Nat × Str) := if s.isEmpty then .error .tooShort else numberLoop max true 0 s

/-- The numeric fields of the formats of the crate. -/
inductive DateField where
  | year | month | day | hour | minute | second
  deriving DecidableEq, Repr

/-- The items of a format. -/
inductive ScanItem where
  | field (f : DateField)
  | literal (c : Char)
  deriving DecidableEq, Repr

/-- chrono's `Parsed`, as far as it is used. -/
structure Parsed where
  year : Int := 0
  month : Int := 0
  day : Int := 0
  hour : Int := 0
  minute : Int := 0
  second : Int := 0

/-- `Parsed::set_year` and its siblings: the range is checked. -/
def Parsed.set (p : Parsed) (f : DateField) (v : Int) : Except DateReason Parsed :=
  let check (lo hi : Int) (q : Parsed) : Except DateReason Parsed := if lo ≤ v ∧ v ≤ hi then .ok q else .error .outOfRange
  match f with
  | .year => check (-2147483648) 2147483647 { p with year := v }
  | .month => check 1 12 { p with month := v }
  | .day => check 1 31 { p with day := v }
  | .hour => check 0 23 { p with hour := v }
  | .minute => check 0 59 { p with minute := v }
  | .second => check 0 60 { p with second := v }

/-- The number of a field: blanks are skipped; only a year may have a sign, and then any number of digits. -/
def fieldNumber (f : DateField) (s : Str) : Except DateReason (Int × Str) :=
  let plain (max : Nat) (s : Str) : Except DateReason (Int × Str) := (number max s).map fun (n, r) => ((n : Int), r)
  match f with
  | .year => (match trimStart s with
    | '-' :: r => (number r.length r).map fun (n, r) => (-(n : Int), r)
    | '+' :: r => plain r.length r
    | r => plain 4 r)
  | _ => plain 2 (trimStart s)

/-- One round of the loop of `chrono::format::parse`. -/
def scanItem (i : ScanItem) (p : Parsed) (s : Str) : Except DateReason (Parsed × Str) :=
  match i with
  | .field f => do
    let (v, r) ← fieldNumber f s
    let p ← p.set f v
    pure (p, r)
  | .literal c => (match s with
    | [] => .error .tooShort
    | d :: r => if d = c then .ok (p, r) else .error .invalid)

/-- `chrono::format::parse`: all items, and nothing may be left. -/
def scanItems : List ScanItem → Parsed → Str → Except DateReason Parsed
  | [], p, s => if s.isEmpty then .ok p else .error .tooLong
  | i :: is, p, s => do
    let (p, r) ← scanItem i p s
    scanItems is p r

/-- The items of `%Y%m%d`. -/
def dateItems : List ScanItem := [.field .year, .field .month, .field .day]

/-- The items of `%Y%m%dT%H%M%S`. -/
def dateTimeItems : List ScanItem := dateItems ++ [.literal 'T', .field .hour, .field .minute, .field .second]

/-- `Parsed::to_naive_date`, with year, month and day: a date that does not exist is out of range. -/
def Parsed.toDate (p : Parsed) : Except DateReason NaiveDate :=
  match NaiveDate.fromYmdOpt p.year p.month.toNat p.day.toNat with
  | some d => .ok d
  | none => .error .outOfRange

/-- `NaiveDateTime::parse_from_str` with the format `%Y%m%dT%H%M%S` and a suffix (`src/properties/date.rs:114,117`). -/
def readNaiveDateTime (suffix : Str) (s : Str) : Except DateReason NaiveDateTime := do
  let p ← scanItems (dateTimeItems ++ suffix.map .literal) {} s
  let d ← p.toDate
  let t := p.hour.toNat * 3600 + p.minute.toNat * 60
  pure (if p.second = 60 then ⟨d, t + 59, 1000000000⟩ else ⟨d, t + p.second.toNat, 0⟩)

/-- `NaiveDate::parse_from_str(s, "%Y%m%d")` (`src/properties/date.rs:193`). -/
def readNaiveDate (s : Str) : Except DateReason NaiveDate := do (← scanItems dateItems {} s).toDate

/-- chrono's `digits` in `scan::timezone_offset`: two bytes, then whether they are digits. -/
def twoDigitsOf (s : Str) : Except DateReason (Nat × Nat × Str) :=
  if byteLen s < 2 then .error .tooShort
  else match s with
    | a :: b :: r => if a.isDigit && b.isDigit then .ok (digitVal a, digitVal b, r) else .error .invalid
    | _ => .error .invalid

/-- The sign of an offset, in chrono's `scan::timezone_offset`. -/
def offsetSign (s : Str) : Except DateReason (Bool × Str) :=
  match s with
  | [] => .error .tooShort
  | '+' :: r => .ok (false, r)
  | '-' :: r => .ok (true, r)
  | '\u2212' :: r => .ok (true, r)
  | _ => .error .invalid

/-- `FixedOffset::from_str` (`src/parser/timezone.rs:25,32`; in a macro). -/
def readOffset (s : Str) : Except DateReason FixedOffset := do
  let (neg, r) ← offsetSign s
  let (h1, h2, r) ← twoDigitsOf r
  let (m1, m2, _) ← twoDigitsOf (r.dropWhile fun c => c = ':' || isWhitespace c)
  if m1 ≤ 5 then
    let secs : Int := ((h1 * 10 + h2) * 3600 + (m1 * 10 + m2) * 60 : Nat)
    match FixedOffset.eastOpt (if neg then -secs else secs) with
    | some o => .ok o
    | none => .error .outOfRange
  else .error .outOfRange

section
variable [Platform]

/-- `FromStr for DateTime` (`src/properties/date.rs:110-124`): the error is that of the format with a `Z`. -/
def DateTime.tell (s : Str) : Told DateTime :=
  match readNaiveDateTime [] s with
  | .ok t => .ok (.naive t)
  | .error _ => do
    let t ← Told.chrono (readNaiveDateTime ['Z'] s)
    (Told.unwrap (localSingle t)).map .loc

/-- `FromStr for Date` (`src/properties/date.rs:189-199`). -/
def Date.tell (s : Str) : Told Date :=
  match readNaiveDate s with
  | .ok d => .ok (.date d)
  | .error _ => (DateTime.tell s).map .dateTime

/-- `TryFrom<DateTime> for chrono::DateTime<Local>` (`src/properties/date.rs:71-83`). -/
def DateTime.tellLocal (t : DateTime) : Told NaiveDateTime :=
  match t with
  | .naive x => (match localEarliest x with
    | some u => .ok u
    | none => .err (.localTime t))
  | .loc u => .ok u

/-! ## Durations -/

/-- `k * interval.parse::<i64>()?`, as `mulI64`. -/
def tellMul (k n : Int) : Told Int :=
  match mulI64 k n with
  | .ok v => .ok v
  | _ => .panic

/-- One unit of `parse_duration` (`src/lib.rs:159-171`). -/
def tellUnit (time : Bool) (ty : Char) (interval : Str) : Told TimeDelta :=
  let n : Told Int := Told.int (readI64 interval)
  if time = false ∧ ty = 'Y' then do Told.unwrap (TimeDelta.days (← tellMul 365 (← n)))
  else if time = false ∧ ty = 'M' then do Told.unwrap (TimeDelta.days (← tellMul 30 (← n)))
  else if time = false ∧ ty = 'D' then do Told.unwrap (TimeDelta.days (← n))
  else if time = true ∧ ty = 'H' then do Told.unwrap (TimeDelta.hours (← n))
  else if time = true ∧ ty = 'M' then do Told.unwrap (TimeDelta.minutes (← n))
  else if time = true ∧ ty = 'S' then do Told.unwrap (TimeDelta.seconds (← n))
  else .err (.parseDuration (c!"Invalid duration: " ++ interval))

/-- The loop of `parse_duration` (`src/lib.rs:144-174`). -/
def tellLoop (time : Bool) (interval : Str) (acc : TimeDelta) : Str → Told TimeDelta
  | [] => .ok acc
  | c :: r =>
    if c = 'T' then tellLoop true interval acc r
    else if c.isDigit then tellLoop time (interval ++ [c]) acc r
    else do
      let part ← tellUnit time c interval
      let acc ← Told.unwrap (acc.add part)
      tellLoop time interval acc r

/-- `parse_duration` (`src/lib.rs:126-181`). -/
def tellDuration (s : Str) : Told TimeDelta :=
  let (neg, r) := match s with
    | '-' :: r => (true, r)
    | _ => (false, s)
  match r with
  | 'P' :: r => (tellLoop false [] TimeDelta.zero r).map fun d => if neg then d.neg else d
  | _ => .err (.parseDuration (c!"Invalid duration: " ++ s))

/-- `FromStr for Trigger` (`src/properties/trigger.rs:24-34`). -/
def Trigger.tell (s : Str) : Told Trigger :=
  match DateTime.tell s with
  | .ok t => .ok (.dateTime t)
  | .err _ => (tellDuration s).map .duration
  | .panic => .panic

/-! ## Messages -/

/-- `Display for Error` as derived by thiserror (`src/errors.rs:3-31`). -/
def Reason.message [DebugChars] : Reason → Str
  | .date r => r.text
  | .localTime t => c!"Invalid date in local timezone: " ++ debugText t
  | .parseDuration s => s
  | .parseInt r => r.text

/-- The message of the error, if there is one. -/
def Told.said [DebugChars] {α : Type} : Told α → Option Str
  | .err r => some r.message
  | _ => none

end

end Ikal
