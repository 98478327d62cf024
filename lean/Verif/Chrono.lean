import Verif.Num

/-!
# The part of chrono 0.4 that ikal calls

chrono is not in `/repo`; the definitions cite the call sites in `/repo` and model chrono's
documented behaviour (`Cargo.toml:21-24`, chrono 0.4).  Simplifications are stated at each
definition.
-/

namespace Ikal

/-! ## Calendar dates -/

/-- `chrono::NaiveDate`: proleptic Gregorian year, month and day. -/
structure NaiveDate where
  year : Int
  month : Nat
  day : Nat
  deriving DecidableEq, Repr

/-- Leap years of the proleptic Gregorian calendar. -/
def isLeap (y : Int) : Bool := y % 4 = 0 && (y % 100 ≠ 0 || y % 400 = 0)

/-- Number of days of a month. -/
def daysInMonth (y : Int) : Nat → Nat
  | 1 => 31
  | 2 => if isLeap y then 29 else 28
  | 3 => 31
  | 4 => 30
  | 5 => 31
  | 6 => 30
  | 7 => 31
  | 8 => 31
  | 9 => 30
  | 10 => 31
  | 11 => 30
  | 12 => 31
  | _ => 0

/-- Year of `NaiveDate::MIN`. -/
def minYear : Int := -262143
/-- Year of `NaiveDate::MAX`. -/
def maxYear : Int := 262142

namespace NaiveDate

/-- The values a `NaiveDate` can take. -/
def Valid (d : NaiveDate) : Prop :=
  minYear ≤ d.year ∧ d.year ≤ maxYear ∧ 1 ≤ d.month ∧ d.month ≤ 12 ∧
  1 ≤ d.day ∧ d.day ≤ daysInMonth d.year d.month

instance (d : NaiveDate) : Decidable d.Valid := by unfold Valid; infer_instance

/-- `NaiveDate::from_ymd_opt`. -/
def fromYmdOpt (y : Int) (m d : Nat) : Option NaiveDate :=
  if Valid ⟨y, m, d⟩ then some ⟨y, m, d⟩ else none

/-- `NaiveDate::default()`, 1970-01-01. -/
def epoch : NaiveDate := ⟨1970, 1, 1⟩

/-- Lexicographic comparison of (year, month, day). -/
def cmp (a b : NaiveDate) : Ordering :=
  ((compare a.year b.year).then (compare a.month b.month)).then (compare a.day b.day)

/-- Days from 0000-01-01 to the first day of year `y`. -/
def daysBeforeYear (y : Int) : Int := 365 * y + (y + 3) / 4 - (y + 99) / 100 + (y + 399) / 400

/-- Days from the first day of the year to the first day of month `m`. -/
def daysBeforeMonth (y : Int) (m : Nat) : Nat :=
  let l := if isLeap y then 1 else 0
  match m with
  | 1 => 0
  | 2 => 31
  | 3 => 59 + l
  | 4 => 90 + l
  | 5 => 120 + l
  | 6 => 151 + l
  | 7 => 181 + l
  | 8 => 212 + l
  | 9 => 243 + l
  | 10 => 273 + l
  | 11 => 304 + l
  | 12 => 334 + l
  | _ => 365 + l

/-- Day number (0000-01-01 is 0). -/
def toDays (d : NaiveDate) : Int := daysBeforeYear d.year + daysBeforeMonth d.year d.month + d.day - 1

/-- The year containing day number `n`: within the 400-year cycle, estimate `n / 365` and step
back one year if that overshoots (chrono's `cycle_to_yo`). -/
def yearOfDays (n : Int) : Int :=
  let cyc := n / 146097
  let doc := n % 146097
  let y0 := doc / 365
  let y := if daysBeforeYear y0 ≤ doc then y0 else y0 - 1
  cyc * 400 + y

/-- The month containing the day of the year `o` (from 0). -/
def monthOfOrdinal (y : Int) (o : Nat) : Nat :=
  if o < daysBeforeMonth y 2 then 1
  else if o < daysBeforeMonth y 3 then 2
  else if o < daysBeforeMonth y 4 then 3
  else if o < daysBeforeMonth y 5 then 4
  else if o < daysBeforeMonth y 6 then 5
  else if o < daysBeforeMonth y 7 then 6
  else if o < daysBeforeMonth y 8 then 7
  else if o < daysBeforeMonth y 9 then 8
  else if o < daysBeforeMonth y 10 then 9
  else if o < daysBeforeMonth y 11 then 10
  else if o < daysBeforeMonth y 12 then 11
  else 12

/-- The date with day number `n`. -/
def ofDays (n : Int) : NaiveDate :=
  let y := yearOfDays n
  let o := (n - daysBeforeYear y).toNat
  let m := monthOfOrdinal y o
  ⟨y, m, o - daysBeforeMonth y m + 1⟩

/-- `NaiveDate::checked_add_signed` with a whole number of days: `None` outside the range of
years (`NaiveDate + TimeDelta` panics then). -/
def addDays (d : NaiveDate) (n : Int) : Option NaiveDate :=
  let r := ofDays (d.toDays + n)
  if minYear ≤ r.year ∧ r.year ≤ maxYear then some r else none

/-- `NaiveDate::checked_add_months`: same day `n` months later, clamped to the last day of the
month; `None` outside the range of years. -/
def addMonths (d : NaiveDate) (n : Nat) : Option NaiveDate :=
  if n = 0 then some d
  else
    let t : Int := d.year * 12 + ((d.month : Int) - 1) + n
    let y := t / 12
    let m := (t % 12).toNat + 1
    fromYmdOpt y m (min d.day (daysInMonth y m))

/-- `Datelike::with_year`: `None` if the resulting date does not exist. -/
def withYear (d : NaiveDate) (y : Int) : Option NaiveDate := fromYmdOpt y d.month d.day

end NaiveDate

/-! ## Durations -/

/-- `chrono::TimeDelta` (alias `Duration`), as its number of nanoseconds. -/
structure TimeDelta where
  nanos : Int
  deriving DecidableEq, Repr

namespace TimeDelta

/-- `TimeDelta::MAX` in nanoseconds: `i64::MAX` milliseconds; `MIN` is its opposite. -/
def maxNanos : Int := i64Max * 1000000

/-- Nanoseconds per second. -/
def nps : Int := 1000000000

/-- The values a `TimeDelta` can take. -/
def Valid (d : TimeDelta) : Prop := -maxNanos ≤ d.nanos ∧ d.nanos ≤ maxNanos

instance (d : TimeDelta) : Decidable d.Valid := by unfold Valid; infer_instance

/-- A value, or `None` when out of range. -/
def mk? (n : Int) : Option TimeDelta := if Valid ⟨n⟩ then some ⟨n⟩ else none

def zero : TimeDelta := ⟨0⟩

/-- `TimeDelta::try_seconds`; `TimeDelta::seconds` panics on `None`. -/
def seconds (n : Int) : Option TimeDelta := mk? (n * nps)
def minutes (n : Int) : Option TimeDelta := mk? (n * 60 * nps)
def hours (n : Int) : Option TimeDelta := mk? (n * 3600 * nps)
def days (n : Int) : Option TimeDelta := mk? (n * 86400 * nps)
def weeks (n : Int) : Option TimeDelta := mk? (n * 604800 * nps)

/-- `TimeDelta::checked_add`; `+` panics on `None`. -/
def add (a b : TimeDelta) : Option TimeDelta := mk? (a.nanos + b.nanos)

/-- `Neg`: the range is symmetric. -/
def neg (a : TimeDelta) : TimeDelta := ⟨-a.nanos⟩

def cmp (a b : TimeDelta) : Ordering := compare a.nanos b.nanos

/-- `num_seconds`: whole seconds, rounded towards zero. -/
def numSeconds (a : TimeDelta) : Int := a.nanos.tdiv nps

/-- `subsec_nanos`, with the sign of the duration. -/
def subsecNanos (a : TimeDelta) : Int := a.nanos.tmod nps

/-- The digits of a fraction of a second without trailing zeros (at most nine digits). -/
def fracDigits (n : Nat) : Str :=
  let ds := [digitChar (n / 100000000 % 10), digitChar (n / 10000000 % 10), digitChar (n / 1000000 % 10),
    digitChar (n / 100000 % 10), digitChar (n / 10000 % 10), digitChar (n / 1000 % 10),
    digitChar (n / 100 % 10), digitChar (n / 10 % 10), digitChar (n % 10)]
  (ds.reverse.dropWhile (· = '0')).reverse

/-- `Display for TimeDelta` (used by `ical_for_tostring!(chrono::TimeDelta)`, `src/ser.rs:43`):
sign, `P`, then `0D` for zero and otherwise `T<secs>[.<frac>]S`.  The expected strings of
`src/properties/trigger.rs:65` and `src/properties/period.rs:144` show this form. -/
def toStr (d : TimeDelta) : Str :=
  let a := d.nanos.natAbs
  let sign : Str := if d.nanos < 0 then ['-'] else []
  let secs := a / 1000000000
  let fr := a % 1000000000
  if a = 0 then c!"P0D"
  else sign ++ c!"PT" ++ natStr secs ++ (if fr = 0 then [] else '.' :: fracDigits fr) ++ ['S']

end TimeDelta

/-! ## Date-times without zone -/

/-- `chrono::NaiveDateTime`: date, second of the day and nanosecond; as in chrono the
nanosecond reaches 1999999999 in a leap second. -/
structure NaiveDateTime where
  date : NaiveDate
  secs : Nat
  frac : Nat
  deriving DecidableEq, Repr

namespace NaiveDateTime

/-- The values a `NaiveDateTime` can take. -/
def Valid (t : NaiveDateTime) : Prop := t.date.Valid ∧ t.secs < 86400 ∧ t.frac < 2000000000

instance (d : NaiveDateTime) : Decidable d.Valid := by unfold Valid; infer_instance

/-- `NaiveDateTime::default()`. -/
def epoch : NaiveDateTime := ⟨NaiveDate.epoch, 0, 0⟩

/-- `date.and_hms_opt(0, 0, 0).unwrap()`. -/
def midnight (d : NaiveDate) : NaiveDateTime := ⟨d, 0, 0⟩

/-- Derived comparison: date, then time of day. -/
def cmp (a b : NaiveDateTime) : Ordering :=
  ((NaiveDate.cmp a.date b.date).then (compare a.secs b.secs)).then (compare a.frac b.frac)

/-- `NaiveDateTime::MIN`. -/
def MIN : NaiveDateTime := ⟨⟨minYear, 1, 1⟩, 0, 0⟩

/-- `NaiveDateTime::MAX`: the last nanosecond that is not in a leap second. -/
def MAX : NaiveDateTime := ⟨⟨maxYear, 12, 31⟩, 86399, 999999999⟩

/-- Seconds since 0000-01-01T00:00:00. -/
def toSecs (t : NaiveDateTime) : Int := t.date.toDays * 86400 + t.secs

/-- Date and second of the day from a number of seconds, keeping the nanosecond. -/
def ofSecs (n : Int) (frac : Nat) : Option NaiveDateTime :=
  let d := NaiveDate.ofDays (n / 86400)
  if minYear ≤ d.year ∧ d.year ≤ maxYear then some ⟨d, (n % 86400).toNat, frac⟩ else none

/-- `NaiveDateTime::checked_add_signed` (with `NaiveTime::overflowing_add_signed` and its
treatment of leap seconds); `+` panics on `None`. -/
def add (t : NaiveDateTime) (d : TimeDelta) : Option NaiveDateTime :=
  let sa := d.numSeconds
  let fa := d.subsecNanos
  let secs : Int := t.secs
  let frac : Int := t.frac
  let go (secs frac : Int) : Option NaiveDateTime :=
    let s := secs + sa
    let f := frac + fa
    let (s, f) := if f < 0 then (s - 1, f + 1000000000)
      else if f ≥ 1000000000 then (s + 1, f - 1000000000) else (s, f)
    ofSecs (t.date.toDays * 86400 + s) f.toNat
  if frac ≥ 1000000000 then
    if sa > 0 ∨ (fa > 0 ∧ frac ≥ 2000000000 - fa) then go secs (frac - 1000000000)
    else if sa < 0 then go (secs + 1) (frac - 1000000000)
    else some ⟨t.date, t.secs, (frac + fa).toNat⟩
  else go secs frac

/-- `NaiveDateTime::checked_sub_signed`; `-` panics on `None`. -/
def sub (t : NaiveDateTime) (d : TimeDelta) : Option NaiveDateTime := t.add d.neg

/-- `NaiveDateTime::signed_duration_since` (always within the range of `TimeDelta`), with
chrono's correction for leap seconds. -/
def since (a b : NaiveDateTime) : TimeDelta :=
  let adj : Int := if a.secs > b.secs ∧ b.frac ≥ 1000000000 then 1
    else if a.secs < b.secs ∧ a.frac ≥ 1000000000 then -1 else 0
  ⟨((a.date.toDays - b.date.toDays) * 86400 + ((a.secs : Int) - b.secs + adj)) * 1000000000
    + ((a.frac : Int) - b.frac)⟩

/-- `NaiveDateTime::checked_add_months`. -/
def addMonths (t : NaiveDateTime) (n : Nat) : Option NaiveDateTime :=
  match t.date.addMonths n with
  | some d => some { t with date := d }
  | none => none

/-- `Datelike::with_year`. -/
def withYear (t : NaiveDateTime) (y : Int) : Option NaiveDateTime :=
  match t.date.withYear y with
  | some d => some { t with date := d }
  | none => none

end NaiveDateTime

/-! ## Formatting (`format("%Y%m%dT%H%M%S")`) -/

/-- `%Y`: four digits for years 0 to 9999, otherwise with a sign and at least four digits. -/
def yearStr (y : Int) : Str :=
  if 0 ≤ y ∧ y ≤ 9999 then pad4 y.toNat
  else
    let a := y.natAbs
    (if y < 0 then '-' else '+') :: (if a ≤ 9999 then pad4 a else natStr a)

/-- `format("%Y%m%d")`, `src/properties/date.rs:204`. -/
def NaiveDate.toStr (d : NaiveDate) : Str := yearStr d.year ++ pad2 d.month ++ pad2 d.day

/-- `format("%H%M%S")`; a leap second prints as 60. -/
def timeStr (secs frac : Nat) : Str :=
  pad2 (secs / 3600) ++ pad2 (secs / 60 % 60) ++ pad2 (secs % 60 + frac / 1000000000)

/-- `format("%Y%m%dT%H%M%S")`, `src/properties/date.rs:104`.  Nanoseconds are not printed. -/
def NaiveDateTime.toStr (t : NaiveDateTime) : Str := t.date.toStr ++ 'T' :: timeStr t.secs t.frac

/-! ## Parsing (`parse_from_str`) -/

/-- `str::trim_start`, applied by chrono before every numeric item. -/
def trimStart (s : Str) : Str := s.dropWhile isWhitespace

/-- chrono's `scan::number(s, 1, max)`: one to `max` digits, within `i64`. -/
def scanNumber (max : Nat) (s : Str) : Option (Nat × Str) :=
  let ds := (s.take max).takeWhile Char.isDigit
  if ds.isEmpty then none
  else if (digitsVal ds : Int) ≤ i64Max then some (digitsVal ds, s.drop ds.length) else none

/-- `%Y`: an explicit sign allows any number of digits, otherwise at most four; the value must
fit `i32`. -/
def scanYear (s : Str) : Option (Int × Str) :=
  let check (r : Option (Int × Str)) : Option (Int × Str) :=
    match r with
    | some (y, r) => if -2147483648 ≤ y ∧ y ≤ 2147483647 then some (y, r) else none
    | none => none
  match trimStart s with
  | '-' :: r => check ((scanNumber r.length r).map fun (n, r) => (-(n : Int), r))
  | '+' :: r => check ((scanNumber r.length r).map fun (n, r) => ((n : Int), r))
  | r => check ((scanNumber 4 r).map fun (n, r) => ((n : Int), r))

/-- `%m`, `%d`, `%H`, `%M`, `%S`: at most two digits, in the range `lo..=hi`. -/
def scan2 (lo hi : Nat) (s : Str) : Option (Nat × Str) :=
  match scanNumber 2 (trimStart s) with
  | some (n, r) => if lo ≤ n ∧ n ≤ hi then some (n, r) else none
  | none => none

/-- The items `%Y%m%d`. -/
def scanYmd (s : Str) : Option ((Int × Nat × Nat) × Str) :=
  match scanYear s with
  | some (y, s) => (match scan2 1 12 s with
    | some (m, s) => (match scan2 1 31 s with
      | some (d, s) => some ((y, m, d), s)
      | none => none)
    | none => none)
  | none => none

/-- The items `%H%M%S`, as second of the day and nanosecond; second 60 is a leap second. -/
def scanHms (s : Str) : Option ((Nat × Nat) × Str) :=
  match scan2 0 23 s with
  | some (h, s) => (match scan2 0 59 s with
    | some (m, s) => (match scan2 0 60 s with
      | some (x, s) =>
        if x = 60 then some ((h * 3600 + m * 60 + 59, 1000000000), s)
        else some ((h * 3600 + m * 60 + x, 0), s)
      | none => none)
    | none => none)
  | none => none

/-- `NaiveDate::parse_from_str(s, "%Y%m%d")`, `src/parser/datatype.rs:22`,
`src/properties/date.rs:193`. -/
def parseNaiveDate (s : Str) : Option NaiveDate :=
  match scanYmd s with
  | some ((y, m, d), []) => NaiveDate.fromYmdOpt y m d
  | _ => none

/-- `NaiveDateTime::parse_from_str(s, "%Y%m%dT%H%M%S" ++ suffix)` with a literal suffix,
`src/parser/datatype.rs:39`, `src/properties/date.rs:114,117`. -/
def parseNaiveDateTime (suffix : Str) (s : Str) : Option NaiveDateTime :=
  match scanYmd s with
  | some ((y, m, d), 'T' :: s) => (match scanHms s with
    | some ((secs, frac), s) =>
      if s = suffix then
        (match NaiveDate.fromYmdOpt y m d with
        | some date => some ⟨date, secs, frac⟩
        | none => none)
      else none
    | none => none)
  | _ => none

/-! ## Fixed offsets -/

/-- `chrono::FixedOffset`: seconds east of UTC. -/
structure FixedOffset where
  secs : Int
  deriving DecidableEq, Repr

namespace FixedOffset

/-- `FixedOffset::east_opt`: strictly within one day. -/
def eastOpt (n : Int) : Option FixedOffset := if -86400 < n ∧ n < 86400 then some ⟨n⟩ else none

def Valid (o : FixedOffset) : Prop := -86400 < o.secs ∧ o.secs < 86400

instance (o : FixedOffset) : Decidable o.Valid := by unfold Valid; infer_instance

/-- Two ASCII digits at the head. -/
def twoDigits (s : Str) : Option (Nat × Nat × Str) :=
  match s with
  | a :: b :: r => if a.isDigit && b.isDigit then some (digitVal a, digitVal b, r) else none
  | _ => none

/-- `FixedOffset::from_str` (`src/parser/timezone.rs:25,31`): sign (`+`, `-` or U+2212), two digits
of hours, colons and blanks, two digits of minutes below 60; **what follows is ignored** (the
expected output of `tests/timezones/issue_55_*.out` shows `-075258` read as `-07:52`). -/
def parse (s : Str) : Option FixedOffset :=
  let sign : Option (Bool × Str) := match s with
    | '+' :: r => some (false, r)
    | '-' :: r => some (true, r)
    | '\u2212' :: r => some (true, r)
    | _ => none
  match sign with
  | none => none
  | some (neg, r) =>
    match twoDigits r with
    | none => none
    | some (h1, h2, r) =>
      match twoDigits (r.dropWhile fun c => c = ':' || isWhitespace c) with
      | none => none
      | some (m1, m2, _) =>
        if m1 ≤ 5 then
          let secs : Int := ((h1 * 10 + h2) * 3600 + (m1 * 10 + m2) * 60 : Nat)
          eastOpt (if neg then -secs else secs)
        else none

end FixedOffset

/-! ## The platform: local time zone, floats, upper case

What the code reads from its environment is a parameter of the model. -/

/-- `chrono::MappedLocalTime<FixedOffset>`. -/
inductive LocalResult where
  | none
  | single (off : Int)
  | ambiguous (earliest latest : Int)
  deriving DecidableEq, Repr

/-- The environment: 32-bit floats (abstract, with nom's `float` parser and Rust's formatting),
the local time zone as seen by `chrono::Local`, upper-casing of non-ASCII characters, and whether
integer overflow panics (debug) or wraps (release). -/
class Platform where
  F32 : Type
  f32Default : F32
  /-- `nom::number::complete::float`, `src/parser/descriptive.rs:47`, `src/parser/misc.rs:14`. -/
  floatParse : Str → Option (F32 × Str)
  /-- `Display` (`{}`), `src/properties/geo.rs:36`. -/
  floatShow : F32 → Str
  /-- `{:.1}`, `src/properties/request_status.rs:35`. -/
  floatShow1 : F32 → Str
  /-- Offset of the local zone at a UTC time (seconds since 0000-01-01T00:00:00Z). -/
  tzOffset : Int → Int
  /-- Offsets at which the local zone shows a wall-clock time (same unit). -/
  tzLocal : Int → LocalResult
  /-- `char::to_uppercase` outside ASCII. -/
  upperNonAscii : Char → Str
  /-- `-C overflow-checks`. -/
  overflowChecks : Bool

/-- `char::to_uppercase`. -/
def upperChar [Platform] (c : Char) : Str :=
  if c.toNat < 128 then [c.toUpper] else Platform.upperNonAscii c

/-- `str::to_uppercase`, `src/properties/class.rs:50`. -/
def upperStr [Platform] (s : Str) : Str := s.flatMap upperChar

/-- Add an offset to a zone-less date-time without a range check on the year (`NaiveDateTime::overflowing_add_offset`): the nanosecond
is kept. -/
def NaiveDateTime.shift (t : NaiveDateTime) (off : Int) : NaiveDateTime :=
  let n := t.toSecs + off
  ⟨NaiveDate.ofDays (n / 86400), (n % 86400).toNat, t.frac⟩

/-- The year is one that chrono can represent. -/
def NaiveDate.representable (d : NaiveDate) : Bool := minYear ≤ d.year ∧ d.year ≤ maxYear

end Ikal
