import Verif.Values
import Verif.Spec.Num
import Verif.Spec.DateText
import Verif.Spec.Duration
import Verif.Spec.Names

/-! # Specification: the grammars of structured values -/

namespace Ikal.Spec

/-! ## Dates, as they are accepted: with blanks, missing leading zeros and signed years -/

/-- The text begins with blanks and a number of at most `max` digits; the rest is `r`, and does not go on with a digit unless
there are `max` digits already. -/
def NumberThen (max : Nat) (s : Str) (n : Nat) (r : Str) : Prop :=
  ∃ ws ds, s = ws ++ (ds ++ r) ∧ (∀ c ∈ ws, isWhitespace c = true) ∧ Digits ds ∧ ds.length ≤ max ∧ decimal ds = n ∧
    (ds.length < max → ∀ c, r.head? = some c → ¬ ('0' ≤ c ∧ c ≤ '9'))

/-- A year: at most four digits, or a sign and any number of digits. -/
def YearThen (s : Str) (y : Int) (r : Str) : Prop :=
  (∃ n : Nat, NumberThen 4 s n r ∧ y = n) ∨
  ∃ ws sign ds, s = ws ++ sign :: (ds ++ r) ∧ (∀ c ∈ ws, isWhitespace c = true) ∧ Digits ds ∧
    (∀ c, r.head? = some c → ¬ ('0' ≤ c ∧ c ≤ '9')) ∧ (sign = '+' ∧ y = decimal ds ∨ sign = '-' ∧ y = -(decimal ds : Int))

/-- Year, month and day of a date that exists and is in range. -/
def DateThen (s : Str) (d : NaiveDate) (r : Str) : Prop :=
  RealDate d ∧ InRange d ∧ ∃ a b, YearThen s d.year a ∧ NumberThen 2 a d.month b ∧ NumberThen 2 b d.day r

/-- A date, `T`, hour, minute and second; second 60 is a leap second. -/
def DateTimeThen (s : Str) (t : NaiveDateTime) (r : Str) : Prop :=
  ∃ a b c h m x, DateThen s t.date ('T' :: a) ∧ NumberThen 2 a h b ∧ NumberThen 2 b m c ∧ NumberThen 2 c x r ∧ h < 24 ∧ m < 60 ∧
    (x < 60 ∧ t.secs = h * 3600 + m * 60 + x ∧ t.frac = 0 ∨ x = 60 ∧ t.secs = h * 3600 + m * 60 + 59 ∧ t.frac = 1000000000)

/-- An offset: a sign (one of three), two digits, colons and blanks, two digits, and anything. -/
def OffsetText (s : Str) (o : FixedOffset) : Prop :=
  ∃ sign hh ws mm r, s = sign :: (hh ++ (ws ++ (mm ++ r))) ∧ Digits hh ∧ hh.length = 2 ∧ Digits mm ∧ mm.length = 2 ∧
    (∀ c ∈ ws, c = ':' ∨ isWhitespace c = true) ∧ decimal hh < 24 ∧ decimal mm < 60 ∧
    (sign = '+' ∧ o.secs = (decimal hh * 3600 + decimal mm * 60 : Nat) ∨
     (sign = '-' ∨ sign = '\u2212') ∧ o.secs = -((decimal hh * 3600 + decimal mm * 60 : Nat) : Int))

/-! ## Durations -/

/-- The text does not begin with a number and the unit `u`. -/
def NoUnit (u : Char) (s : Str) : Prop := ∀ ds q, Digits ds → decimal ds ≤ 9223372036854775807 → s ≠ ds ++ u :: q

/-- The rest `r` after a written duration could not have been read as one of its missing parts. -/
def DurationFields.Longest (f : DurationFields) (r : Str) : Prop :=
  match f.time with
  | none => (f.weeks = none → NoUnit 'W' (unitText f.days 'D' ++ r)) ∧ (f.days = none → NoUnit 'D' r) ∧ r.head? ≠ some 'T'
  | some (h, m, s) =>
    (f.weeks = none → NoUnit 'W' (unitText f.days 'D' ++ 'T' :: (unitText h 'H' ++ unitText m 'M' ++ unitText s 'S' ++ r))) ∧
    (h = none → NoUnit 'H' (unitText m 'M' ++ unitText s 'S' ++ r)) ∧ (m = none → NoUnit 'M' (unitText s 'S' ++ r)) ∧
    (s = none → NoUnit 'S' r)

/-- A day of the week, after a number from -128 to 127 if there is one; anything may follow. -/
def WeekdayNumText (s : Str) (w : WeekdayNum) : Prop :=
  match w.ord with
  | none => ∃ r, s = weekdayName w.weekday ++ r
  | some n => ∃ t r, IsSigned t n ∧ -128 ≤ n ∧ n ≤ 127 ∧ s = t ++ weekdayName w.weekday ++ r

section
variable [Platform]

/-- A text that is a date-time and nothing else; with one `Z` or several at the end it is UTC. -/
def DateTimeValue (s : Str) : DateTime → Prop
  | .naive t => DateTimeThen s t []
  | .loc t => ∃ z n, s = z ++ List.replicate (n + 1) 'Z' ∧ DateTimeThen z t []

/-- A text that is a date or a date-time and nothing else. -/
def DateValue (s : Str) : Date → Prop
  | .date d => DateThen s d []
  | .dateTime t => DateTimeValue s t

/-- A text that begins with a duration; as much as possible is read, and the duration must fit. -/
def DurationValue (s : Str) (d : TimeDelta) : Prop :=
  ∃ f r, DurationFields.Ok f ∧ s = f.text ++ r ∧ f.Longest r ∧ f.seconds ≤ 9223372036854775 ∧ d.nanos = f.nanos

/-- A period: a date-time, a slash, and the end or, if it begins with `P`, the duration. -/
def PeriodText (s : Str) : Period → Prop
  | .startEnd a e => ∃ x y, s = x ++ '/' :: y ∧ '/' ∉ x ∧ y.head? ≠ some 'P' ∧ DateTimeValue x a ∧ DateTimeValue y e
  | .startDur a d => ∃ x y, s = x ++ '/' :: y ∧ '/' ∉ x ∧ y.head? = some 'P' ∧ DateTimeValue x a ∧ DurationValue y d

/-- A position: two numbers separated by a semicolon. -/
def GeoText (s : Str) (g : Geo) : Prop :=
  ∃ r rest, Platform.floatParse s = some (g.lat, ';' :: r) ∧ Platform.floatParse r = some (g.lon, rest)

/-- A request status: a number, a description and, after one more semicolon, data that may contain semicolons. -/
def RequestStatusText (s : Str) (r : RequestStatus) : Prop :=
  ';' ∉ r.statdesc ∧ ∃ rest, Platform.floatParse s = some (r.statcode, ';' :: rest) ∧
    match r.extdata with
    | none => rest = r.statdesc
    | some e => rest = r.statdesc ++ ';' :: e

end

end Ikal.Spec
