import Verif.Values
import Verif.Spec.Calendar
import Verif.Spec.Num

/-! # Specification: dates and times as text, and time zones -/

namespace Ikal.Spec

/-- The years of the basic format of ISO 8601: four digits. -/
def FourDigitYear (d : NaiveDate) : Prop := 0 ≤ d.year ∧ d.year ≤ 9999

/-- Eight digits, `yyyymmdd`, are the date. -/
def DateText (s : Str) (d : NaiveDate) : Prop :=
  ∃ y m a, s = y ++ m ++ a ∧ y.length = 4 ∧ m.length = 2 ∧ a.length = 2 ∧ Digits y ∧ Digits m ∧ Digits a ∧
    d.year = decimal y ∧ d.month = decimal m ∧ d.day = decimal a

/-- `yyyymmddThhmmss` is the time of day `secs` of the date; second 60 is the leap second that follows second 59. -/
def DateTimeText (s : Str) (t : NaiveDateTime) : Prop :=
  ∃ ds h m x, s = ds ++ 'T' :: (h ++ m ++ x) ∧ DateText ds t.date ∧ h.length = 2 ∧ m.length = 2 ∧ x.length = 2 ∧
    Digits h ∧ Digits m ∧ Digits x ∧ decimal h < 24 ∧ decimal m < 60 ∧
    (decimal x < 60 ∧ t.secs = decimal h * 3600 + decimal m * 60 + decimal x ∧ t.frac = 0 ∨
     decimal x = 60 ∧ t.secs = decimal h * 3600 + decimal m * 60 + 59 ∧ t.frac = 1000000000)

/-- A time of a real date in a whole second, which may be a leap second (second 60, which follows a second 59). -/
def WholeSecond (t : NaiveDateTime) : Prop :=
  RealDate t.date ∧ t.secs < 86400 ∧ (t.frac = 0 ∨ t.frac = 1000000000 ∧ t.secs % 60 = 59)

/-- A time of a real date, with a fraction of a second; fractions from 10⁹ on are those of a leap second. -/
def AnySecond (t : NaiveDateTime) : Prop :=
  RealDate t.date ∧ t.secs < 86400 ∧ (t.frac < 1000000000 ∨ t.frac < 2000000000 ∧ t.secs % 60 = 59)

/-- The offsets of a zone and its reading of wall-clock times agree: the wall-clock time shown at an instant is not skipped,
and it is read with the offset of that instant unless it is ambiguous. -/
def CoherentZone [Platform] : Prop :=
  ∀ n : Int, Platform.tzLocal (n + Platform.tzOffset n) = .single (Platform.tzOffset n) ∨
    ∃ a b, Platform.tzLocal (n + Platform.tzOffset n) = .ambiguous a b

/-- The date-times that survive printing and reading: whole seconds in years 0 to 9999, floating or where the local zone has no
offset to UTC. -/
def PlainDateTime [Platform] : DateTime → Prop
  | .naive t => FourDigitYear t.date ∧ WholeSecond t
  | .loc u => FourDigitYear u.date ∧ WholeSecond u ∧ Platform.tzOffset u.toSecs = 0

/-- The dates that survive printing and reading. -/
def PlainDate [Platform] : Date → Prop
  | .date d => FourDigitYear d ∧ RealDate d
  | .dateTime t => PlainDateTime t

/-- Wall-clock order: by year, month, day, second of the day and fraction of a second. -/
def Earlier (a b : NaiveDateTime) : Prop :=
  a.date.year < b.date.year ∨ a.date.year = b.date.year ∧ (a.date.month < b.date.month ∨ a.date.month = b.date.month ∧
    (a.date.day < b.date.day ∨ a.date.day = b.date.day ∧ (a.secs < b.secs ∨ a.secs = b.secs ∧ a.frac < b.frac)))

/-- The last instant that years are added to: there is a leap second after it. -/
def lastInstant : NaiveDateTime := ⟨⟨262142, 12, 31⟩, 86399, 999999999⟩

/-- Calendar order of days. -/
def EarlierDay (a b : NaiveDate) : Prop :=
  a.year < b.year ∨ a.year = b.year ∧ (a.month < b.month ∨ a.month = b.month ∧ a.day < b.day)

/-- The wall-clock time of the date-time is in the range of years.  That of a local date-time can be just outside. -/
def OnClock [Platform] : DateTime → Prop
  | .naive _ => True
  | .loc u => InRange (localOf u).date

/-- The day of the date is in the range of years. -/
def OnCalendar [Platform] : Date → Prop
  | .date _ => True
  | .dateTime t => OnClock t

/-- A time of a date in range that is not in a leap second. -/
def NoLeapSecond (t : NaiveDateTime) : Prop := RealDate t.date ∧ InRange t.date ∧ t.secs < 86400 ∧ t.frac < 1000000000

/-- Any time of a date in range, leap seconds included. -/
def RealTime (t : NaiveDateTime) : Prop := RealDate t.date ∧ InRange t.date ∧ t.secs < 86400 ∧ t.frac < 2000000000

/-- How many nanoseconds of the second of this time are still to come: a second with a leap second lasts two. -/
def restOfSecond (t : NaiveDateTime) : Int := (if t.frac < 1000000000 then 1000000000 else 2000000000) - t.frac

/-- `y` is the time the duration after `t`, where `t` is in a leap second and this leap second is counted: a time of the same second (or of the leap
second that follows it), a time after it, to which the duration is that from the second before the leap second, or a time before it, from which the duration is
one second more. -/
def AfterLeap (t : NaiveDateTime) (nanos : Int) (y : NaiveDateTime) : Prop :=
  (y.date = t.date ∧ y.secs = t.secs ∧ y.frac < 2000000000 ∧ (y.frac : Int) = t.frac + nanos) ∨
  NoLeapSecond y ∧ Earlier ⟨t.date, t.secs, 1999999999⟩ y ∧ (y.since ⟨t.date, t.secs, t.frac - 1000000000⟩).nanos = nanos ∨
  NoLeapSecond y ∧ Earlier y ⟨t.date, t.secs, 0⟩ ∧ (y.since ⟨t.date, t.secs, t.frac - 1000000000⟩).nanos = nanos + 1000000000

/-- The time with its leap second taken for the second before it, in which it is in chrono: 23:59:60 becomes 23:59:59. -/
def withoutLeapSecond (t : NaiveDateTime) : NaiveDateTime := { t with frac := t.frac % 1000000000 }

/-- A duration of whole seconds within the range of durations. -/
def WholeDuration (d : TimeDelta) : Prop := d.Valid ∧ d.nanos % 1000000000 = 0

end Ikal.Spec
