import Verif.Trace
import Verif.Spec.Grammar
import Verif.Spec.Line

/-!
# Specification: what the error of a value says

For a text that cannot be read as a value: the entries of the error.  Nothing here refers to a function that reads.
-/

namespace Ikal.Spec

/-- Not a day of the week: with fewer than two characters the end was met where a character is needed, otherwise the two characters are no day. -/
def WeekdayStops (s : Str) (t : Trace) : Prop :=
  s.length < 2 ∧ t = [([], .nom .eof), (s, .nom .count), (s, .context c!"weekday")] ∨
  2 ≤ s.length ∧ t = [(s, .nom .mapRes), (s, .context c!"weekday")]

/-- The text after the number of a day of the week: after all the digits if there is a number and it is from -128 to 127, otherwise all of it. -/
def AfterNumber (s r : Str) : Prop :=
  (∃ t n, IsSigned t n ∧ -128 ≤ n ∧ n ≤ 127 ∧ s = t ++ r ∧ ∀ c, r.head? = some c → c.isDigit = false) ∨
  r = s ∧ ∀ t n r', IsSigned t n → -128 ≤ n → n ≤ 127 → s = t ++ r' → ∃ c, r'.head? = some c ∧ c.isDigit = true

/-- Not a day of the week with an optional number: what comes after the number is no day of the week. -/
def WeekdayNumStops (s : Str) (t : Trace) : Prop :=
  ∃ r t', AfterNumber s r ∧ WeekdayStops r t' ∧ t = t' ++ [(s, .context c!"weekdaynum")]

/-- Not a date-time: just that. -/
def DateTimeStops (s : Str) (t : Trace) : Prop := t = [(s, .nom .fail)]

/-- Neither a date nor a date-time. -/
def DateStops (s : Str) (t : Trace) : Prop := t = [(s, .nom .fail), (s, .nom .alt), (s, .context c!"date_or_dt")]

/-- Not a duration: there is no `P` after the optional minus sign. -/
def DurationStops (s : Str) (t : Trace) : Prop :=
  ∃ r, (s = '-' :: r ∨ r = s ∧ s.head? ≠ some '-') ∧ r.head? ≠ some 'P' ∧ t = [(r, .nom .tag), (s, .context c!"duration")]

/-- Neither a duration nor a date-time: the error is that of the date-time, even if the text begins like a duration. -/
def TriggerStops (s : Str) (t : Trace) : Prop := t = [(s, .nom .fail), (s, .nom .alt)]

/-- Not a recurrence rule: if it does not even begin with a name and an equals sign, the text after the name, otherwise no more than that. -/
def RecurStops (s : Str) (t : Trace) : Prop :=
  (∃ k r, s = k ++ r ∧ IsName k ∧ (∀ c, r.head? = some c → c ≠ '=' ∧ ¬ NameChar c) ∧
    t = [(r, .chr '='), (s, .context c!"item"), (s, .nom .many1), (s, .context c!"rrule")]) ∨
  (∃ k r, s = k ++ '=' :: r ∧ IsName k) ∧ t = [(s, .nom .mapRes), (s, .context c!"rrule")]

section
variable [Platform]

/-- Not a period: the part before the slash is no date-time, or it is and the part after it is neither a duration (it does not begin with
`P`) nor a date-time. -/
def PeriodStops (s : Str) (t : Trace) : Prop :=
  (∃ a r, s = a ++ r ∧ '/' ∉ a ∧ (r = [] ∨ r.head? = some '/') ∧ (¬ ∃ v, DateTimeValue a v) ∧ t = [(a, .nom .fail)]) ∨
  ∃ a b, s = a ++ '/' :: b ∧ '/' ∉ a ∧ (∃ v, DateTimeValue a v) ∧ b.head? ≠ some 'P' ∧ t = [(b, .nom .fail)]

variable [FloatTrace]

/-- Not a position: the first number, the semicolon or the second number is missing. -/
def GeoStops (s : Str) (t : Trace) : Prop :=
  Platform.floatParse s = none ∧ t = FloatTrace.trace s ∨
  ∃ x r, Platform.floatParse s = some (x, r) ∧
    (r.head? ≠ some ';' ∧ t = [(r, .chr ';')] ∨ ∃ r', r = ';' :: r' ∧ Platform.floatParse r' = none ∧ t = FloatTrace.trace r')

/-- Not a request status: the number or the semicolon after it is missing. -/
def RequestStatusStops (s : Str) (t : Trace) : Prop :=
  ∃ t', t = t' ++ [(s, .context c!"rstatus")] ∧
    (Platform.floatParse s = none ∧ t' = FloatTrace.trace s ∨
      ∃ x r, Platform.floatParse s = some (x, r) ∧ r.head? ≠ some ';' ∧ t' = [(r, .chr ';')])

end

end Ikal.Spec
