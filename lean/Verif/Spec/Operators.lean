import Verif.Spec.Recurrence

/-! # Specification: adding a rule to a date or a time -/

namespace Ikal.Spec

/-- The same month and day `n` years later, a date that exists. -/
def YearsLater (n : Nat) (d e : NaiveDate) : Prop := e.year = d.year + n ∧ e.month = d.month ∧ e.day = d.day ∧ RealDate e

/-- `n` days, weeks, months or years later; a date does not move by hours, minutes or seconds. -/
def DateLater (n : Nat) (d e : NaiveDate) : Freq → Prop
  | .secondly | .minutely | .hourly => e = d
  | .daily => e = daysLater n d
  | .weekly => e = daysLater (7 * n) d
  | .monthly => MonthsLater n d e
  | .yearly => YearsLater n d e

/-- `s` seconds later, unless `s` is 0 leaving a leap second for the second it is in. -/
def SecondsLater (s : Nat) (t t' : NaiveDateTime) : Prop :=
  s = 0 ∧ t' = t ∨ 1 ≤ s ∧ NoLeapSecond t' ∧ t'.frac = t.frac % 1000000000 ∧ t'.toSecs = t.toSecs + s

/-- `n` seconds, minutes, hours, days, weeks, months or years later; months and years move the date and keep the time of the day. -/
def TimeLater (n : Nat) (t t' : NaiveDateTime) : Freq → Prop
  | .secondly => SecondsLater n t t'
  | .minutely => SecondsLater (n * 60) t t'
  | .hourly => SecondsLater (n * 3600) t t'
  | .daily => SecondsLater (n * 86400) t t'
  | .weekly => SecondsLater (n * 604800) t t'
  | .monthly => MonthsLater n t.date t'.date ∧ t'.secs = t.secs ∧ t'.frac = t.frac
  | .yearly => YearsLater n t.date t'.date ∧ t'.secs = t.secs ∧ t'.frac = t.frac

end Ikal.Spec
