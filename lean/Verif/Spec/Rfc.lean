import Verif.Spec.Recurrence

/-!
# Specification: the recurrence set of RFC 5545

The recurrence set of a rule without `BY…` parts, after [RFC 5545 3.3.10](https://datatracker.ietf.org/doc/html/rfc5545#section-3.3.10): it is described by what its members are, not
by stepping from one to the next.  A day that a month does not have is left out ("Recurrence rules may generate recurrence instances with an invalid date … such recurrence instances
MUST be ignored").
-/

namespace Ikal.Spec

/-- The day `e` is one that `FREQ=f;INTERVAL=n` gives for a start on the day `d`: a multiple of the interval in days or weeks later; or the same day of a month that is a multiple of the
interval later; or the same day of the year, a multiple of the interval later. -/
def RfcDay (f : Freq) (n : Nat) (d e : NaiveDate) : Prop :=
  match f with
  | .daily => ∃ k, e = daysLater (k * n) d
  | .weekly => ∃ k, e = daysLater (k * n * 7) d
  | .monthly => RealDate e ∧ e.day = d.day ∧ ∃ k : Nat, monthIndex e = monthIndex d + (k * n : Nat)
  | .yearly => RealDate e ∧ e.day = d.day ∧ e.month = d.month ∧ ∃ k : Nat, e.year = d.year + (k * n : Nat)
  | _ => False

/-- The time `u` is a multiple of `n` seconds after `t`. -/
def ManySecondsLater (n : Nat) (t u : NaiveDateTime) : Prop :=
  u.secs < 86400 ∧ u.frac = t.frac ∧ ∃ k days, t.secs + k * n = days * 86400 + u.secs ∧ u.date = daysLater days t.date

/-- The time `u` is one that `FREQ=f;INTERVAL=n` gives for a start at the (floating) time `t`. -/
def RfcTime (f : Freq) (n : Nat) (t u : NaiveDateTime) : Prop :=
  match f with
  | .secondly => ManySecondsLater n t u
  | .minutely => ManySecondsLater (n * 60) t u
  | .hourly => ManySecondsLater (n * 3600) t u
  | f => RfcDay f n t.date u.date ∧ u.secs = t.secs ∧ u.frac = t.frac

/-- The date `X` is in the recurrence set of the rule for a start at `D`, `UNTIL`, `COUNT` and excluded dates aside.  A start that is an instant is taken in UTC. -/
def InSet (r : Recur) : Date → Date → Prop
  | .date d, .date e => RfcDay r.freq r.interval d e
  | .dateTime (.naive t), .dateTime (.naive u) => RfcTime r.freq r.interval t u
  | .dateTime (.loc t), .dateTime (.loc u) => RfcTime r.freq r.interval t u
  | _, _ => False

/-- One date is before the other: two days, two floating times or two instants. -/
def SetBefore : Date → Date → Prop
  | .date a, .date b => EarlierDay a b
  | .dateTime (.naive a), .dateTime (.naive b) => Earlier a b
  | .dateTime (.loc a), .dateTime (.loc b) => Earlier a b
  | _, _ => False

/-- The day of a date; of an instant, its day in UTC. -/
def utcDay : Date → NaiveDate
  | .date d => d
  | .dateTime (.naive t) => t.date
  | .dateTime (.loc t) => t.date

/-- A start for which the recurrence set is described here: a day, with a rule of days or longer; a floating time that is not in a leap second; an instant that is not in a leap second,
with a rule of weeks or shorter. -/
def PlainStart (r : Recur) : Date → Prop
  | .date d => RealDate d ∧ InRange d ∧ r.freq ∈ [Freq.daily, .weekly, .monthly, .yearly]
  | .dateTime (.naive t) => NoLeapSecond t
  | .dateTime (.loc t) => NoLeapSecond t ∧ r.freq ∈ [Freq.secondly, .minutely, .hourly, .daily, .weekly]

/-- All months that the rule goes to have the day of the start. -/
def MonthsFit (r : Recur) (d : NaiveDate) : Prop :=
  (r.freq = .monthly → ∀ k : Nat, d.day ≤ lengthOfMonth (monthIndex d + (k * r.interval : Nat))) ∧
  (r.freq = .yearly → ∀ k : Nat, d.day ≤ monthLength (d.year + (k * r.interval : Nat)) d.month)

/-- The end `e`, if there is one, can be moved by as many steps of the rule as take the start `D` to `Z`: it stays in the range of years, and its months fit too. -/
def EndReaches [Platform] (r : Recur) (e : Option Date) (D Z : Date) : Prop := ∀ x, e = some x → ∃ k y, nthDate r k D = some Z ∧ nthDate r k x = some y

/-- Fewer than `c` dates are such that `P`. -/
def FewerThan (c : Nat) (P : Date → Prop) : Prop := ¬ ∃ l : List Date, l.Nodup ∧ l.length = c ∧ ∀ x ∈ l, P x

/-- The date is the start, or it is not excluded. -/
def Kept (excluded : List Date) (D X : Date) : Prop := X = D ∨ X ∉ excluded

end Ikal.Spec
