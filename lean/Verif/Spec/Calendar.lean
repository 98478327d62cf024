import Verif.Chrono

/-! # Specification: the Gregorian calendar

Stated without the arithmetic of the model: leap years, lengths of months, and what the next day is. -/

namespace Ikal.Spec

/-- A leap year is divisible by 4, but not by 100 unless by 400. -/
def Leap (y : Int) : Prop := 4 ∣ y ∧ (100 ∣ y → 400 ∣ y)

instance (y : Int) : Decidable (Leap y) := by unfold Leap; infer_instance

/-- The number of days of a month: thirty days hath September, April, June and November. -/
def monthLength (y : Int) (m : Nat) : Nat :=
  if m = 2 then (if Leap y then 29 else 28) else if m = 4 ∨ m = 6 ∨ m = 9 ∨ m = 11 then 30 else 31

/-- The dates that exist. -/
def RealDate (d : NaiveDate) : Prop := 1 ≤ d.month ∧ d.month ≤ 12 ∧ 1 ≤ d.day ∧ d.day ≤ monthLength d.year d.month

/-- The years the implementation can represent. -/
def InRange (d : NaiveDate) : Prop := -262143 ≤ d.year ∧ d.year ≤ 262142

/-- The next day. -/
def tomorrow (d : NaiveDate) : NaiveDate :=
  if d.day < monthLength d.year d.month then { d with day := d.day + 1 }
  else if d.month < 12 then ⟨d.year, d.month + 1, 1⟩
  else ⟨d.year + 1, 1, 1⟩

/-- The day `n` days later. -/
def daysLater : Nat → NaiveDate → NaiveDate
  | 0, d => d
  | n + 1, d => daysLater n (tomorrow d)

end Ikal.Spec
