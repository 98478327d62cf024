import Verif.Iter
import Verif.Spec.DateText

/-!
# Specification: recurring components

What iterating over a recurring component means, in terms of the calls of `next` a user makes, of the rule, and of the sequence of
dates obtained by adding the rule to the start again and again.
-/

namespace Ikal.Spec

variable [Platform] {α : Type} [Recurring α]

/-! ## Calls -/

/-- A call of `next` on `s` returns: `o`, leaving the iterator in state `s'`. -/
def Returns (s : α) (o : Outcome α) (s' : α) : Prop := o ≠ .running ∧ ∃ fuel, next fuel s = (o, s')

/-- The call yields `x`. -/
def Yields (s x s' : α) : Prop := Returns s (.item x) s'

/-- The call returns `None`. -/
def Exhausted (s : α) : Prop := Returns s .done s

/-- The call panics. -/
def Panics (s : α) : Prop := Returns s .panic s

/-- The call never returns. -/
def RunsForever (s : α) : Prop := ∀ fuel, (next fuel s).1 = .running

/-- Successive calls, from `s`, yield `xs`. -/
inductive Run : α → List α → α → Prop
  | nil {s : α} : Run s [] s
  | cons {s x s' s'' : α} {xs : List α} : Yields s x s' → Run s' xs s'' → Run s (x :: xs) s''

/-- Successive calls, from `s`, return `os` (a value, `None` or a panic each). -/
inductive Calls : α → List (Outcome α) → α → Prop
  | nil {s : α} : Calls s [] s
  | cons {s s' s'' : α} {o : Outcome α} {os : List (Outcome α)} : Returns s o s' → Calls s' os s'' → Calls s (o :: os) s''

/-! ## Dates -/

/-- The date after `k` steps of the rule; `none` if some step panics. -/
def nthDate (r : Recur) : Nat → Date → Option Date
  | 0, d => some d
  | k + 1, d => (nthDate r k d).bind r.add

/-- The steps before the `n`th whose dates are to be yielded: the start itself, and every later date that is not excluded. -/
def keptSteps (r : Recur) (excluded : List Date) (d : Date) (n : Nat) : List Nat :=
  (List.range n).filter fun k => k = 0 ∨ ∀ e ∈ excluded, nthDate r k d ≠ some e

/-- There is no `UNTIL`, or the day of the date is not after the day of `UNTIL`; both days are in the range of years. -/
def WithinUntil (r : Recur) (d : Date) : Prop :=
  ∀ u, r.until_ = some u → OnCalendar d ∧ OnCalendar u ∧ ¬ EarlierDay u.dateNaive d.dateNaive

/-- The day of the date is after the day of `UNTIL`; both days are in the range of years. -/
def PastUntil (r : Recur) (d : Date) : Prop :=
  ∃ u, r.until_ = some u ∧ OnCalendar d ∧ OnCalendar u ∧ EarlierDay u.dateNaive d.dateNaive

/-- The date cannot be compared with `UNTIL`: the day of one of them is out of the range of years. -/
def OffUntil (r : Recur) (d : Date) : Prop := ∃ u, r.until_ = some u ∧ ¬ (OnCalendar d ∧ OnCalendar u)

/-- The number of the month, counted from January of year 0. -/
def monthIndex (d : NaiveDate) : Int := d.year * 12 + (d.month - 1)

/-- The length of a month by its number. -/
def lengthOfMonth (i : Int) : Nat := monthLength (i / 12) ((i % 12).toNat + 1)

/-- The same day of the month `n` months later, or the last day of that month if it is shorter. -/
def MonthsLater (n : Nat) (d e : NaiveDate) : Prop :=
  RealDate e ∧ monthIndex e = monthIndex d + n ∧ e.day = min d.day (monthLength e.year e.month)

/-- The starts of the components. -/
def starts (xs : List α) : List (Option Date) := xs.map Recurring.dtstart

/-- The ends of the components. -/
def ends (xs : List α) : List (Option Date) := xs.map Recurring.dtend

/-- Every occurrence starts before all later ones. -/
def Increasing (s : α) : Prop :=
  ∀ xs s', Run s xs s' → (starts xs).Pairwise fun a b => ∃ x y, a = some x ∧ b = some y ∧ x.lt y = true

/-! ## Selections -/

/-- A call on the selection yields `x`. -/
def RangeYields (r : Range α) (x : α) (r' : Range α) : Prop := ∃ fuel, r.next fuel = (.item x, r')

/-- A call on the selection returns `None`. -/
def RangeEnds (r : Range α) : Prop := ∃ fuel r', r.next fuel = (.done, r')

/-- Successive calls on the selection yield `xs`. -/
inductive RangeRun : Range α → List α → Range α → Prop
  | nil {r : Range α} : RangeRun r [] r
  | cons {r r' r'' : Range α} {x : α} {xs : List α} : RangeYields r x r' → RangeRun r' xs r'' → RangeRun r (x :: xs) r''

/-- Iterating over the whole selection yields `xs`. -/
def Selects (r : Range α) (xs : List α) : Prop := ∃ r', RangeRun r xs r' ∧ RangeEnds r'

/-- The component starts before the date. -/
def startsBefore (a : Date) (x : α) : Bool := match Recurring.dtstart x with
  | some d => d.lt a
  | none => false

/-- The component starts before the date, and both are on days in the range of years. -/
def StartsBefore (a : Date) (x : α) : Prop := ∃ d, Recurring.dtstart x = some d ∧ OnCalendar d ∧ OnCalendar a ∧ d.lt a = true

/-- The component does not start before the date, and both are on days in the range of years. -/
def StartsFrom (a : Date) (x : α) : Prop := ∃ d, Recurring.dtstart x = some d ∧ OnCalendar d ∧ OnCalendar a ∧ d.lt a = false

/-- The start of the component or the date is on a day out of the range of years. -/
def Incomparable (a : Date) (x : α) : Prop := ∃ d, Recurring.dtstart x = some d ∧ ¬ (OnCalendar d ∧ OnCalendar a)

/-- All occurrences start on days in the range of years. -/
def AllOnCalendar (s : α) : Prop := ∀ xs s', Run s xs s' → ∀ x ∈ xs, ∀ d, Recurring.dtstart x = some d → OnCalendar d

end Ikal.Spec
