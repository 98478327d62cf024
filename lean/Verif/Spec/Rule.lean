import Verif.Values
import Verif.Spec.Line
import Verif.Spec.Num
import Verif.Spec.DateText
import Verif.Spec.Names
import Verif.Spec.Grammar

/-! # Specification: recurrence rules as text (RFC 5545, section 3.3.10) -/

namespace Ikal.Spec

/-- `RuleText s items`: `s` is a sequence of `NAME=VALUE` items separated by semicolons; reading stops where no item begins. -/
inductive RuleText : Str → List (Str × Str) → Prop
  | stop {s : Str} : (∀ k r, IsName k → s ≠ k ++ '=' :: r) → RuleText s []
  | more {k v s : Str} {items : List (Str × Str)} : IsName k → ';' ∉ v → RuleText s items →
      RuleText (k ++ '=' :: v ++ ';' :: s) ((k, v) :: items)
  | last {k v : Str} : IsName k → ';' ∉ v → RuleText (k ++ '=' :: v) [(k, v)]

/-- An optional item: absent, or present with a value that is read. -/
def ItemOpt {α : Type} (R : Str → α → Prop) (v : Option Str) (a : Option α) : Prop :=
  match v, a with
  | none, none => True
  | some s, some a => R s a
  | _, _ => False

/-- An item with a default. -/
def ItemOr {α : Type} (R : Str → α → Prop) (dflt : α) (v : Option Str) (a : α) : Prop :=
  match v with
  | none => a = dflt
  | some s => R s a

/-- A number from -128 to 127. -/
def Signed8 (s : Str) (n : Int) : Prop := IsSigned s n ∧ -128 ≤ n ∧ n ≤ 127

/-- A number from 0 to 255. -/
def Unsigned8 (s : Str) (n : Nat) : Prop := IsUnsigned s n ∧ n ≤ 255

/-- The names of the items that are known. -/
def ruleNames : List Str :=
  [c!"FREQ", c!"UNTIL", c!"COUNT", c!"INTERVAL", c!"BYSECOND", c!"BYMINUTE", c!"BYHOUR", c!"BYDAY", c!"BYMONTHDAY",
   c!"BYYEARDAY", c!"BYWEEKNO", c!"BYMONTH", c!"BYSETPOS", c!"WKST"]

/-- The rule that a list of items means: the last value of each name counts, `INTERVAL` is 1 by default. -/
structure RuleMeans [Platform] (items : List (Str × Str)) (r : Recur) : Prop where
  freq : lastValue items c!"FREQ" = some (freqName r.freq)
  until_ : ItemOpt DateValue (lastValue items c!"UNTIL") r.until_
  count : ItemOpt Unsigned8 (lastValue items c!"COUNT") r.count
  interval : ItemOr Unsigned8 1 (lastValue items c!"INTERVAL") r.interval
  bySecond : ItemOr (ListOf Signed8) [] (lastValue items c!"BYSECOND") r.bySecond
  byMinute : ItemOr (ListOf Signed8) [] (lastValue items c!"BYMINUTE") r.byMinute
  byHour : ItemOr (ListOf Signed8) [] (lastValue items c!"BYHOUR") r.byHour
  byDay : ItemOr (ListOf WeekdayNumText) [] (lastValue items c!"BYDAY") r.byDay
  byMonthday : ItemOr (ListOf Signed8) [] (lastValue items c!"BYMONTHDAY") r.byMonthday
  byYearday : ItemOr (ListOf Signed8) [] (lastValue items c!"BYYEARDAY") r.byYearday
  byWeekno : ItemOr (ListOf Signed8) [] (lastValue items c!"BYWEEKNO") r.byWeekno
  byMonth : ItemOr (ListOf Signed8) [] (lastValue items c!"BYMONTH") r.byMonth
  bySetpos : ItemOr (ListOf Signed8) [] (lastValue items c!"BYSETPOS") r.bySetpos
  wkst : ItemOpt (fun s w => ∃ rest, s = weekdayName w ++ rest) (lastValue items c!"WKST") r.wkst

/-- A list of numbers from -128 to 127. -/
def All8 (l : List Int) : Prop := ∀ n ∈ l, -128 ≤ n ∧ n ≤ 127

/-- The rules whose numbers fit the types of the fields (`u8`, `i8`) and whose end is a plain date. -/
structure PlainRule [Platform] (r : Recur) : Prop where
  until_ : ∀ d, r.until_ = some d → PlainDate d
  count : ∀ n, r.count = some n → n ≤ 255
  interval : r.interval ≤ 255
  bySecond : All8 r.bySecond
  byMinute : All8 r.byMinute
  byHour : All8 r.byHour
  byDay : ∀ w ∈ r.byDay, ∀ n, w.ord = some n → -128 ≤ n ∧ n ≤ 127
  byMonthday : All8 r.byMonthday
  byYearday : All8 r.byYearday
  byWeekno : All8 r.byWeekno
  byMonth : All8 r.byMonth
  bySetpos : All8 r.bySetpos

end Ikal.Spec
