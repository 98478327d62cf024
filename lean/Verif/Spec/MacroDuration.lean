import Verif.Spec.Duration
import Verif.Chrono

/-!
# Specification: durations in the syntax of the macros, completely

What every text means: which units it has, which number each of them has, what they are worth, and what happens when one of them cannot be read or is too great.
-/

namespace Ikal.Spec

/-- A unit: whether it comes after a `T`, the text of its number, and its letter. -/
structure MacroUnit where
  time : Bool
  number : Str
  letter : Char

/-- A unit of the text after the `P`: a character that is neither a digit nor a `T`.  Its number is made of all the digits before it, also those of other units. -/
def unitAfter (before : Str) (c : Char) : Option MacroUnit :=
  if c.isDigit ∨ c = 'T' then none else some ⟨before.contains 'T', before.filter Char.isDigit, c⟩

/-- The units of the text after the `P`, in order. -/
def macroUnits (body : Str) : List MacroUnit :=
  (List.range body.length).filterMap fun i => (body[i]?).bind (unitAfter (body.take i))

/-- How many days or seconds a unit counts: `Y`, `M` and `D` before the `T`; `H`, `M` and `S` after it. -/
def unitDays (u : MacroUnit) : Option Int :=
  if u.time then none else if u.letter = 'Y' then some 365 else if u.letter = 'M' then some 30 else if u.letter = 'D' then some 1 else none

def unitSeconds (u : MacroUnit) : Option Int :=
  if u.time then (if u.letter = 'H' then some 3600 else if u.letter = 'M' then some 60 else if u.letter = 'S' then some 1 else none) else none

/-- A duration can be this many seconds: in milliseconds it is a 64-bit number other than the least one. -/
def DurationRange (n : Int) : Prop := -9223372036854775807 ≤ n * 1000 ∧ n * 1000 ≤ 9223372036854775807

/-- The number of a unit: its digits, at least one, as a 64-bit number. -/
def UnitNumber (u : MacroUnit) (n : Int) : Prop := Digits u.number ∧ n = decimal u.number ∧ n ≤ 9223372036854775807

/-- The product of 64-bit numbers: with overflow checks there is none if it is too great, without them its lower 64 bits are taken as a signed number. -/
def Product64 [Platform] (k n : Int) (r : Option Int) : Prop :=
  (k * n ≤ 9223372036854775807 ∧ r = some (k * n)) ∨
  (9223372036854775807 < k * n ∧ Platform.overflowChecks = true ∧ r = none) ∨
  (9223372036854775807 < k * n ∧ Platform.overflowChecks = false ∧ ∃ w q, r = some w ∧ k * n = q * 18446744073709551616 + w ∧ -9223372036854775808 ≤ w ∧ w ≤ 9223372036854775807)

/-- What a unit is worth, in seconds. -/
inductive UnitWorth [Platform] (u : MacroUnit) : Res Int → Prop
  | unknown : unitDays u = none → unitSeconds u = none → UnitWorth u (.err .parseDuration)
  | noNumber : (unitDays u ≠ none ∨ unitSeconds u ≠ none) → (∀ n, ¬ UnitNumber u n) → UnitWorth u (.err .parseInt)
  | days {k n w : Int} : unitDays u = some k → UnitNumber u n → Product64 k n (some w) → DurationRange (w * 86400) → UnitWorth u (.ok (w * 86400))
  | tooManyDays {k n w : Int} : unitDays u = some k → UnitNumber u n → Product64 k n (some w) → ¬ DurationRange (w * 86400) → UnitWorth u .panic
  | overflow {k n : Int} : unitDays u = some k → UnitNumber u n → Product64 k n none → UnitWorth u .panic
  | seconds {k n : Int} : unitSeconds u = some k → UnitNumber u n → DurationRange (n * k) → UnitWorth u (.ok (n * k))
  | tooManySeconds {k n : Int} : unitSeconds u = some k → UnitNumber u n → ¬ DurationRange (n * k) → UnitWorth u .panic

/-- The sum of the units: the first one that has no worth, or makes the sum too great, decides. -/
inductive UnitSum [Platform] : Int → List MacroUnit → Res Int → Prop
  | done {a : Int} : UnitSum a [] (.ok a)
  | bad {a : Int} {u : MacroUnit} {us : List MacroUnit} {r : Res Int} : UnitWorth u r → (∀ n, r ≠ .ok n) → UnitSum a (u :: us) r
  | over {a n : Int} {u : MacroUnit} {us : List MacroUnit} : UnitWorth u (.ok n) → ¬ DurationRange (a + n) → UnitSum a (u :: us) .panic
  | more {a n : Int} {u : MacroUnit} {us : List MacroUnit} {r : Res Int} : UnitWorth u (.ok n) → DurationRange (a + n) → UnitSum (a + n) us r → UnitSum a (u :: us) r

/-- What a text means: `P` and units, perhaps after a minus sign. -/
inductive MacroDuration [Platform] (s : Str) : Res TimeDelta → Prop
  | positive {body : Str} {r : Res Int} : s = 'P' :: body → UnitSum 0 (macroUnits body) r → MacroDuration s (r.map fun n => ⟨n * 1000000000⟩)
  | negative {body : Str} {r : Res Int} : s = '-' :: 'P' :: body → UnitSum 0 (macroUnits body) r → MacroDuration s (r.map fun n => ⟨-n * 1000000000⟩)
  | other : (∀ body, s ≠ 'P' :: body ∧ s ≠ '-' :: 'P' :: body) → MacroDuration s (.err .parseDuration)

end Ikal.Spec
