import Verif.Spec.Num

/-! # Specification: durations as text (RFC 5545, section 3.3.6) -/

namespace Ikal.Spec

/-- A number with its unit, or nothing. -/
def unitText (n : Option Str) (u : Char) : Str :=
  match n with
  | some ds => ds ++ [u]
  | none => []

/-- The number of units: zero if not written. -/
def amount (n : Option Str) : Nat :=
  match n with
  | some ds => decimal ds
  | none => 0

/-- A written duration: the digits of each unit that is present. -/
structure DurationFields where
  negative : Bool
  weeks : Option Str
  days : Option Str
  time : Option (Option Str × Option Str × Option Str)

namespace DurationFields

/-- `[-]P[nW][nD][T[nH][nM][nS]]`. -/
def text (f : DurationFields) : Str :=
  (if f.negative then ['-'] else []) ++ 'P' :: (unitText f.weeks 'W' ++ unitText f.days 'D' ++
    match f.time with
    | none => []
    | some (h, m, s) => 'T' :: (unitText h 'H' ++ unitText m 'M' ++ unitText s 'S'))

/-- The duration in seconds, without its sign. -/
def seconds (f : DurationFields) : Nat :=
  amount f.weeks * 604800 + amount f.days * 86400 +
    match f.time with
    | none => 0
    | some (h, m, s) => amount h * 3600 + amount m * 60 + amount s

/-- A number that is written is one or more digits and at most 2⁶³-1. -/
def NumberOk (n : Option Str) : Prop := ∀ ds, n = some ds → Digits ds ∧ decimal ds ≤ 9223372036854775807

/-- All numbers are well written. -/
def Ok (f : DurationFields) : Prop :=
  NumberOk f.weeks ∧ NumberOk f.days ∧ ∀ h m s, f.time = some (h, m, s) → NumberOk h ∧ NumberOk m ∧ NumberOk s

/-- The duration in nanoseconds, with its sign. -/
def nanos (f : DurationFields) : Int :=
  (if f.negative then -1 else 1) * ((f.seconds : Int) * 1000000000)

end DurationFields

/-- Units of the macro syntax before the `T`, in seconds: years of 365 days, months of 30 days, days. -/
def dateUnit (u : Char) : Option Nat :=
  if u = 'Y' then some (365 * 86400) else if u = 'M' then some (30 * 86400) else if u = 'D' then some 86400 else none

/-- Units after the `T`, in seconds. -/
def timeUnit (u : Char) : Option Nat :=
  if u = 'H' then some 3600 else if u = 'M' then some 60 else if u = 'S' then some 1 else none

/-- Numbers and units one after the other. -/
def chunks : List (Str × Char) → Str
  | [] => []
  | (ds, u) :: r => ds ++ u :: chunks r

/-- All the digits. -/
def allDigits : List (Str × Char) → Str
  | [] => []
  | (ds, _) :: r => ds ++ allDigits r

/-- The sum of the units where the number of each unit is written with the digits of all units up to it. -/
def runningSum (unit : Char → Option Nat) : Str → List (Str × Char) → Nat
  | _, [] => 0
  | before, (ds, u) :: r => (unit u).getD 0 * decimal (before ++ ds) + runningSum unit (before ++ ds) r

/-- Digits and known units. -/
def ChunksOk (unit : Char → Option Nat) (l : List (Str × Char)) : Prop := ∀ p ∈ l, Digits p.1 ∧ unit p.2 ≠ none

end Ikal.Spec
