import Verif.Values
import Verif.Spec.DateText

/-! # Specification: what a local time zone is -/

namespace Ikal.Spec

/-- A second of a day that exists, in any year. -/
def ClockTime (t : NaiveDateTime) : Prop := RealDate t.date ∧ t.secs < 86400

/-- The zone reads a wall-clock time as the instants at which its clocks show that time, no more and no less: none when the
time is skipped, two when it is repeated, of which the first has the larger offset and so is the earlier. -/
def FaithfulZone [Platform] : Prop := ∀ m : Int,
  match Platform.tzLocal m with
  | .none => ∀ n : Int, n + Platform.tzOffset n ≠ m
  | .single o => ∀ n : Int, n + Platform.tzOffset n = m ↔ n = m - o
  | .ambiguous a b => b ≤ a ∧ ∀ n : Int, n + Platform.tzOffset n = m ↔ n = m - a ∨ n = m - b

end Ikal.Spec
