import Verif.Values

/-!
# Derived orders (`src/properties/recur.rs`)
-/

namespace Ikal

/-- `Ord for Freq`, derived: the order of the declaration (`src/properties/recur.rs:138-148`). -/
def Freq.cmp (a b : Freq) : Ordering := compare a.rank b.rank

/-- Position of a weekday in the declaration (`src/properties/recur.rs:249-257`). -/
def Weekday.rank : Weekday → Nat
  | .sunday => 0
  | .monday => 1
  | .tuesday => 2
  | .wednesday => 3
  | .thursday => 4
  | .friday => 5
  | .saturday => 6

/-- `Ord for Weekday`, derived: the order of the declaration (`src/properties/recur.rs:248-257`). -/
def Weekday.cmp (a b : Weekday) : Ordering := compare a.rank b.rank

end Ikal
