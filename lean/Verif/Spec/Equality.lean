import Verif.Equality
import Verif.Spec.Recurrence

/-!
# Specification: equality of components
-/

namespace Ikal.Spec

/-- Two lists of the same length, related element by element. -/
inductive Each {α : Type} (R : α → α → Prop) : List α → List α → Prop
  | nil : Each R [] []
  | cons {a b : α} {as bs : List α} : R a b → Each R as bs → Each R (a :: as) (b :: bs)

/-- Both absent, or both present and related. -/
def Both {α : Type} (R : α → α → Prop) (a b : Option α) : Prop := (a = none ∧ b = none) ∨ ∃ x y, a = some x ∧ b = some y ∧ R x y

section
variable [Platform] [FloatEq]

/-- Places with equal coordinates. -/
def SameGeo (a b : Geo) : Prop := FloatEq.feq a.lat b.lat = true ∧ FloatEq.feq a.lon b.lon = true

/-- Request statuses with equal codes and the same texts. -/
def SameStatus (a b : RequestStatus) : Prop := FloatEq.feq a.statcode b.statcode = true ∧ a.statdesc = b.statdesc ∧ a.extdata = b.extdata

/-- Events that differ at most in floats that are equal. -/
def SameEvent (v w : VEvent) : Prop :=
  { v with geo := none, rstatus := [] } = { w with geo := none, rstatus := [] } ∧ Both SameGeo v.geo w.geo ∧ Each SameStatus v.rstatus w.rstatus

/-- To-dos that differ at most in floats that are equal. -/
def SameTodo (v w : VTodo) : Prop :=
  { v with geo := none, rstatus := [] } = { w with geo := none, rstatus := [] } ∧ Both SameGeo v.geo w.geo ∧ Each SameStatus v.rstatus w.rstatus

/-- Journals that differ at most in floats that are equal. -/
def SameJournal (v w : VJournal) : Prop := { v with rstatus := [] } = { w with rstatus := [] } ∧ Each SameStatus v.rstatus w.rstatus

/-- Free-busy components that differ at most in floats that are equal. -/
def SameFreebusy (v w : VFreebusy) : Prop := { v with rstatus := [] } = { w with rstatus := [] } ∧ Each SameStatus v.rstatus w.rstatus

/-- Calendars that differ at most in floats that are equal. -/
def SameCalendar (v w : VCalendar) : Prop :=
  { v with events := [], freebusy := [], journals := [], todo := [] } = { w with events := [], freebusy := [], journals := [], todo := [] } ∧
    Each SameEvent v.events w.events ∧ Each SameFreebusy v.freebusy w.freebusy ∧ Each SameJournal v.journals w.journals ∧ Each SameTodo v.todo w.todo

/-- The float is equal to itself: it is not `NaN`. -/
def Number (x : Platform.F32) : Prop := FloatEq.feq x x = true

/-- No `NaN` in a place and a list of request statuses. -/
def Numbers (g : Option Geo) (rs : List RequestStatus) : Prop := (∀ x, g = some x → Number x.lat ∧ Number x.lon) ∧ ∀ r ∈ rs, Number r.statcode

/-- No `NaN` in a calendar. -/
def NumbersIn (v : VCalendar) : Prop :=
  (∀ x ∈ v.events, Numbers x.geo x.rstatus) ∧ (∀ x ∈ v.freebusy, Numbers none x.rstatus) ∧ (∀ x ∈ v.journals, Numbers none x.rstatus) ∧
    ∀ x ∈ v.todo, Numbers x.geo x.rstatus

end

/-- Two results of calls: equal items, or both `None`, or both a panic. -/
inductive SameOutcome {α : Type} [PEq α] : Outcome α → Outcome α → Prop
  | item {a b : α} : PEq.eq a b = true → SameOutcome (.item a) (.item b)
  | done : SameOutcome .done .done
  | panic : SameOutcome .panic .panic

/-- What iterating over equal components means: call by call the same outcomes with equal items, and equal selections. -/
def IteratesAlike [Platform] {α : Type} [Recurring α] [PEq α] (v w : α) : Prop :=
  (∀ os v', Calls v os v' → ∃ ps w', Calls w ps w' ∧ All2 SameOutcome os ps ∧ PEq.eq v' w' = true) ∧
    (∀ a b xs, Selects (between v a b) xs → ∃ ys, Selects (between w a b) ys ∧ Each (fun a b => PEq.eq a b = true) xs ys) ∧
    ∀ a xs, Selects (after v a) xs → ∃ ys, Selects (after w a) ys ∧ Each (fun a b => PEq.eq a b = true) xs ys

end Ikal.Spec
