import Verif.Spec.Recurrence

/-! # Specification: consecutive selections -/

namespace Ikal.Spec

variable [Platform] {α : Type} [Recurring α]

/-- Two dates without a time, or two with a time, on days in the range of years, of which the second is not before the first. -/
def InOrder (a b : Date) : Prop := a.hasTime = b.hasTime ∧ OnCalendar a ∧ OnCalendar b ∧ ¬ b.lt a = true

/-- Every two neighbours are in order. -/
def AllInOrder : Date → List Date → Prop
  | _, [] => True
  | a, b :: bs => InOrder a b ∧ AllInOrder b bs

/-- The pages are the selections between neighbours: from `a` to the first of the bounds, from there to the second and so on. -/
def Pages (s : α) : Date → List Date → List (List α) → Prop
  | _, [], ps => ps = []
  | a, b :: bs, ps => ∃ p qs, ps = p :: qs ∧ Selects (between s a b) p ∧ Pages s b bs qs

end Ikal.Spec
