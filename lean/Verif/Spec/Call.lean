import Verif.Spec.Recurrence

/-!
# Specification: one call of the iterator

A call looks at the dates of the steps one after the other, beginning with the start: it goes from one to the next as long as none is after `UNTIL`
and the next is excluded.
-/

namespace Ikal.Spec

variable [Platform] {α : Type} [Recurring α]

/-- After `k` steps of the rule the start `d` and the end, if there is one, are dates. -/
def Reachable (s : α) (r : Recur) (d : Date) (k : Nat) : Prop :=
  (∃ a, nthDate r k d = some a) ∧ ∀ e, Recurring.dtend s = some e → ∃ b, nthDate r k e = some b

/-- The date after `k` steps is excluded. -/
def ExcludedAt (s : α) (r : Recur) (d : Date) (k : Nat) : Prop := ∃ x ∈ Recurring.exdate s, nthDate r k d = some x

/-- The date after `k` steps is not after `UNTIL`. -/
def WithinAt (r : Recur) (d : Date) (k : Nat) : Prop := ∃ a, nthDate r k d = some a ∧ WithinUntil r a

/-- The call gets as far as step `k`: each of the dates before is not after `UNTIL`, and each but the first is excluded, as the date of step `k` is. -/
def GetsTo (s : α) (r : Recur) (d : Date) (k : Nat) : Prop :=
  ∀ i, i < k → WithinAt r d i ∧ Reachable s r d (i + 1) ∧ ExcludedAt s r d (i + 1)

/-- The call arrives at step `k + 1`, the first after the start that is not excluded. -/
def ArrivesAt (s : α) (r : Recur) (d : Date) (k : Nat) : Prop :=
  GetsTo s r d k ∧ WithinAt r d k ∧ Reachable s r d (k + 1) ∧ ¬ ExcludedAt s r d (k + 1)

end Ikal.Spec
