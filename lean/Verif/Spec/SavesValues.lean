import Verif.Spec.Saves

/-!
# Specification: classifications, positions and recurrence dates that are saved again and again
-/

namespace Ikal.Spec.After

open Full

variable [Platform]

/-- A text put in upper case `n` times. -/
inductive Capitals : Nat → Str → Str → Prop
  | none {s : Str} : Capitals 0 s s
  | more {n : Nat} {s t : Str} : Capitals n s t → Capitals (n + 1) s (upperStr t)

/-- A classification: a standard one stays, the text of one of one's own is put in upper case each time, and is then the standard one of
that name if there is one. If nothing is left of the text the classification disappears. -/
def ClassAfter (n : Nat) (v w : Option Class) : Prop :=
  match v with
  | none => w = none
  | some .pub => w = some .pub
  | some .priv => w = some .priv
  | some .confidential => w = some .confidential
  | some (.custom s) => n = 0 ∧ w = v ∨ n ≠ 0 ∧
      ((∃ k, k ≠ 0 ∧ k ≤ n ∧ Capitals k s []) ∧ w = none ∨
        ∃ t, Capitals n s t ∧ t ≠ [] ∧ w = some (if t = c!"PUBLIC" then .pub else if t = c!"PRIVATE" then .priv
          else if t = c!"CONFIDENTIAL" then .confidential else .custom t))

end Ikal.Spec.After
