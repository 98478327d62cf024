import Verif.Spec.Num
import Verif.Ser

/-!
# Specification: written and read alone
-/

namespace Ikal.Spec

/-- The text written for `x` is read as `y`. -/
def Rereads {α : Type} [Ser α] (ofStr : Str → Res α) (x y : α) : Prop := ∃ t, ical x = .ok t ∧ ofStr t = .ok y

end Ikal.Spec
