import Verif.Spec.Abnf
import Verif.Macros

/-!
# Specification: what an edit of a text leaves as it is

An edit of the lines of one property, or of some of the parts of a component, and the fields that must not notice.
-/

namespace Ikal.Spec.Edit

/-- The name of the property of a field: in upper case, with `-` for `_`. -/
def propertyOf (field : Str) : Str := field.map fun c => if c = '_' then '-' else c.toUpper

/-- The lines are the same, in the same order, apart from those named `k`: lines named `k` have been added, removed, changed or moved. -/
def OnlyLines (k : Str) (lines lines' : List Abnf.Line) : Prop :=
  ∀ n, n ≠ k → (lines.filter fun l => l.name = n) = lines'.filter fun l => l.name = n

/-- `s` is a text of the component `t` that ikal understands, perhaps folded and followed by something. -/
def TextOf (t : Abnf.Tree) (s : Str) : Prop := t.Good ∧ (∃ rest, Abnf.Unfolds s (t.str ++ rest)) ∧ ¬ c!"\r\n\t" <:+: s

section
variable [Platform]

/-- Two values of a field that an edit of the lines named `k` leaves as it is: they are the same, and in a field of lines of other
names, so are the lines of all names but `k`. -/
def Kept (k : Str) : (ty : RTy) → ty.den → ty.den → Prop
  | .lines, m, m' => ∀ n, n ≠ k → SMap.get? m n = SMap.get? m' n
  | _, a, b => a = b

/-- Every field is kept, apart from that of the property `k`. -/
def AllButProperty {σ : Type} (members : List (Member σ)) (k : Str) (v w : σ) : Prop :=
  ∀ m ∈ members, propertyOf m.name ≠ k → Kept k m.ty (m.get v) (m.get w)

/-- None of the fields is of the property `k`: its lines are kept among those of other names. -/
def Unknown {σ : Type} (members : List (Member σ)) (k : Str) : Prop := ∀ m ∈ members, m.ty ≠ .lines → propertyOf m.name ≠ k

/-- Every field is the same, apart from those of the names. -/
def AllButFields {σ : Type} (members : List (Member σ)) (names : List Str) (v w : σ) : Prop :=
  ∀ m ∈ members, m.name ∉ names → m.get v = m.get w

/-- Two alarms of the same kind of which every field is kept, apart from that of the property `k`. -/
def AlarmAllBut (k : Str) : VAlarm → VAlarm → Prop
  | .audio a, .audio b => AllButProperty Audio.members k a b
  | .display a, .display b => AllButProperty Display.members k a b
  | .email a, .email b => AllButProperty Email.members k a b
  | _, _ => False

/-- Two lists differ in one place at most: a piece of the one is in the other another piece, and these are of `R` and of `R'`. -/
def OnePlace {α : Type} (R R' : List α → Prop) (as bs : List α) : Prop :=
  ∃ x p p' y, as = x ++ p ++ y ∧ bs = x ++ p' ++ y ∧ R p ∧ R' p'

end

end Ikal.Spec.Edit
