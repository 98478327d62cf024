import Verif.Line

/-!
# Specification: what a component parsed from property lines must hold

`ls` is the list of the property lines of the component in document order, `n` a property name and `p` the
parser of its value.
-/

namespace Ikal.Spec

/-- The lines of a property, in document order. -/
def named (n : Str) (ls : List ContentLine) : List ContentLine := ls.filter fun l => l.key = n

/-- The last line of a property. -/
def lastNamed (n : Str) (ls : List ContentLine) : Option ContentLine := (named n ls).getLast?

/-- A required property: present, and the value is that of its last line. -/
def IsReq {α : Type} (ls : List ContentLine) (n : Str) (p : ContentLine → Res α) (v : α) : Prop :=
  ∃ l, lastNamed n ls = some l ∧ p l = .ok v

/-- An optional property: all its lines are readable, the value is that of the last line and is absent if
there is none. -/
def IsOpt {α : Type} (ls : List ContentLine) (n : Str) (p : ContentLine → Res α) (v : Option α) : Prop :=
  (∀ l ∈ named n ls, ∃ a, p l = .ok a) ∧
  (lastNamed n ls = none → v = none) ∧
  (∀ l, lastNamed n ls = some l → ∃ a, p l = .ok a ∧ v = some a)

/-- A repeatable property: the values of all its lines, in order. -/
def IsPush {α : Type} (ls : List ContentLine) (n : Str) (p : ContentLine → Res α) (vs : List α) : Prop :=
  (named n ls).map p = vs.map .ok

/-- A repeatable property with several values on each line: all values of all lines, in order. -/
def IsAppend {α : Type} (ls : List ContentLine) (n : Str) (p : ContentLine → Res (List α)) (vs : List α) : Prop :=
  ∃ vss : List (List α), (named n ls).map p = vss.map .ok ∧ vs = vss.flatten

/-- The extension map of the names satisfying `sel`: for each name that is not `known` and satisfies `sel`,
its last line, and nothing else. -/
def IsExt (known : List Str) (sel : Str → Prop) (ls : List ContentLine) (m : SMap ContentLine) : Prop :=
  m.Wf ∧
  (∀ k, k ∉ known → sel k → m.get? k = lastNamed k ls) ∧
  (∀ k, k ∈ known ∨ ¬ sel k → m.get? k = none)

/-- Experimental names. -/
def IsX (k : Str) : Prop := c!"X-" <+: k

end Ikal.Spec
