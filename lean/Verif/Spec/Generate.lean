import Verif.Generate

/-!
# Specification of the generator: what a contributor who declares a field expects of it
-/

namespace Ikal.Spec

/-- An identifier in snake case. -/
def Snake (s : Str) : Prop := ∀ c ∈ s, ('a' ≤ c ∧ c ≤ 'z') ∨ ('0' ≤ c ∧ c ≤ '9') ∨ c = '_'

/-- Capitals, and hyphens for underscores. -/
def kebab (s : Str) : Str := s.map fun c => if c = '_' then '-' else if 'a' ≤ c ∧ c ≤ 'z' then Char.ofNat (c.toNat - 32) else c

/-- The four kinds of fields, by the type as it is written. -/
inductive Kind where
  | required
  | optional
  | repeated
  | flattened
  deriving DecidableEq

/-- The kind of a field: `Option<..>`, `Vec<..>`, `Vec<..>` with `append`, or anything else. -/
def kind (d : FieldDecl) : Kind :=
  match d.ty with
  | .path [s] _ => if s = c!"Option" then .optional else if s = c!"Vec" then (if d.append then .flattened else .repeated) else .required
  | _ => .required

/-- What a line does to a field of the kind. -/
def Kind.action : Kind → ArmAction
  | .required => .unit
  | .optional => .setSome
  | .repeated => .push
  | .flattened => .append

/-- A declaration that the language allows: identifiers in snake case, no two alike, the names in a written type without colons. -/
structure Declared (ds : List FieldDecl) : Prop where
  snake : ∀ d ∈ ds, Snake d.ident
  nodup : (ds.map (·.ident)).Nodup
  types : ∀ d ∈ ds, ∀ segs args, d.ty = .path segs args → segs ≠ [] ∧ ∀ s ∈ segs, ':' ∉ s

end Ikal.Spec
