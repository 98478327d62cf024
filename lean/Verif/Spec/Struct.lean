import Verif.Spec.Generate
import Verif.Spec.Parse

/-!
# Specification: a struct with `#[derive(Component)]`, whatever its fields

`ds` is the declaration as it is written, `ms` gives access to the fields of the struct, `default` is its `Default`.
-/

namespace Ikal.Spec

variable [Platform] {σ : Type}

/-- A field that can be absent is absent, a list or map is empty. -/
def Blank : Member σ → σ → Prop
  | ⟨_, .option _, get, _⟩, v => get v = none
  | ⟨_, .vec _, get, _⟩, v => get v = []
  | ⟨_, .lines, get, _⟩, v => get v = []
  | _, _ => True

/-- `ms` are the fields of the struct that is declared by `ds`: they have its names, setting one changes that one only, a value is given by its fields, and the default value has
nothing in it. -/
structure StructOf (ds : List FieldDecl) (ms : List (Member σ)) (default : σ) : Prop where
  names : ms.map (·.name) = ds.map (·.ident)
  same : ∀ m ∈ ms, ∀ x v, m.get (m.set x v) = x
  other : ∀ m ∈ ms, ∀ n ∈ ms, m.name ≠ n.name → ∀ x v, n.get (m.set x v) = n.get v
  ext : ∀ v w, (∀ m ∈ ms, m.get v = m.get w) → v = w
  blank : ∀ m ∈ ms, Blank m default

/-- What a field holds after the lines `ls` have been read, by how its type is written: the value of the last line of its property, the value of the last line if there is one, the
values of all lines, or all the values of all lines. -/
def FieldHolds (d : FieldDecl) (ls : List ContentLine) (v : σ) (m : Member σ) : Prop :=
  match kind d, m with
  | .required, ⟨_, t, get, _⟩ => ∃ p, parserOf d.ident = some ⟨t, p⟩ ∧ IsReq ls (kebab d.ident) p (get v)
  | .optional, ⟨_, .option t, get, _⟩ => ∃ p, parserOf d.ident = some ⟨t, p⟩ ∧ IsOpt ls (kebab d.ident) p (get v)
  | .repeated, ⟨_, .vec t, get, _⟩ => ∃ p, parserOf d.ident = some ⟨t, p⟩ ∧ IsPush ls (kebab d.ident) p (get v)
  | .flattened, ⟨_, .vec t, get, _⟩ => ∃ p, parserOf d.ident = some ⟨.vec t, p⟩ ∧ IsAppend ls (kebab d.ident) p (get v)
  | _, _ => False

/-- The names of the properties that have a field of their own. -/
def properties (ds : List FieldDecl) : List Str := (ds.filter fun d => !d.ignore).map fun d => kebab d.ident

/-- A field for lines without a field of their own holds those whose names satisfy `sel`. -/
def LinesHold (ds : List FieldDecl) (sel : Str → Prop) (ls : List ContentLine) (v : σ) : Member σ → Prop
  | ⟨_, .lines, get, _⟩ => IsExt (properties ds) sel ls (get v)
  | _ => False

/-- What a value of the struct holds after the lines `ls` have been read. -/
structure StructFrom (ds : List FieldDecl) (ms : List (Member σ)) (default : σ) (ls : List ContentLine) (v : σ) : Prop where
  field : ∀ d ∈ ds, d.ignore = false → ∀ m ∈ ms, m.name = d.ident → FieldHolds d ls v m
  xProp : ∀ m ∈ ms, m.name = c!"x_prop" → LinesHold ds IsX ls v m
  ianaProp : ∀ m ∈ ms, m.name = c!"iana_prop" → LinesHold ds (fun k => ¬ IsX k) ls v m
  rest : ∀ d ∈ ds, d.ignore = true → d.ident ≠ c!"x_prop" → d.ident ≠ c!"iana_prop" → ∀ m ∈ ms, m.name = d.ident → m.get v = m.get default

/-- How a `Vec` is written: a single value on a line of its own; otherwise one line for each value if the values have parameters, and all on one line if not. -/
def VecWritten {α : Type} (s : Ser α) (n : Str) (xs : List α) (t : Str) : Prop :=
  (∃ x, xs = [x] ∧ @Ikal.field _ s n x = .ok t) ∨
    (xs.length ≠ 1 ∧ (@Ser.attr _ (@instSerList _ s) xs) = none ∧ @Ikal.field _ (@instSerList _ s) n xs = .ok t) ∨
    (xs.length ≠ 1 ∧ (@Ser.attr _ (@instSerList _ s) xs) ≠ none ∧ ∃ ts : List Str, xs.map (@Ikal.field _ s n) = ts.map .ok ∧ t = ts.flatten)

/-- How a field is written, by how its type is written. -/
def FieldWritten (d : FieldDecl) (v : σ) (t : Str) (m : Member σ) : Prop :=
  match kind d, m with
  | .repeated, ⟨_, .vec e, get, _⟩ => ∃ s, serOf e = some s ∧ VecWritten s (kebab d.ident) (get v) t
  | .flattened, ⟨_, .vec e, get, _⟩ => ∃ s, serOf e = some s ∧ VecWritten s (kebab d.ident) (get v) t
  | .repeated, _ => False
  | .flattened, _ => False
  | _, m => ∃ s, serOf m.ty = some s ∧ @Ikal.field _ s (kebab d.ident) (m.get v) = .ok t

end Ikal.Spec
