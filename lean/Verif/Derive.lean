import Verif.Values

/-!
# `#[derive(Component)]` (`derive/src/component.rs`)

The derive macro is modelled as a function of the table of fields of the struct.  The two fields
`x_prop` and `iana_prop`, which every component has, in this order, after all others, are kept apart.
-/

namespace Ikal

/-- A field of a component struct, in the classification of `derive/src/component.rs:45-97`; `name` is
the upper-cased field name with `_` replaced by `-` (`derive/src/component.rs:38-43`), `parse` is
`crate::parser::<field>`.

* `req`: neither `Option` nor `Vec`, `opt`: `Option<T>`, `push`: `Vec<T>`,
* `append`: `Vec<T>` with `#[component(append)]`, `nested`: `Vec<T>` with `#[component(ignore)]`. -/
inductive Field : Type 1 where
  | req (name : Str) (α : Type) (ser : Ser α) (parse : ContentLine → Res α)
  | opt (name : Str) (α : Type) (ser : Ser α) (parse : ContentLine → Res α)
  | push (name : Str) (α : Type) (ser : Ser α) (parse : ContentLine → Res α)
  | append (name : Str) (α : Type) (ser : Ser α) (parse : ContentLine → Res (List α))
  | nested (name : Str) (α : Type) (ser : Ser α)

namespace Field

/-- The property name of the field. -/
@[reducible] def name : Field → Str
  | req n .. | opt n .. | push n .. | append n .. | nested n .. => n

/-- The Rust type of the field. -/
@[reducible] def T : Field → Type
  | req _ α .. => α
  | opt _ α .. => Option α
  | push _ α .. => List α
  | append _ α .. => List α
  | nested _ α .. => List α

/-- Does the field have an arm in the `match` of `TryFrom<Vec<ContentLine>>`
(`derive/src/component.rs:66-68,92-96`)? -/
def parsed : Field → Bool
  | nested .. => false
  | _ => true

/-- Serialisation of a `Vec` field (`derive/src/component.rs:45-57`). -/
def serVec {α : Type} [Ser α] (name : Str) (v : List α) : Res Str :=
  match v with
  | [x] => field name x
  | v =>
    if (Ser.attr v).isNone then field name v
    else (Res.mapM' (field name) v).map List.flatten

/-- Serialisation of a field (`derive/src/component.rs:45-62`). -/
def serField : (f : Field) → f.T → Res Str
  | req n _ s _, v => @field _ s n v
  | opt n _ s _, v => @field _ (@instSerOption _ s) n v
  | push n _ s _, v => @serVec _ s n v
  | append n _ s _, v => @serVec _ s n v
  | nested n _ s, v => @serVec _ s n v

/-- The last property line with a given name: `properties.iter().filter(..).last()`
(`derive/src/component.rs:82`). -/
def lastLine (name : Str) (ls : List ContentLine) : Option ContentLine :=
  (ls.filter fun l => l.key = name).getLast?

/-- The initial value of a field (`derive/src/component.rs:80-88,106-109`): required fields are parsed
from the last line with their name, the others have their default. -/
def initField : (f : Field) → List ContentLine → Res f.T
  | req n _ _ p, ls =>
    match lastLine n ls with
    | some l => p l
    | none => .err .parser
  | opt .., _ => .ok none
  | push .., _ => .ok []
  | append .., _ => .ok []
  | nested .., _ => .ok []

/-- The arm of a field in the loop over the lines (`derive/src/component.rs:70-90`). -/
def stepField : (f : Field) → ContentLine → f.T → Res f.T
  | req .., _, v => .ok v
  | opt _ _ _ p, l, _ => (p l).map some
  | push _ α _ p, l, v => (p l).map fun a => (show List α from v) ++ [a]
  | append _ α _ p, l, v => (p l).map fun as => (show List α from v) ++ as
  | nested .., _, v => .ok v

end Field

/-- The values of the fields of a table, as a nested product. -/
@[reducible] def Slots : List Field → Type
  | [] => Unit
  | f :: fs => f.T × Slots fs

namespace Slots

/-- The struct literal of `TryFrom<Vec<ContentLine>>` (`derive/src/component.rs:106-109`). -/
def init : (fs : List Field) → List ContentLine → Res (Slots fs)
  | [], _ => .ok ()
  | f :: fs, ls => do
    let v ← f.initField ls
    let vs ← init fs ls
    pure (v, vs)

/-- The arms of the known properties (`derive/src/component.rs:112-113`); `none` when no arm matches. -/
def step : (fs : List Field) → ContentLine → Slots fs → Res (Option (Slots fs))
  | [], _, _ => .ok none
  | f :: fs, l, (v, vs) =>
    if f.parsed ∧ l.key = f.name then (f.stepField l v).map fun v => some (v, vs)
    else (step fs l vs).map fun o => o.map fun vs => (v, vs)

/-- `#(#ser_body)*` (`derive/src/component.rs:170`). -/
def ser : (fs : List Field) → Slots fs → Res Str
  | [], _ => .ok []
  | f :: fs, (v, vs) => do
    let a ← f.serField v
    let b ← ser fs vs
    pure (a ++ b)

end Slots

/-- A component value: its fields, `x_prop` and `iana_prop`. -/
structure Comp (fs : List Field) where
  slots : Slots fs
  xProp : SMap ContentLine
  ianaProp : SMap ContentLine

namespace Comp

/-- One round of the loop over the lines (`derive/src/component.rs:111-122`). -/
def step {fs : List Field} (c : Comp fs) (l : ContentLine) : Res (Comp fs) := do
  match ← Slots.step fs l c.slots with
  | some s => pure { c with slots := s }
  | none =>
    if (stripPrefix c!"X-" l.key).isSome then pure { c with xProp := SMap.insert c.xProp l.key l }
    else pure { c with ianaProp := SMap.insert c.ianaProp l.key l }

/-- The loop over the lines (`derive/src/component.rs:111-122`). -/
def loop {fs : List Field} : Comp fs → List ContentLine → Res (Comp fs)
  | c, [] => .ok c
  | c, l :: ls => do loop (← step c l) ls

/-- `TryFrom<Vec<ContentLine>>` (`derive/src/component.rs:102-126`). -/
def tryFrom (fs : List Field) (ls : List ContentLine) : Res (Comp fs) := do
  let s ← Slots.init fs ls
  loop ⟨s, [], []⟩ ls

/-- `impl Serialize for BTreeMap<String, ContentLine>` as used for `x_prop` and `iana_prop`. -/
@[reducible] def extSer : Ser (SMap ContentLine) where ical m := SMap.ical m

/-- `impl Serialize` of a component (`derive/src/component.rs:163-176`); the fields `x_prop` and
`iana_prop` are serialised under the names `X-PROP` and `IANA-PROP`. -/
def ical {fs : List Field} (name : Str) (c : Comp fs) : Res Str := do
  let body ← Slots.ser fs c.slots
  let x ← @field _ extSer c!"X-PROP" c.xProp
  let i ← @field _ extSer c!"IANA-PROP" c.ianaProp
  pure (c!"BEGIN:" ++ name ++ c!"\r\n" ++ (body ++ x ++ i) ++ c!"END:" ++ name ++ c!"\r\n")

end Comp

end Ikal
