import Verif.Macros

/-!
# The derive macros as generators of code

`Verif/Derive.lean` models what the code generated by `#[derive(Component)]` does, for tables of fields that were made by hand.  Here is the macro itself
(`derive/src/component.rs`, `derive/src/serialize.rs`, `derive/src/lib.rs:47-67`): from the declaration of a struct, as it is written in the source, it makes
code, which then is given a meaning for the fields that the declaration has.
-/

namespace Ikal

/-- A type as it is written: a path of names with arguments (`syn::Type::Path`), or anything else. -/
inductive RustType where
  | path (segments : List Str) (args : List RustType)
  | other

/-- `tyname` (`derive/src/lib.rs:55-67`): the path without its arguments. -/
def RustType.tyname : RustType → Str
  | .path segs _ => join c!"::" segs
  | .other => []

/-- `is_option` (`derive/src/lib.rs:47-49`). -/
def RustType.isOption (t : RustType) : Bool := t.tyname = c!"Option"

/-- `is_vec` (`derive/src/lib.rs:51-53`). -/
def RustType.isVec (t : RustType) : Bool := t.tyname = c!"Vec"

/-- A named field of a struct with the attributes `#[component(append)]` and `#[component(ignore)]` (`derive/src/component.rs:4-11`). -/
structure FieldDecl where
  ident : Str
  ty : RustType
  append : Bool
  ignore : Bool

/-- What the arm of a property does with the field (`derive/src/component.rs:70-91`). -/
inductive ArmAction where
  | setSome
  | append
  | push
  | unit
  deriving DecidableEq, Repr

/-- The code that the macro makes (`derive/src/component.rs:27-98`): `new` are the fields of the struct literal with their properties (lines 80-88), `arms` the arms of the
match with property, field and action (lines 92-96), `sers` the statements of `ical` with field, property and whether it is the one for a `Vec` (lines 45-62). -/
structure Code where
  new : List (Str × Str)
  arms : List (Str × Str × ArmAction)
  sers : List (Str × Str × Bool)
  deriving DecidableEq

section
variable [Platform]

/-- The name of the property of a field (`derive/src/component.rs:38-43`, `derive/src/serialize.rs:16-20`). -/
def propertyName (ident : Str) : Str := replaceChar '_' ['-'] (upperStr ident)

/-- What the arm of a field does (`derive/src/component.rs:70-91`). -/
def FieldDecl.action (d : FieldDecl) : ArmAction :=
  if d.ty.isOption then .setSome else if d.ty.isVec then (if d.append then .append else .push) else .unit

/-- `impl_macro` (`derive/src/component.rs:13-98`), the loop over the fields. -/
def generate : List FieldDecl → Code
  | [] => ⟨[], [], []⟩
  | d :: ds =>
    let c := generate ds
    let sers := (d.ident, propertyName d.ident, d.ty.isVec) :: c.sers
    if d.ignore then ⟨c.new, c.arms, sers⟩
    else ⟨if d.ty.isOption ∨ d.ty.isVec then c.new else (d.ident, propertyName d.ident) :: c.new,
      (propertyName d.ident, d.ident, d.action) :: c.arms, sers⟩

/-- `component()` of the generated `Serialize` (`derive/src/component.rs:159-161`). -/
def componentName (struct : Str) : Str := upperStr struct

end

/-! ## The meaning of the code -/

section
variable [Platform]

/-- The functions `crate::parser::<field>` with the types of their results (`src/parser/{alarm,change,datetime,descriptive,misc,properties,recurrence,relationship,timezone}.rs`). -/
def parserOf (field : Str) : Option ((t : RTy) × (ContentLine → Res t.den)) :=
  ([ (c!"action", ⟨.text, textProp⟩), (c!"repeat", ⟨.u32, u32Prop⟩), (c!"trigger", ⟨.trigger, trigger⟩),
     (c!"created", ⟨.dateTime, dateTimeProp⟩), (c!"dtstamp", ⟨.dateTime, dateTimeProp⟩), (c!"last_modified", ⟨.dateTime, dateTimeProp⟩),
     (c!"sequence", ⟨.u32, u32Prop⟩),
     (c!"completed", ⟨.dateTime, dateTimeProp⟩), (c!"dtend", ⟨.date, dateProp⟩), (c!"due", ⟨.date, dateProp⟩), (c!"dtstart", ⟨.date, dateProp⟩),
     (c!"duration", ⟨.duration, duration⟩), (c!"freebusy", ⟨.vec .period, freebusy⟩), (c!"transp", ⟨.transp, transp⟩),
     (c!"attach", ⟨.text, textProp⟩), (c!"categories", ⟨.vec .text, textListProp⟩), (c!"class", ⟨.class_, classProp⟩), (c!"comment", ⟨.text, textProp⟩),
     (c!"description", ⟨.text, textProp⟩), (c!"geo", ⟨.geo, geo⟩), (c!"location", ⟨.text, textProp⟩), (c!"percent_complete", ⟨.u8, percentComplete⟩),
     (c!"priority", ⟨.u8, priority⟩), (c!"resources", ⟨.vec .text, textListProp⟩), (c!"status", ⟨.status, status⟩), (c!"summary", ⟨.text, textProp⟩),
     (c!"rstatus", ⟨.rstatus, rstatus⟩),
     (c!"calscale", ⟨.text, textProp⟩), (c!"method", ⟨.text, textProp⟩), (c!"prodid", ⟨.text, textProp⟩), (c!"version", ⟨.text, textProp⟩),
     (c!"exdate", ⟨.vec .date, exdate⟩), (c!"rdate", ⟨.rdate, rdate⟩), (c!"rrule", ⟨.recur, rrule⟩),
     (c!"attendee", ⟨.uri, uriProp⟩), (c!"contact", ⟨.text, textProp⟩), (c!"organizer", ⟨.uri, uriProp⟩), (c!"recurid", ⟨.date, dateProp⟩),
     (c!"related_to", ⟨.text, textProp⟩), (c!"url", ⟨.uri, uriProp⟩), (c!"uid", ⟨.text, textProp⟩),
     (c!"tzid", ⟨.text, textProp⟩), (c!"tzname", ⟨.text, textProp⟩), (c!"tzoffsetfrom", ⟨.offset, offsetProp⟩), (c!"tzoffsetto", ⟨.offset, offsetProp⟩),
     (c!"tzurl", ⟨.uri, uriProp⟩) ] : List (Str × ((t : RTy) × (ContentLine → Res t.den)))).lookup field

/-- `impl Serialize` of the type (`src/ser.rs`, `src/properties/*.rs`, `src/components/*.rs`); there is none for floats. -/
def serOf : (t : RTy) → Option (Ser t.den)
  | .str => some (inferInstanceAs (Ser Str)) | .text => some (inferInstanceAs (Ser Text)) | .uri => some (inferInstanceAs (Ser Uri))
  | .date => some (inferInstanceAs (Ser Date)) | .dateTime => some (inferInstanceAs (Ser DateTime))
  | .duration => some (inferInstanceAs (Ser TimeDelta)) | .trigger => some (inferInstanceAs (Ser Trigger))
  | .offset => some (inferInstanceAs (Ser FixedOffset)) | .u8 => some (inferInstanceAs (Ser Nat)) | .u32 => some (inferInstanceAs (Ser Nat))
  | .i8 => some (inferInstanceAs (Ser Int)) | .f32 => none
  | .class_ => some (inferInstanceAs (Ser Class)) | .status => some (inferInstanceAs (Ser Status))
  | .transp => some (inferInstanceAs (Ser TimeTransparency)) | .freq => some (inferInstanceAs (Ser Freq))
  | .weekday => some (inferInstanceAs (Ser Weekday)) | .weekdayNum => some (inferInstanceAs (Ser WeekdayNum))
  | .geo => some (inferInstanceAs (Ser Geo)) | .recur => some (inferInstanceAs (Ser Recur)) | .rstatus => some (inferInstanceAs (Ser RequestStatus))
  | .rdate => some (inferInstanceAs (Ser RDate)) | .period => some (inferInstanceAs (Ser Period)) | .lines => some Comp.extSer
  | .audio => some (inferInstanceAs (Ser Audio)) | .display => some (inferInstanceAs (Ser Display)) | .email => some (inferInstanceAs (Ser Email))
  | .alarm => some (inferInstanceAs (Ser VAlarm)) | .standard => some (inferInstanceAs (Ser Standard)) | .daylight => some (inferInstanceAs (Ser Daylight))
  | .event => some (inferInstanceAs (Ser VEvent)) | .freebusy => some (inferInstanceAs (Ser VFreebusy)) | .journal => some (inferInstanceAs (Ser VJournal))
  | .timezone => some (inferInstanceAs (Ser VTimezone)) | .todo => some (inferInstanceAs (Ser VTodo)) | .calendar => some (inferInstanceAs (Ser VCalendar))
  | .option t => (serOf t).map fun s => @instSerOption _ s
  | .vec t => (serOf t).map fun s => @instSerList _ s

/-- A value of a type as a value of an equal type. -/
def RTy.coe {s t : RTy} (h : s = t) (x : s.den) : t.den := h ▸ x

variable {σ : Type}

/-- The field with a name. -/
def memberOf (ms : List (Member σ)) (ident : Str) : Option (Member σ) := ms.find? fun m => m.name = ident

/-- A field of the struct literal (`derive/src/component.rs:80-86`): the last line with the name, parsed.  `none` of this and the following functions is code that does not
compile. -/
def newItem (ms : List (Member σ)) (i : Str × Str) : Option (List ContentLine → σ → Res σ) := do
  let m ← memberOf ms i.1
  let q ← parserOf i.1
  if h : q.1 = m.ty then
    some fun ls v =>
      match Field.lastLine i.2 ls with
      | some l => (q.2 l).map fun x => m.set (RTy.coe h x) v
      | none => .err .parser
  else none

/-- An arm (`derive/src/component.rs:70-91`). -/
def armItem (ms : List (Member σ)) (a : Str × Str × ArmAction) : Option (Str × (ContentLine → σ → Res σ)) := do
  let m ← memberOf ms a.2.1
  match a.2.2, m with
  | .unit, _ => some (a.1, fun _ v => .ok v)
  | .setSome, ⟨_, .option t, _, set⟩ => do
    let q ← parserOf a.2.1
    if h : q.1 = t then some (a.1, fun l v => (q.2 l).map fun x => set (some (RTy.coe h x)) v) else none
  | .push, ⟨_, .vec t, get, set⟩ => do
    let q ← parserOf a.2.1
    if h : q.1 = t then some (a.1, fun l v => (q.2 l).map fun x => set (get v ++ [RTy.coe h x]) v) else none
  | .append, ⟨_, .vec t, get, set⟩ => do
    let q ← parserOf a.2.1
    if h : q.1 = .vec t then some (a.1, fun l v => (q.2 l).map fun x => set (get v ++ RTy.coe h x) v) else none
  | _, _ => none

/-- A statement of `ical` (`derive/src/component.rs:45-62`). -/
def serItem (ms : List (Member σ)) (i : Str × Str × Bool) : Option (σ → Res Str) := do
  match i.2.2, ← memberOf ms i.1 with
  | true, ⟨_, .vec t, get, _⟩ => (serOf t).map fun s v => @Field.serVec _ s i.2.1 (get v)
  | true, _ => none
  | false, m => (serOf m.ty).map fun s v => @field _ s i.2.1 (m.get v)

/-- The compiled code. -/
structure Program (σ : Type) where
  default : σ
  new : List (List ContentLine → σ → Res σ)
  arms : List (Str × (ContentLine → σ → Res σ))
  x : ContentLine → σ → σ
  iana : ContentLine → σ → σ
  sers : List (σ → Res Str)

/-- `component.<field>.insert(key, content_line)` (`derive/src/component.rs:115-119`). -/
def insertLine : Member σ → Option (ContentLine → σ → σ)
  | ⟨_, .lines, get, set⟩ => some fun l v => set (SMap.insert (get v) l.key l) v
  | _ => none

/-- Compile the code for a struct with the fields and the default value. -/
def Code.compile (c : Code) (ms : List (Member σ)) (default : σ) : Option (Program σ) := do
  let new ← c.new.mapM (newItem ms)
  let arms ← c.arms.mapM (armItem ms)
  let x ← (memberOf ms c!"x_prop").bind insertLine
  let iana ← (memberOf ms c!"iana_prop").bind insertLine
  let sers ← c.sers.mapM (serItem ms)
  some ⟨default, new, arms, x, iana, sers⟩

namespace Program

/-- The struct literal (`derive/src/component.rs:106-109`). -/
def init : List (List ContentLine → σ → Res σ) → List ContentLine → σ → Res σ
  | [], _, v => .ok v
  | f :: fs, ls, v => do init fs ls (← f ls v)

/-- The first arm for the key; `none` if there is none. -/
def match_ : List (Str × (ContentLine → σ → Res σ)) → ContentLine → σ → Res (Option σ)
  | [], _, _ => .ok none
  | a :: as, l, v => if l.key = a.1 then (a.2 l v).map some else match_ as l v

/-- One round of the loop (`derive/src/component.rs:111-122`). -/
def step (p : Program σ) (v : σ) (l : ContentLine) : Res σ := do
  match ← match_ p.arms l v with
  | some v => pure v
  | none => if (stripPrefix c!"X-" l.key).isSome then pure (p.x l v) else pure (p.iana l v)

/-- The loop over the lines. -/
def loop (p : Program σ) : σ → List ContentLine → Res σ
  | v, [] => .ok v
  | v, l :: ls => do loop p (← p.step v l) ls

/-- `TryFrom<Vec<ContentLine>>` (`derive/src/component.rs:102-126`). -/
def tryFrom (p : Program σ) (ls : List ContentLine) : Res σ := do p.loop (← init p.new ls p.default) ls

/-- The statements of `ical`, one after the other. -/
def body : List (σ → Res Str) → σ → Res Str
  | [], _ => .ok []
  | f :: fs, v => do
    let a ← f v
    let b ← body fs v
    pure (a ++ b)

/-- `ical` (`derive/src/component.rs:163-176`). -/
def ical (p : Program σ) (name : Str) (v : σ) : Res Str := do
  let b ← body p.sers v
  pure (c!"BEGIN:" ++ name ++ c!"\r\n" ++ b ++ c!"END:" ++ name ++ c!"\r\n")

end Program

end

/-! ## The declarations -/

/-- What the compiler takes a written type for, in `src/components` and `src/properties`. -/
def RustType.resolve : RustType → Option RTy
  | .path [a] [] =>
    if a = c!"String" then some .str else if a = c!"u8" then some .u8 else if a = c!"u32" then some .u32 else if a = c!"i8" then some .i8
    else if a = c!"f32" then some .f32 else if a = c!"Freq" then some .freq else if a = c!"Weekday" then some .weekday
    else if a = c!"WeekdayNum" then some .weekdayNum else if a = c!"Standard" then some .standard else if a = c!"Daylight" then some .daylight else none
  | .path [m, a] [] =>
    if m = c!"chrono" then (if a = c!"Duration" then some .duration else none)
    else if m ≠ c!"crate" then none
    else if a = c!"Text" then some .text else if a = c!"Uri" then some .uri else if a = c!"Date" then some .date else if a = c!"DateTime" then some .dateTime
    else if a = c!"Trigger" then some .trigger else if a = c!"Class" then some .class_ else if a = c!"Status" then some .status
    else if a = c!"TimeTransparency" then some .transp else if a = c!"Geo" then some .geo else if a = c!"Recur" then some .recur
    else if a = c!"RequestStatus" then some .rstatus else if a = c!"RDate" then some .rdate else if a = c!"Period" then some .period
    else if a = c!"VAlarm" then some .alarm else if a = c!"VEvent" then some .event else if a = c!"VFreebusy" then some .freebusy
    else if a = c!"VJournal" then some .journal else if a = c!"VTimezone" then some .timezone else if a = c!"VTodo" then some .todo else none
  | .path [a, b, c] [] => if a = c!"chrono" ∧ b = c!"offset" ∧ c = c!"FixedOffset" then some .offset else none
  | .path [a] [t] => if a = c!"Option" then t.resolve.map .option else if a = c!"Vec" then t.resolve.map .vec else none
  | .path segs [.path [k] [], .path [m, v] []] =>
    if (segs = [c!"BTreeMap"] ∨ segs = [c!"std", c!"collections", c!"BTreeMap"]) ∧ k = c!"String" ∧ m = c!"crate" ∧ v = c!"ContentLine" then some .lines else none
  | _ => none

/-- The declaration of `Audio` (`src/components/valarm.rs:74-84`). -/
def Audio.declaration : List FieldDecl := [
  ⟨c!"action", .path [c!"crate", c!"Text"] [], false, false⟩,
  ⟨c!"trigger", .path [c!"crate", c!"Trigger"] [], false, false⟩,
  ⟨c!"duration", .path [c!"Option"] [.path [c!"chrono", c!"Duration"] []], false, false⟩,
  ⟨c!"repeat", .path [c!"Option"] [.path [c!"u32"] []], false, false⟩,
  ⟨c!"attach", .path [c!"Vec"] [.path [c!"crate", c!"Text"] []], false, false⟩,
  ⟨c!"x_prop", .path [c!"std", c!"collections", c!"BTreeMap"] [.path [c!"String"] [], .path [c!"crate", c!"ContentLine"] []], false, true⟩,
  ⟨c!"iana_prop", .path [c!"std", c!"collections", c!"BTreeMap"] [.path [c!"String"] [], .path [c!"crate", c!"ContentLine"] []], false, true⟩]

/-- The declaration of `Display` (`src/components/valarm.rs:102-112`). -/
def Display.declaration : List FieldDecl := [
  ⟨c!"action", .path [c!"crate", c!"Text"] [], false, false⟩,
  ⟨c!"trigger", .path [c!"crate", c!"Trigger"] [], false, false⟩,
  ⟨c!"description", .path [c!"crate", c!"Text"] [], false, false⟩,
  ⟨c!"duration", .path [c!"Option"] [.path [c!"chrono", c!"Duration"] []], false, false⟩,
  ⟨c!"repeat", .path [c!"Option"] [.path [c!"u32"] []], false, false⟩,
  ⟨c!"x_prop", .path [c!"std", c!"collections", c!"BTreeMap"] [.path [c!"String"] [], .path [c!"crate", c!"ContentLine"] []], false, true⟩,
  ⟨c!"iana_prop", .path [c!"std", c!"collections", c!"BTreeMap"] [.path [c!"String"] [], .path [c!"crate", c!"ContentLine"] []], false, true⟩]

/-- The declaration of `Email` (`src/components/valarm.rs:130-143`). -/
def Email.declaration : List FieldDecl := [
  ⟨c!"action", .path [c!"crate", c!"Text"] [], false, false⟩,
  ⟨c!"trigger", .path [c!"crate", c!"Trigger"] [], false, false⟩,
  ⟨c!"description", .path [c!"crate", c!"Text"] [], false, false⟩,
  ⟨c!"summary", .path [c!"crate", c!"Text"] [], false, false⟩,
  ⟨c!"attendee", .path [c!"Vec"] [.path [c!"crate", c!"Uri"] []], false, false⟩,
  ⟨c!"duration", .path [c!"Option"] [.path [c!"chrono", c!"Duration"] []], false, false⟩,
  ⟨c!"repeat", .path [c!"Option"] [.path [c!"u32"] []], false, false⟩,
  ⟨c!"attach", .path [c!"Vec"] [.path [c!"crate", c!"Text"] []], false, false⟩,
  ⟨c!"x_prop", .path [c!"std", c!"collections", c!"BTreeMap"] [.path [c!"String"] [], .path [c!"crate", c!"ContentLine"] []], false, true⟩,
  ⟨c!"iana_prop", .path [c!"std", c!"collections", c!"BTreeMap"] [.path [c!"String"] [], .path [c!"crate", c!"ContentLine"] []], false, true⟩]

/-- The declaration of `VCalendar` (`src/components/vcalendar.rs:5-26`). -/
def VCalendar.declaration : List FieldDecl := [
  ⟨c!"prodid", .path [c!"crate", c!"Text"] [], false, false⟩,
  ⟨c!"version", .path [c!"crate", c!"Text"] [], false, false⟩,
  ⟨c!"calscale", .path [c!"Option"] [.path [c!"crate", c!"Text"] []], false, false⟩,
  ⟨c!"method", .path [c!"Option"] [.path [c!"crate", c!"Text"] []], false, false⟩,
  ⟨c!"alarms", .path [c!"Vec"] [.path [c!"crate", c!"VAlarm"] []], false, true⟩,
  ⟨c!"events", .path [c!"Vec"] [.path [c!"crate", c!"VEvent"] []], false, true⟩,
  ⟨c!"freebusy", .path [c!"Vec"] [.path [c!"crate", c!"VFreebusy"] []], false, true⟩,
  ⟨c!"journals", .path [c!"Vec"] [.path [c!"crate", c!"VJournal"] []], false, true⟩,
  ⟨c!"todo", .path [c!"Vec"] [.path [c!"crate", c!"VTodo"] []], false, true⟩,
  ⟨c!"timezones", .path [c!"Vec"] [.path [c!"crate", c!"VTimezone"] []], false, true⟩,
  ⟨c!"x_prop", .path [c!"std", c!"collections", c!"BTreeMap"] [.path [c!"String"] [], .path [c!"crate", c!"ContentLine"] []], false, true⟩,
  ⟨c!"iana_prop", .path [c!"std", c!"collections", c!"BTreeMap"] [.path [c!"String"] [], .path [c!"crate", c!"ContentLine"] []], false, true⟩]

/-- The declaration of `VEvent` (`src/components/vevent.rs:5-45`). -/
def VEvent.declaration : List FieldDecl := [
  ⟨c!"dtstamp", .path [c!"crate", c!"DateTime"] [], false, false⟩,
  ⟨c!"uid", .path [c!"crate", c!"Text"] [], false, false⟩,
  ⟨c!"dtstart", .path [c!"crate", c!"Date"] [], false, false⟩,
  ⟨c!"class", .path [c!"Option"] [.path [c!"crate", c!"Class"] []], false, false⟩,
  ⟨c!"created", .path [c!"Option"] [.path [c!"crate", c!"DateTime"] []], false, false⟩,
  ⟨c!"description", .path [c!"Option"] [.path [c!"crate", c!"Text"] []], false, false⟩,
  ⟨c!"geo", .path [c!"Option"] [.path [c!"crate", c!"Geo"] []], false, false⟩,
  ⟨c!"last_modified", .path [c!"Option"] [.path [c!"crate", c!"DateTime"] []], false, false⟩,
  ⟨c!"location", .path [c!"Option"] [.path [c!"crate", c!"Text"] []], false, false⟩,
  ⟨c!"organizer", .path [c!"Option"] [.path [c!"crate", c!"Uri"] []], false, false⟩,
  ⟨c!"priority", .path [c!"Option"] [.path [c!"u8"] []], false, false⟩,
  ⟨c!"sequence", .path [c!"Option"] [.path [c!"u32"] []], false, false⟩,
  ⟨c!"status", .path [c!"Option"] [.path [c!"crate", c!"Status"] []], false, false⟩,
  ⟨c!"summary", .path [c!"Option"] [.path [c!"crate", c!"Text"] []], false, false⟩,
  ⟨c!"transp", .path [c!"Option"] [.path [c!"crate", c!"TimeTransparency"] []], false, false⟩,
  ⟨c!"url", .path [c!"Option"] [.path [c!"crate", c!"Uri"] []], false, false⟩,
  ⟨c!"recurid", .path [c!"Option"] [.path [c!"crate", c!"Date"] []], false, false⟩,
  ⟨c!"rrule", .path [c!"Option"] [.path [c!"crate", c!"Recur"] []], false, false⟩,
  ⟨c!"dtend", .path [c!"Option"] [.path [c!"crate", c!"Date"] []], false, false⟩,
  ⟨c!"duration", .path [c!"Option"] [.path [c!"chrono", c!"Duration"] []], false, false⟩,
  ⟨c!"attach", .path [c!"Vec"] [.path [c!"crate", c!"Text"] []], false, false⟩,
  ⟨c!"attendee", .path [c!"Vec"] [.path [c!"crate", c!"Uri"] []], false, false⟩,
  ⟨c!"categories", .path [c!"Vec"] [.path [c!"crate", c!"Text"] []], true, false⟩,
  ⟨c!"comment", .path [c!"Vec"] [.path [c!"crate", c!"Text"] []], false, false⟩,
  ⟨c!"contact", .path [c!"Vec"] [.path [c!"crate", c!"Text"] []], false, false⟩,
  ⟨c!"exdate", .path [c!"Vec"] [.path [c!"crate", c!"Date"] []], true, false⟩,
  ⟨c!"rstatus", .path [c!"Vec"] [.path [c!"crate", c!"RequestStatus"] []], false, false⟩,
  ⟨c!"related_to", .path [c!"Vec"] [.path [c!"crate", c!"Text"] []], false, false⟩,
  ⟨c!"resources", .path [c!"Vec"] [.path [c!"crate", c!"Text"] []], true, false⟩,
  ⟨c!"rdate", .path [c!"Vec"] [.path [c!"crate", c!"RDate"] []], false, false⟩,
  ⟨c!"alarms", .path [c!"Vec"] [.path [c!"crate", c!"VAlarm"] []], false, true⟩,
  ⟨c!"x_prop", .path [c!"std", c!"collections", c!"BTreeMap"] [.path [c!"String"] [], .path [c!"crate", c!"ContentLine"] []], false, true⟩,
  ⟨c!"iana_prop", .path [c!"std", c!"collections", c!"BTreeMap"] [.path [c!"String"] [], .path [c!"crate", c!"ContentLine"] []], false, true⟩]

/-- The declaration of `VFreebusy` (`src/components/vfreebusy.rs:5-22`). -/
def VFreebusy.declaration : List FieldDecl := [
  ⟨c!"dtstamp", .path [c!"crate", c!"DateTime"] [], false, false⟩,
  ⟨c!"uid", .path [c!"crate", c!"Text"] [], false, false⟩,
  ⟨c!"contact", .path [c!"Option"] [.path [c!"crate", c!"Text"] []], false, false⟩,
  ⟨c!"dtstart", .path [c!"Option"] [.path [c!"crate", c!"Date"] []], false, false⟩,
  ⟨c!"dtend", .path [c!"Option"] [.path [c!"crate", c!"Date"] []], false, false⟩,
  ⟨c!"organizer", .path [c!"Option"] [.path [c!"crate", c!"Uri"] []], false, false⟩,
  ⟨c!"url", .path [c!"Option"] [.path [c!"crate", c!"Uri"] []], false, false⟩,
  ⟨c!"attendee", .path [c!"Vec"] [.path [c!"crate", c!"Uri"] []], false, false⟩,
  ⟨c!"comment", .path [c!"Vec"] [.path [c!"crate", c!"Text"] []], false, false⟩,
  ⟨c!"freebusy", .path [c!"Vec"] [.path [c!"crate", c!"Period"] []], true, false⟩,
  ⟨c!"rstatus", .path [c!"Vec"] [.path [c!"crate", c!"RequestStatus"] []], false, false⟩,
  ⟨c!"x_prop", .path [c!"std", c!"collections", c!"BTreeMap"] [.path [c!"String"] [], .path [c!"crate", c!"ContentLine"] []], false, true⟩,
  ⟨c!"iana_prop", .path [c!"std", c!"collections", c!"BTreeMap"] [.path [c!"String"] [], .path [c!"crate", c!"ContentLine"] []], false, true⟩]

/-- The declaration of `VJournal` (`src/components/vjournal.rs:5-35`). -/
def VJournal.declaration : List FieldDecl := [
  ⟨c!"dtstamp", .path [c!"crate", c!"DateTime"] [], false, false⟩,
  ⟨c!"uid", .path [c!"crate", c!"Text"] [], false, false⟩,
  ⟨c!"class", .path [c!"Option"] [.path [c!"crate", c!"Class"] []], false, false⟩,
  ⟨c!"created", .path [c!"Option"] [.path [c!"crate", c!"DateTime"] []], false, false⟩,
  ⟨c!"dtstart", .path [c!"crate", c!"Date"] [], false, false⟩,
  ⟨c!"last_modified", .path [c!"Option"] [.path [c!"crate", c!"DateTime"] []], false, false⟩,
  ⟨c!"organizer", .path [c!"Option"] [.path [c!"crate", c!"Uri"] []], false, false⟩,
  ⟨c!"recurid", .path [c!"Option"] [.path [c!"crate", c!"Date"] []], false, false⟩,
  ⟨c!"sequence", .path [c!"Option"] [.path [c!"u32"] []], false, false⟩,
  ⟨c!"status", .path [c!"Option"] [.path [c!"crate", c!"Status"] []], false, false⟩,
  ⟨c!"summary", .path [c!"Option"] [.path [c!"crate", c!"Text"] []], false, false⟩,
  ⟨c!"url", .path [c!"Option"] [.path [c!"crate", c!"Uri"] []], false, false⟩,
  ⟨c!"rrule", .path [c!"Option"] [.path [c!"crate", c!"Recur"] []], false, false⟩,
  ⟨c!"attach", .path [c!"Vec"] [.path [c!"crate", c!"Text"] []], false, false⟩,
  ⟨c!"attendee", .path [c!"Vec"] [.path [c!"crate", c!"Uri"] []], false, false⟩,
  ⟨c!"categories", .path [c!"Vec"] [.path [c!"crate", c!"Text"] []], true, false⟩,
  ⟨c!"comment", .path [c!"Vec"] [.path [c!"crate", c!"Text"] []], false, false⟩,
  ⟨c!"contact", .path [c!"Vec"] [.path [c!"crate", c!"Text"] []], false, false⟩,
  ⟨c!"description", .path [c!"Vec"] [.path [c!"crate", c!"Text"] []], false, false⟩,
  ⟨c!"exdate", .path [c!"Vec"] [.path [c!"crate", c!"Date"] []], true, false⟩,
  ⟨c!"related_to", .path [c!"Vec"] [.path [c!"crate", c!"Text"] []], false, false⟩,
  ⟨c!"rdate", .path [c!"Vec"] [.path [c!"crate", c!"RDate"] []], false, false⟩,
  ⟨c!"rstatus", .path [c!"Vec"] [.path [c!"crate", c!"RequestStatus"] []], false, false⟩,
  ⟨c!"x_prop", .path [c!"std", c!"collections", c!"BTreeMap"] [.path [c!"String"] [], .path [c!"crate", c!"ContentLine"] []], false, true⟩,
  ⟨c!"iana_prop", .path [c!"std", c!"collections", c!"BTreeMap"] [.path [c!"String"] [], .path [c!"crate", c!"ContentLine"] []], false, true⟩]

/-- The declaration of `VTimezone` (`src/components/vtimezone.rs:7-19`). -/
def VTimezone.declaration : List FieldDecl := [
  ⟨c!"tzid", .path [c!"crate", c!"Text"] [], false, false⟩,
  ⟨c!"last_modified", .path [c!"Option"] [.path [c!"crate", c!"DateTime"] []], false, false⟩,
  ⟨c!"tzurl", .path [c!"Option"] [.path [c!"crate", c!"Uri"] []], false, false⟩,
  ⟨c!"standard", .path [c!"Vec"] [.path [c!"Standard"] []], false, true⟩,
  ⟨c!"daylight", .path [c!"Vec"] [.path [c!"Daylight"] []], false, true⟩,
  ⟨c!"x_prop", .path [c!"std", c!"collections", c!"BTreeMap"] [.path [c!"String"] [], .path [c!"crate", c!"ContentLine"] []], false, true⟩,
  ⟨c!"iana_prop", .path [c!"std", c!"collections", c!"BTreeMap"] [.path [c!"String"] [], .path [c!"crate", c!"ContentLine"] []], false, true⟩]

/-- The declaration of `Standard` (`src/components/vtimezone.rs:37-49`). -/
def Standard.declaration : List FieldDecl := [
  ⟨c!"dtstart", .path [c!"crate", c!"Date"] [], false, false⟩,
  ⟨c!"tzoffsetto", .path [c!"chrono", c!"offset", c!"FixedOffset"] [], false, false⟩,
  ⟨c!"tzoffsetfrom", .path [c!"chrono", c!"offset", c!"FixedOffset"] [], false, false⟩,
  ⟨c!"rrule", .path [c!"Option"] [.path [c!"crate", c!"Recur"] []], false, false⟩,
  ⟨c!"comment", .path [c!"Vec"] [.path [c!"crate", c!"Text"] []], false, false⟩,
  ⟨c!"rdate", .path [c!"Vec"] [.path [c!"crate", c!"RDate"] []], false, false⟩,
  ⟨c!"tzname", .path [c!"Vec"] [.path [c!"crate", c!"Text"] []], false, false⟩,
  ⟨c!"x_prop", .path [c!"BTreeMap"] [.path [c!"String"] [], .path [c!"crate", c!"ContentLine"] []], false, true⟩,
  ⟨c!"iana_prop", .path [c!"BTreeMap"] [.path [c!"String"] [], .path [c!"crate", c!"ContentLine"] []], false, true⟩]

/-- The declaration of `Daylight` (`src/components/vtimezone.rs:37-49`). -/
def Daylight.declaration : List FieldDecl := [
  ⟨c!"dtstart", .path [c!"crate", c!"Date"] [], false, false⟩,
  ⟨c!"tzoffsetto", .path [c!"chrono", c!"offset", c!"FixedOffset"] [], false, false⟩,
  ⟨c!"tzoffsetfrom", .path [c!"chrono", c!"offset", c!"FixedOffset"] [], false, false⟩,
  ⟨c!"rrule", .path [c!"Option"] [.path [c!"crate", c!"Recur"] []], false, false⟩,
  ⟨c!"comment", .path [c!"Vec"] [.path [c!"crate", c!"Text"] []], false, false⟩,
  ⟨c!"rdate", .path [c!"Vec"] [.path [c!"crate", c!"RDate"] []], false, false⟩,
  ⟨c!"tzname", .path [c!"Vec"] [.path [c!"crate", c!"Text"] []], false, false⟩,
  ⟨c!"x_prop", .path [c!"BTreeMap"] [.path [c!"String"] [], .path [c!"crate", c!"ContentLine"] []], false, true⟩,
  ⟨c!"iana_prop", .path [c!"BTreeMap"] [.path [c!"String"] [], .path [c!"crate", c!"ContentLine"] []], false, true⟩]

/-- The declaration of `VTodo` (`src/components/vtodo.rs:5-43`). -/
def VTodo.declaration : List FieldDecl := [
  ⟨c!"dtstamp", .path [c!"crate", c!"DateTime"] [], false, false⟩,
  ⟨c!"uid", .path [c!"crate", c!"Text"] [], false, false⟩,
  ⟨c!"class", .path [c!"Option"] [.path [c!"crate", c!"Class"] []], false, false⟩,
  ⟨c!"completed", .path [c!"Option"] [.path [c!"crate", c!"DateTime"] []], false, false⟩,
  ⟨c!"created", .path [c!"Option"] [.path [c!"crate", c!"DateTime"] []], false, false⟩,
  ⟨c!"dtstart", .path [c!"Option"] [.path [c!"crate", c!"Date"] []], false, false⟩,
  ⟨c!"geo", .path [c!"Option"] [.path [c!"crate", c!"Geo"] []], false, false⟩,
  ⟨c!"last_modified", .path [c!"Option"] [.path [c!"crate", c!"DateTime"] []], false, false⟩,
  ⟨c!"location", .path [c!"Option"] [.path [c!"crate", c!"Text"] []], false, false⟩,
  ⟨c!"organizer", .path [c!"Option"] [.path [c!"crate", c!"Uri"] []], false, false⟩,
  ⟨c!"percent_complete", .path [c!"Option"] [.path [c!"u8"] []], false, false⟩,
  ⟨c!"priority", .path [c!"Option"] [.path [c!"u8"] []], false, false⟩,
  ⟨c!"recurid", .path [c!"Option"] [.path [c!"crate", c!"Date"] []], false, false⟩,
  ⟨c!"sequence", .path [c!"Option"] [.path [c!"u32"] []], false, false⟩,
  ⟨c!"status", .path [c!"Option"] [.path [c!"crate", c!"Status"] []], false, false⟩,
  ⟨c!"summary", .path [c!"Option"] [.path [c!"crate", c!"Text"] []], false, false⟩,
  ⟨c!"url", .path [c!"Option"] [.path [c!"crate", c!"Uri"] []], false, false⟩,
  ⟨c!"rrule", .path [c!"Option"] [.path [c!"crate", c!"Recur"] []], false, false⟩,
  ⟨c!"due", .path [c!"Option"] [.path [c!"crate", c!"Date"] []], false, false⟩,
  ⟨c!"duration", .path [c!"Option"] [.path [c!"chrono", c!"Duration"] []], false, false⟩,
  ⟨c!"attach", .path [c!"Vec"] [.path [c!"crate", c!"Text"] []], false, false⟩,
  ⟨c!"attendee", .path [c!"Vec"] [.path [c!"crate", c!"Uri"] []], false, false⟩,
  ⟨c!"categories", .path [c!"Vec"] [.path [c!"crate", c!"Text"] []], true, false⟩,
  ⟨c!"comment", .path [c!"Vec"] [.path [c!"crate", c!"Text"] []], false, false⟩,
  ⟨c!"contact", .path [c!"Vec"] [.path [c!"crate", c!"Text"] []], false, false⟩,
  ⟨c!"exdate", .path [c!"Vec"] [.path [c!"crate", c!"Date"] []], true, false⟩,
  ⟨c!"rstatus", .path [c!"Vec"] [.path [c!"crate", c!"RequestStatus"] []], false, false⟩,
  ⟨c!"related_to", .path [c!"Vec"] [.path [c!"crate", c!"Text"] []], false, false⟩,
  ⟨c!"resources", .path [c!"Vec"] [.path [c!"crate", c!"Text"] []], true, false⟩,
  ⟨c!"rdate", .path [c!"Vec"] [.path [c!"crate", c!"RDate"] []], false, false⟩,
  ⟨c!"x_prop", .path [c!"std", c!"collections", c!"BTreeMap"] [.path [c!"String"] [], .path [c!"crate", c!"ContentLine"] []], false, true⟩,
  ⟨c!"iana_prop", .path [c!"std", c!"collections", c!"BTreeMap"] [.path [c!"String"] [], .path [c!"crate", c!"ContentLine"] []], false, true⟩]

/-! ## `#[derive(Serialize)]` (`derive/src/serialize.rs`), used for `Recur` -/

/-- A field with its type as written and its attribute `#[serialize(rename = "..")]` (`derive/src/serialize.rs:3-7`). -/
structure RenamedField where
  ident : Str
  ty : RustType
  rename : Option Str

section
variable [Platform] {σ : Type}

/-- `Field::name` (`derive/src/serialize.rs:10-21`). -/
def RenamedField.name (d : RenamedField) : Str := d.rename.getD (propertyName d.ident)

/-- A statement of the generated `ical` (`derive/src/serialize.rs:45-50`). -/
def renamedItem (ms : List (Member σ)) (d : RenamedField) : Option (σ → Res Str) := do
  let m ← memberOf ms d.ident
  (serOf m.ty).map fun s v => (@Ser.ical _ s (m.get v)).map fun x => if x.isEmpty then [] else d.name ++ '=' :: (x ++ [';'])

/-- The generated `ical` (`derive/src/serialize.rs:58-65`): the last character is popped. -/
def serializeCode (ds : List RenamedField) (ms : List (Member σ)) : Option (σ → Res Str) := do
  let items ← ds.mapM (renamedItem ms)
  some fun v => (Program.body items v).map List.dropLast

end

/-- The declaration of `Recur` (`src/properties/recur.rs:7-31`). -/
def Recur.declaration : List RenamedField := [
  ⟨c!"freq", .path [c!"Freq"] [], none⟩,
  ⟨c!"until", .path [c!"Option"] [.path [c!"crate", c!"Date"] []], none⟩,
  ⟨c!"count", .path [c!"Option"] [.path [c!"u8"] []], none⟩,
  ⟨c!"interval", .path [c!"u8"] [], none⟩,
  ⟨c!"by_second", .path [c!"Vec"] [.path [c!"i8"] []], some c!"BYSECOND"⟩,
  ⟨c!"by_minute", .path [c!"Vec"] [.path [c!"i8"] []], some c!"BYMINUTE"⟩,
  ⟨c!"by_hour", .path [c!"Vec"] [.path [c!"i8"] []], some c!"BYHOUR"⟩,
  ⟨c!"by_day", .path [c!"Vec"] [.path [c!"WeekdayNum"] []], some c!"BYDAY"⟩,
  ⟨c!"by_monthday", .path [c!"Vec"] [.path [c!"i8"] []], some c!"BYMONTHDAY"⟩,
  ⟨c!"by_yearday", .path [c!"Vec"] [.path [c!"i8"] []], some c!"BYYEARDAY"⟩,
  ⟨c!"by_weekno", .path [c!"Vec"] [.path [c!"i8"] []], some c!"BYWEEKNO"⟩,
  ⟨c!"by_month", .path [c!"Vec"] [.path [c!"i8"] []], some c!"BYMONTH"⟩,
  ⟨c!"by_setpos", .path [c!"Vec"] [.path [c!"i8"] []], some c!"BYSETPOS"⟩,
  ⟨c!"wkst", .path [c!"Option"] [.path [c!"Weekday"] []], none⟩]

end Ikal
