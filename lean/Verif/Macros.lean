import Verif.Components

/-!
# The component macros (`derive/src/macros.rs`, `derive/src/lib.rs:26-50`, `src/lib.rs:106-118`)

`vevent! { … }` and its siblings are modelled in three steps, as in the code:

* `parseMap`, `parseValue`: the token stream is read as a list of entries (`macros.rs:35-70`, `:122-163`);
* `expandValue`, `expandMap`: the entries are expanded into a Rust expression (`macros.rs:72-217`);
* `RExpr.eval`: what the Rust compiler and the resulting program do with that expression.  `none` is a program the compiler
  rejects.

Simplifications.  An expression written by the user is a literal, a variable, an enum variant or an enum variant with one
string argument; other expressions of `syn::Expr` are not modelled.  A `f32` literal is modelled by its value.  Panics of the
procedural macro itself (unknown object field) are compile errors, as are type errors.  A string value of type `&str` or
`String` is one type.
-/

namespace Ikal

section
variable [Platform]

/-! ## Default values -/

/-- `#[derive(Default)]` on `Text` (`src/properties/text.rs:6`). -/
def Text.default : Text := ⟨[], []⟩

/-- `#[derive(Default)]` on `Audio` (`src/components/valarm.rs:73`). -/
def Audio.default : Audio :=
  ⟨Text.default, Trigger.default, none, none, [], [], []⟩

/-- `#[derive(Default)]` on `Display` (`src/components/valarm.rs:101`). -/
def Display.default : Display :=
  ⟨Text.default, Trigger.default, Text.default, none, none, [], []⟩

/-- `#[derive(Default)]` on `Email` (`src/components/valarm.rs:129`). -/
def Email.default : Email :=
  ⟨Text.default, Trigger.default, Text.default, Text.default, [], none, none, [], [], []⟩

/-- `#[derive(Default)]` on `VEvent` (`src/components/vevent.rs:4`). -/
def VEvent.default : VEvent :=
  ⟨DateTime.default, Text.default, Date.default, none, none, none, none, none, none, none, none, none, none, none, none, none, none, none, none, none, [], [], [], [], [], [], [], [], [], [], [], [], []⟩

/-- `#[derive(Default)]` on `VFreebusy` (`src/components/vfreebusy.rs:4`). -/
def VFreebusy.default : VFreebusy :=
  ⟨DateTime.default, Text.default, none, none, none, none, none, [], [], [], [], [], []⟩

/-- `#[derive(Default)]` on `VJournal` (`src/components/vjournal.rs:4`). -/
def VJournal.default : VJournal :=
  ⟨DateTime.default, Text.default, none, none, Date.default, none, none, none, none, none, none, none, none, [], [], [], [], [], [], [], [], [], [], [], []⟩

/-- `Default for Standard` (`src/components/vtimezone.rs:51-75`). -/
def Standard.default : Standard :=
  ⟨Date.default, ⟨0⟩, ⟨0⟩, none, [], [], [], [], []⟩

/-- `Default for Daylight` (`src/components/vtimezone.rs:51-75`). -/
def Daylight.default : Daylight :=
  ⟨Date.default, ⟨0⟩, ⟨0⟩, none, [], [], [], [], []⟩

/-- `#[derive(Default)]` on `VTimezone` (`src/components/vtimezone.rs:6`). -/
def VTimezone.default : VTimezone :=
  ⟨Text.default, none, none, [], [], [], []⟩

/-- `#[derive(Default)]` on `VTodo` (`src/components/vtodo.rs:4`). -/
def VTodo.default : VTodo :=
  ⟨DateTime.default, Text.default, none, none, none, none, none, none, none, none, none, none, none, none, none, none, none, none, none, none, [], [], [], [], [], [], [], [], [], [], [], []⟩

/-- `#[derive(Default)]` on `VCalendar` (`src/components/vcalendar.rs:4`). -/
def VCalendar.default : VCalendar :=
  ⟨Text.default, Text.default, none, none, [], [], [], [], [], [], [], []⟩

/-- `#[derive(Default)]` on `Geo` (`src/properties/geo.rs:4`). -/
def Geo.default : Geo := ⟨Platform.f32Default, Platform.f32Default⟩

/-- `#[derive(Default)]` on `RequestStatus` (`src/properties/request_status.rs:4`). -/
def RequestStatus.default : RequestStatus := ⟨Platform.f32Default, [], none⟩

/-- `From<&str> for Uri` (`src/properties/uri.rs:44-51`). -/
def Uri.ofStr (s : Str) : Uri := ⟨[], s⟩

/-! ## Rust types of the fields -/

end

/-- The Rust types that occur in the components (`src/components/*.rs`, `src/properties/*.rs`); `str` is `&str` and
`String`, `lines` is `BTreeMap<String, ContentLine>`. -/
inductive RTy where
  | str | text | uri | date | dateTime | duration | trigger | offset | u8 | u32 | i8 | f32
  | class_ | status | transp | freq | weekday | weekdayNum | geo | recur | rstatus | rdate | period | lines
  | audio | display | email | alarm | standard | daylight | event | freebusy | journal | timezone | todo | calendar
  | option (t : RTy)
  | vec (t : RTy)
  deriving DecidableEq, Repr

section
variable [Platform]

/-- The values of a Rust type. -/
@[reducible] def RTy.den : RTy → Type
  | .str => Str | .text => Text | .uri => Uri | .date => Date | .dateTime => DateTime | .duration => TimeDelta
  | .trigger => Trigger | .offset => FixedOffset | .u8 => Nat | .u32 => Nat | .i8 => Int | .f32 => Platform.F32
  | .class_ => Class | .status => Status | .transp => TimeTransparency | .freq => Freq | .weekday => Weekday
  | .weekdayNum => WeekdayNum | .geo => Geo | .recur => Recur | .rstatus => RequestStatus | .rdate => RDate
  | .period => Period | .lines => SMap ContentLine
  | .audio => Audio | .display => Display | .email => Email | .alarm => VAlarm | .standard => Standard
  | .daylight => Daylight | .event => VEvent | .freebusy => VFreebusy | .journal => VJournal | .timezone => VTimezone
  | .todo => VTodo | .calendar => VCalendar
  | .option t => Option t.den
  | .vec t => List t.den

/-- A field of a struct: its Rust name, its type, and access to it. -/
structure Member (σ : Type) where
  name : Str
  ty : RTy
  get : σ → ty.den
  set : ty.den → σ → σ

/-- The fields of `Audio` with their Rust names and types (`src/components/valarm.rs:73-84`). -/
def Audio.members : List (Member Audio) := [
  ⟨c!"action", .text, (·.action), fun x v => { v with action := x }⟩,
  ⟨c!"trigger", .trigger, (·.trigger), fun x v => { v with trigger := x }⟩,
  ⟨c!"duration", (.option .duration), (·.duration), fun x v => { v with duration := x }⟩,
  ⟨c!"repeat", (.option .u32), (·.repeat_), fun x v => { v with repeat_ := x }⟩,
  ⟨c!"attach", (.vec .text), (·.attach), fun x v => { v with attach := x }⟩,
  ⟨c!"x_prop", .lines, (·.xProp), fun x v => { v with xProp := x }⟩,
  ⟨c!"iana_prop", .lines, (·.ianaProp), fun x v => { v with ianaProp := x }⟩]

/-- The fields of `Display` with their Rust names and types (`src/components/valarm.rs:101-112`). -/
def Display.members : List (Member Display) := [
  ⟨c!"action", .text, (·.action), fun x v => { v with action := x }⟩,
  ⟨c!"trigger", .trigger, (·.trigger), fun x v => { v with trigger := x }⟩,
  ⟨c!"description", .text, (·.description), fun x v => { v with description := x }⟩,
  ⟨c!"duration", (.option .duration), (·.duration), fun x v => { v with duration := x }⟩,
  ⟨c!"repeat", (.option .u32), (·.repeat_), fun x v => { v with repeat_ := x }⟩,
  ⟨c!"x_prop", .lines, (·.xProp), fun x v => { v with xProp := x }⟩,
  ⟨c!"iana_prop", .lines, (·.ianaProp), fun x v => { v with ianaProp := x }⟩]

/-- The fields of `Email` with their Rust names and types (`src/components/valarm.rs:129-143`). -/
def Email.members : List (Member Email) := [
  ⟨c!"action", .text, (·.action), fun x v => { v with action := x }⟩,
  ⟨c!"trigger", .trigger, (·.trigger), fun x v => { v with trigger := x }⟩,
  ⟨c!"description", .text, (·.description), fun x v => { v with description := x }⟩,
  ⟨c!"summary", .text, (·.summary), fun x v => { v with summary := x }⟩,
  ⟨c!"attendee", (.vec .uri), (·.attendee), fun x v => { v with attendee := x }⟩,
  ⟨c!"duration", (.option .duration), (·.duration), fun x v => { v with duration := x }⟩,
  ⟨c!"repeat", (.option .u32), (·.repeat_), fun x v => { v with repeat_ := x }⟩,
  ⟨c!"attach", (.vec .text), (·.attach), fun x v => { v with attach := x }⟩,
  ⟨c!"x_prop", .lines, (·.xProp), fun x v => { v with xProp := x }⟩,
  ⟨c!"iana_prop", .lines, (·.ianaProp), fun x v => { v with ianaProp := x }⟩]

/-- The fields of `VEvent` with their Rust names and types (`src/components/vevent.rs:4-45`). -/
def VEvent.members : List (Member VEvent) := [
  ⟨c!"dtstamp", .dateTime, (·.dtstamp), fun x v => { v with dtstamp := x }⟩,
  ⟨c!"uid", .text, (·.uid), fun x v => { v with uid := x }⟩,
  ⟨c!"dtstart", .date, (·.dtstart), fun x v => { v with dtstart := x }⟩,
  ⟨c!"class", (.option .class_), (·.class_), fun x v => { v with class_ := x }⟩,
  ⟨c!"created", (.option .dateTime), (·.created), fun x v => { v with created := x }⟩,
  ⟨c!"description", (.option .text), (·.description), fun x v => { v with description := x }⟩,
  ⟨c!"geo", (.option .geo), (·.geo), fun x v => { v with geo := x }⟩,
  ⟨c!"last_modified", (.option .dateTime), (·.lastModified), fun x v => { v with lastModified := x }⟩,
  ⟨c!"location", (.option .text), (·.location), fun x v => { v with location := x }⟩,
  ⟨c!"organizer", (.option .uri), (·.organizer), fun x v => { v with organizer := x }⟩,
  ⟨c!"priority", (.option .u8), (·.priority), fun x v => { v with priority := x }⟩,
  ⟨c!"sequence", (.option .u32), (·.sequence), fun x v => { v with sequence := x }⟩,
  ⟨c!"status", (.option .status), (·.status), fun x v => { v with status := x }⟩,
  ⟨c!"summary", (.option .text), (·.summary), fun x v => { v with summary := x }⟩,
  ⟨c!"transp", (.option .transp), (·.transp), fun x v => { v with transp := x }⟩,
  ⟨c!"url", (.option .uri), (·.url), fun x v => { v with url := x }⟩,
  ⟨c!"recurid", (.option .date), (·.recurid), fun x v => { v with recurid := x }⟩,
  ⟨c!"rrule", (.option .recur), (·.rrule), fun x v => { v with rrule := x }⟩,
  ⟨c!"dtend", (.option .date), (·.dtend), fun x v => { v with dtend := x }⟩,
  ⟨c!"duration", (.option .duration), (·.duration), fun x v => { v with duration := x }⟩,
  ⟨c!"attach", (.vec .text), (·.attach), fun x v => { v with attach := x }⟩,
  ⟨c!"attendee", (.vec .uri), (·.attendee), fun x v => { v with attendee := x }⟩,
  ⟨c!"categories", (.vec .text), (·.categories), fun x v => { v with categories := x }⟩,
  ⟨c!"comment", (.vec .text), (·.comment), fun x v => { v with comment := x }⟩,
  ⟨c!"contact", (.vec .text), (·.contact), fun x v => { v with contact := x }⟩,
  ⟨c!"exdate", (.vec .date), (·.exdate), fun x v => { v with exdate := x }⟩,
  ⟨c!"rstatus", (.vec .rstatus), (·.rstatus), fun x v => { v with rstatus := x }⟩,
  ⟨c!"related_to", (.vec .text), (·.relatedTo), fun x v => { v with relatedTo := x }⟩,
  ⟨c!"resources", (.vec .text), (·.resources), fun x v => { v with resources := x }⟩,
  ⟨c!"rdate", (.vec .rdate), (·.rdate), fun x v => { v with rdate := x }⟩,
  ⟨c!"alarms", (.vec .alarm), (·.alarms), fun x v => { v with alarms := x }⟩,
  ⟨c!"x_prop", .lines, (·.xProp), fun x v => { v with xProp := x }⟩,
  ⟨c!"iana_prop", .lines, (·.ianaProp), fun x v => { v with ianaProp := x }⟩]

/-- The fields of `VFreebusy` with their Rust names and types (`src/components/vfreebusy.rs:4-22`). -/
def VFreebusy.members : List (Member VFreebusy) := [
  ⟨c!"dtstamp", .dateTime, (·.dtstamp), fun x v => { v with dtstamp := x }⟩,
  ⟨c!"uid", .text, (·.uid), fun x v => { v with uid := x }⟩,
  ⟨c!"contact", (.option .text), (·.contact), fun x v => { v with contact := x }⟩,
  ⟨c!"dtstart", (.option .date), (·.dtstart), fun x v => { v with dtstart := x }⟩,
  ⟨c!"dtend", (.option .date), (·.dtend), fun x v => { v with dtend := x }⟩,
  ⟨c!"organizer", (.option .uri), (·.organizer), fun x v => { v with organizer := x }⟩,
  ⟨c!"url", (.option .uri), (·.url), fun x v => { v with url := x }⟩,
  ⟨c!"attendee", (.vec .uri), (·.attendee), fun x v => { v with attendee := x }⟩,
  ⟨c!"comment", (.vec .text), (·.comment), fun x v => { v with comment := x }⟩,
  ⟨c!"freebusy", (.vec .period), (·.freebusy), fun x v => { v with freebusy := x }⟩,
  ⟨c!"rstatus", (.vec .rstatus), (·.rstatus), fun x v => { v with rstatus := x }⟩,
  ⟨c!"x_prop", .lines, (·.xProp), fun x v => { v with xProp := x }⟩,
  ⟨c!"iana_prop", .lines, (·.ianaProp), fun x v => { v with ianaProp := x }⟩]

/-- The fields of `VJournal` with their Rust names and types (`src/components/vjournal.rs:4-35`). -/
def VJournal.members : List (Member VJournal) := [
  ⟨c!"dtstamp", .dateTime, (·.dtstamp), fun x v => { v with dtstamp := x }⟩,
  ⟨c!"uid", .text, (·.uid), fun x v => { v with uid := x }⟩,
  ⟨c!"class", (.option .class_), (·.class_), fun x v => { v with class_ := x }⟩,
  ⟨c!"created", (.option .dateTime), (·.created), fun x v => { v with created := x }⟩,
  ⟨c!"dtstart", .date, (·.dtstart), fun x v => { v with dtstart := x }⟩,
  ⟨c!"last_modified", (.option .dateTime), (·.lastModified), fun x v => { v with lastModified := x }⟩,
  ⟨c!"organizer", (.option .uri), (·.organizer), fun x v => { v with organizer := x }⟩,
  ⟨c!"recurid", (.option .date), (·.recurid), fun x v => { v with recurid := x }⟩,
  ⟨c!"sequence", (.option .u32), (·.sequence), fun x v => { v with sequence := x }⟩,
  ⟨c!"status", (.option .status), (·.status), fun x v => { v with status := x }⟩,
  ⟨c!"summary", (.option .text), (·.summary), fun x v => { v with summary := x }⟩,
  ⟨c!"url", (.option .uri), (·.url), fun x v => { v with url := x }⟩,
  ⟨c!"rrule", (.option .recur), (·.rrule), fun x v => { v with rrule := x }⟩,
  ⟨c!"attach", (.vec .text), (·.attach), fun x v => { v with attach := x }⟩,
  ⟨c!"attendee", (.vec .uri), (·.attendee), fun x v => { v with attendee := x }⟩,
  ⟨c!"categories", (.vec .text), (·.categories), fun x v => { v with categories := x }⟩,
  ⟨c!"comment", (.vec .text), (·.comment), fun x v => { v with comment := x }⟩,
  ⟨c!"contact", (.vec .text), (·.contact), fun x v => { v with contact := x }⟩,
  ⟨c!"description", (.vec .text), (·.description), fun x v => { v with description := x }⟩,
  ⟨c!"exdate", (.vec .date), (·.exdate), fun x v => { v with exdate := x }⟩,
  ⟨c!"related_to", (.vec .text), (·.relatedTo), fun x v => { v with relatedTo := x }⟩,
  ⟨c!"rdate", (.vec .rdate), (·.rdate), fun x v => { v with rdate := x }⟩,
  ⟨c!"rstatus", (.vec .rstatus), (·.rstatus), fun x v => { v with rstatus := x }⟩,
  ⟨c!"x_prop", .lines, (·.xProp), fun x v => { v with xProp := x }⟩,
  ⟨c!"iana_prop", .lines, (·.ianaProp), fun x v => { v with ianaProp := x }⟩]

/-- The fields of `Standard` with their Rust names and types (`src/components/vtimezone.rs:34-49,76`). -/
def Standard.members : List (Member Standard) := [
  ⟨c!"dtstart", .date, (·.dtstart), fun x v => { v with dtstart := x }⟩,
  ⟨c!"tzoffsetto", .offset, (·.tzoffsetto), fun x v => { v with tzoffsetto := x }⟩,
  ⟨c!"tzoffsetfrom", .offset, (·.tzoffsetfrom), fun x v => { v with tzoffsetfrom := x }⟩,
  ⟨c!"rrule", (.option .recur), (·.rrule), fun x v => { v with rrule := x }⟩,
  ⟨c!"comment", (.vec .text), (·.comment), fun x v => { v with comment := x }⟩,
  ⟨c!"rdate", (.vec .rdate), (·.rdate), fun x v => { v with rdate := x }⟩,
  ⟨c!"tzname", (.vec .text), (·.tzname), fun x v => { v with tzname := x }⟩,
  ⟨c!"x_prop", .lines, (·.xProp), fun x v => { v with xProp := x }⟩,
  ⟨c!"iana_prop", .lines, (·.ianaProp), fun x v => { v with ianaProp := x }⟩]

/-- The fields of `Daylight` with their Rust names and types (`src/components/vtimezone.rs:34-49,77`). -/
def Daylight.members : List (Member Daylight) := [
  ⟨c!"dtstart", .date, (·.dtstart), fun x v => { v with dtstart := x }⟩,
  ⟨c!"tzoffsetto", .offset, (·.tzoffsetto), fun x v => { v with tzoffsetto := x }⟩,
  ⟨c!"tzoffsetfrom", .offset, (·.tzoffsetfrom), fun x v => { v with tzoffsetfrom := x }⟩,
  ⟨c!"rrule", (.option .recur), (·.rrule), fun x v => { v with rrule := x }⟩,
  ⟨c!"comment", (.vec .text), (·.comment), fun x v => { v with comment := x }⟩,
  ⟨c!"rdate", (.vec .rdate), (·.rdate), fun x v => { v with rdate := x }⟩,
  ⟨c!"tzname", (.vec .text), (·.tzname), fun x v => { v with tzname := x }⟩,
  ⟨c!"x_prop", .lines, (·.xProp), fun x v => { v with xProp := x }⟩,
  ⟨c!"iana_prop", .lines, (·.ianaProp), fun x v => { v with ianaProp := x }⟩]

/-- The fields of `VTimezone` with their Rust names and types (`src/components/vtimezone.rs:6-19`). -/
def VTimezone.members : List (Member VTimezone) := [
  ⟨c!"tzid", .text, (·.tzid), fun x v => { v with tzid := x }⟩,
  ⟨c!"last_modified", (.option .dateTime), (·.lastModified), fun x v => { v with lastModified := x }⟩,
  ⟨c!"tzurl", (.option .uri), (·.tzurl), fun x v => { v with tzurl := x }⟩,
  ⟨c!"standard", (.vec .standard), (·.standard), fun x v => { v with standard := x }⟩,
  ⟨c!"daylight", (.vec .daylight), (·.daylight), fun x v => { v with daylight := x }⟩,
  ⟨c!"x_prop", .lines, (·.xProp), fun x v => { v with xProp := x }⟩,
  ⟨c!"iana_prop", .lines, (·.ianaProp), fun x v => { v with ianaProp := x }⟩]

/-- The fields of `VTodo` with their Rust names and types (`src/components/vtodo.rs:4-43`). -/
def VTodo.members : List (Member VTodo) := [
  ⟨c!"dtstamp", .dateTime, (·.dtstamp), fun x v => { v with dtstamp := x }⟩,
  ⟨c!"uid", .text, (·.uid), fun x v => { v with uid := x }⟩,
  ⟨c!"class", (.option .class_), (·.class_), fun x v => { v with class_ := x }⟩,
  ⟨c!"completed", (.option .dateTime), (·.completed), fun x v => { v with completed := x }⟩,
  ⟨c!"created", (.option .dateTime), (·.created), fun x v => { v with created := x }⟩,
  ⟨c!"dtstart", (.option .date), (·.dtstart), fun x v => { v with dtstart := x }⟩,
  ⟨c!"geo", (.option .geo), (·.geo), fun x v => { v with geo := x }⟩,
  ⟨c!"last_modified", (.option .dateTime), (·.lastModified), fun x v => { v with lastModified := x }⟩,
  ⟨c!"location", (.option .text), (·.location), fun x v => { v with location := x }⟩,
  ⟨c!"organizer", (.option .uri), (·.organizer), fun x v => { v with organizer := x }⟩,
  ⟨c!"percent_complete", (.option .u8), (·.percentComplete), fun x v => { v with percentComplete := x }⟩,
  ⟨c!"priority", (.option .u8), (·.priority), fun x v => { v with priority := x }⟩,
  ⟨c!"recurid", (.option .date), (·.recurid), fun x v => { v with recurid := x }⟩,
  ⟨c!"sequence", (.option .u32), (·.sequence), fun x v => { v with sequence := x }⟩,
  ⟨c!"status", (.option .status), (·.status), fun x v => { v with status := x }⟩,
  ⟨c!"summary", (.option .text), (·.summary), fun x v => { v with summary := x }⟩,
  ⟨c!"url", (.option .uri), (·.url), fun x v => { v with url := x }⟩,
  ⟨c!"rrule", (.option .recur), (·.rrule), fun x v => { v with rrule := x }⟩,
  ⟨c!"due", (.option .date), (·.due), fun x v => { v with due := x }⟩,
  ⟨c!"duration", (.option .duration), (·.duration), fun x v => { v with duration := x }⟩,
  ⟨c!"attach", (.vec .text), (·.attach), fun x v => { v with attach := x }⟩,
  ⟨c!"attendee", (.vec .uri), (·.attendee), fun x v => { v with attendee := x }⟩,
  ⟨c!"categories", (.vec .text), (·.categories), fun x v => { v with categories := x }⟩,
  ⟨c!"comment", (.vec .text), (·.comment), fun x v => { v with comment := x }⟩,
  ⟨c!"contact", (.vec .text), (·.contact), fun x v => { v with contact := x }⟩,
  ⟨c!"exdate", (.vec .date), (·.exdate), fun x v => { v with exdate := x }⟩,
  ⟨c!"rstatus", (.vec .rstatus), (·.rstatus), fun x v => { v with rstatus := x }⟩,
  ⟨c!"related_to", (.vec .text), (·.relatedTo), fun x v => { v with relatedTo := x }⟩,
  ⟨c!"resources", (.vec .text), (·.resources), fun x v => { v with resources := x }⟩,
  ⟨c!"rdate", (.vec .rdate), (·.rdate), fun x v => { v with rdate := x }⟩,
  ⟨c!"x_prop", .lines, (·.xProp), fun x v => { v with xProp := x }⟩,
  ⟨c!"iana_prop", .lines, (·.ianaProp), fun x v => { v with ianaProp := x }⟩]

/-- The fields of `VCalendar` with their Rust names and types (`src/components/vcalendar.rs:4-26`). -/
def VCalendar.members : List (Member VCalendar) := [
  ⟨c!"prodid", .text, (·.prodid), fun x v => { v with prodid := x }⟩,
  ⟨c!"version", .text, (·.version), fun x v => { v with version := x }⟩,
  ⟨c!"calscale", (.option .text), (·.calscale), fun x v => { v with calscale := x }⟩,
  ⟨c!"method", (.option .text), (·.method), fun x v => { v with method := x }⟩,
  ⟨c!"alarms", (.vec .alarm), (·.alarms), fun x v => { v with alarms := x }⟩,
  ⟨c!"events", (.vec .event), (·.events), fun x v => { v with events := x }⟩,
  ⟨c!"freebusy", (.vec .freebusy), (·.freebusy), fun x v => { v with freebusy := x }⟩,
  ⟨c!"journals", (.vec .journal), (·.journals), fun x v => { v with journals := x }⟩,
  ⟨c!"todo", (.vec .todo), (·.todo), fun x v => { v with todo := x }⟩,
  ⟨c!"timezones", (.vec .timezone), (·.timezones), fun x v => { v with timezones := x }⟩,
  ⟨c!"x_prop", .lines, (·.xProp), fun x v => { v with xProp := x }⟩,
  ⟨c!"iana_prop", .lines, (·.ianaProp), fun x v => { v with ianaProp := x }⟩]

/-- The fields of `Recur` with their Rust names and types (`src/properties/recur.rs:7-31`). -/
def Recur.members : List (Member Recur) := [
  ⟨c!"freq", .freq, (·.freq), fun x v => { v with freq := x }⟩,
  ⟨c!"until", (.option .date), (·.until_), fun x v => { v with until_ := x }⟩,
  ⟨c!"count", (.option .u8), (·.count), fun x v => { v with count := x }⟩,
  ⟨c!"interval", .u8, (·.interval), fun x v => { v with interval := x }⟩,
  ⟨c!"by_second", (.vec .i8), (·.bySecond), fun x v => { v with bySecond := x }⟩,
  ⟨c!"by_minute", (.vec .i8), (·.byMinute), fun x v => { v with byMinute := x }⟩,
  ⟨c!"by_hour", (.vec .i8), (·.byHour), fun x v => { v with byHour := x }⟩,
  ⟨c!"by_day", (.vec .weekdayNum), (·.byDay), fun x v => { v with byDay := x }⟩,
  ⟨c!"by_monthday", (.vec .i8), (·.byMonthday), fun x v => { v with byMonthday := x }⟩,
  ⟨c!"by_yearday", (.vec .i8), (·.byYearday), fun x v => { v with byYearday := x }⟩,
  ⟨c!"by_weekno", (.vec .i8), (·.byWeekno), fun x v => { v with byWeekno := x }⟩,
  ⟨c!"by_month", (.vec .i8), (·.byMonth), fun x v => { v with byMonth := x }⟩,
  ⟨c!"by_setpos", (.vec .i8), (·.bySetpos), fun x v => { v with bySetpos := x }⟩,
  ⟨c!"wkst", (.option .weekday), (·.wkst), fun x v => { v with wkst := x }⟩]

/-- The fields of `Geo` with their Rust names and types (`src/properties/geo.rs:5-8`). -/
def Geo.members : List (Member Geo) := [
  ⟨c!"lat", .f32, (·.lat), fun x v => { v with lat := x }⟩,
  ⟨c!"lon", .f32, (·.lon), fun x v => { v with lon := x }⟩]

/-- The fields of `RequestStatus` with their Rust names and types (`src/properties/request_status.rs:5-9`). -/
def RequestStatus.members : List (Member RequestStatus) := [
  ⟨c!"statcode", .f32, (·.statcode), fun x v => { v with statcode := x }⟩,
  ⟨c!"statdesc", .str, (·.statdesc), fun x v => { v with statdesc := x }⟩,
  ⟨c!"extdata", (.option .str), (·.extdata), fun x v => { v with extdata := x }⟩]

/-- The struct types: their path below the crate, their fields and their `Default` value.  `VAlarm` is an enum, so it has no
struct literal (`src/components/valarm.rs:5`); the types without `Default` are never built by the macros. -/
def RTy.struct : (t : RTy) → Option (Str × List (Member t.den) × t.den)
  | .audio => some (c!"valarm::Audio", Audio.members, Audio.default)
  | .display => some (c!"valarm::Display", Display.members, Display.default)
  | .email => some (c!"valarm::Email", Email.members, Email.default)
  | .standard => some (c!"vtimezone::Standard", Standard.members, Standard.default)
  | .daylight => some (c!"vtimezone::Daylight", Daylight.members, Daylight.default)
  | .event => some (c!"VEvent", VEvent.members, VEvent.default)
  | .freebusy => some (c!"VFreebusy", VFreebusy.members, VFreebusy.default)
  | .journal => some (c!"VJournal", VJournal.members, VJournal.default)
  | .timezone => some (c!"VTimezone", VTimezone.members, VTimezone.default)
  | .todo => some (c!"VTodo", VTodo.members, VTodo.default)
  | .calendar => some (c!"VCalendar", VCalendar.members, VCalendar.default)
  | .recur => some (c!"Recur", Recur.members, Recur.default)
  | .geo => some (c!"Geo", Geo.members, Geo.default)
  | .rstatus => some (c!"RequestStatus", RequestStatus.members, RequestStatus.default)
  | _ => none

/-! ## Reading the tokens -/

/-- The expressions a user writes as a value: literals, negated literals, names, and a variant with a string,
`Custom("…".to_string())`.  `negInt n` is `-n`; the value of a negated float literal is `x` itself. -/
inductive Expr where
  | str (s : Str)
  | int (n : Nat)
  | float (x : Platform.F32)
  | negInt (n : Nat)
  | negFloat (x : Platform.F32)
  | name (n : Str)
  | call (n : Str) (arg : Str)

/-- Token trees: an expression other than a name is one token. -/
inductive Token where
  | ident (n : Str)
  | comma
  | colon
  | expr (e : Expr)
  | brace (ts : List Token)
  | bracket (ts : List Token)

/-- `Value` and `Entry`/`Map` (`derive/src/macros.rs:30-33`, `:92-95`, `:114-120`); a map is its list of entries. -/
inductive Value where
  | none
  | single (e : Expr)
  | object (es : List (Str × Value))
  | collection (vs : List Value)

mutual
/-- `Map::parse` (`derive/src/macros.rs:36-69`). -/
def parseMap : List Token → Option (List (Str × Value))
  | [] => some []
  | .ident k :: .comma :: ts => (parseMap ts).map ((k, .none) :: ·)
  | .ident k :: .colon :: v :: .comma :: ts =>
    (parseValue v).bind fun v => (parseMap ts).map ((k, v) :: ·)
  | .ident k :: .colon :: v :: ts =>
    (parseValue v).bind fun v => (parseMap ts).map ((k, v) :: ·)
  | _ => none

/-- `Value::parse` and `parse_value` (`derive/src/macros.rs:123-163`). -/
def parseValue : Token → Option Value
  | .brace ts => (parseMap ts).map .object
  | .bracket ts => (parseSeq ts).map .collection
  | .ident n => some (.single (.name n))
  | .expr e => some (.single e)
  | .comma => none
  | .colon => none

/-- `parse_terminated(Value::parse, ,)` (`derive/src/macros.rs:138-142`). -/
def parseSeq : List Token → Option (List Value)
  | [] => some []
  | [v] => (parseValue v).map ([·])
  | v :: .comma :: ts => (parseValue v).bind fun v => (parseSeq ts).map (v :: ·)
  | _ => none
end

/-! ## Expansion -/

/-- `Type::is_option` (`derive/src/macros.rs:222-252`). -/
def isOption (ty field : Str) : Bool :=
  (ty = c!"VEvent" && field = c!"description")
  || (ty = c!"VFreebusy" && field = c!"dtstart")
  || (ty ≠ c!"valarm::Email" && field = c!"summary")
  || (ty = c!"VFreebusy" && field = c!"contact")
  || (ty = c!"VTodo" && field = c!"dtstart")
  || [c!"class", c!"completed", c!"created", c!"dtend", c!"due", c!"duration", c!"extdata", c!"geo", c!"last_modified",
      c!"location", c!"organizer", c!"priority", c!"recurid", c!"rrule", c!"sequence", c!"status", c!"transp", c!"tzurl",
      c!"url"].contains field

/-- `Type::should_convert` (`derive/src/macros.rs:254-256`). -/
def shouldConvert (field : Str) : Bool := ![c!"lat", c!"lon", c!"sequence"].contains field

/-- `Type::should_parsed` (`derive/src/macros.rs:258-281`). -/
def shouldParsed (field : Str) : Bool :=
  [c!"completed", c!"dtstamp", c!"dtstart", c!"duration", c!"created", c!"due", c!"last_modified", c!"dtend",
   c!"tzoffsetfrom", c!"tzoffsetto", c!"trigger", c!"geo", c!"rrule", c!"rstatus", c!"rdate", c!"exdate",
   c!"recurid"].contains field

/-- `Type::enum` (`derive/src/macros.rs:283-296`). -/
def enumOf (field : Str) : Option RTy :=
  if field = c!"class" then some .class_
  else if field = c!"freq" then some .freq
  else if field = c!"status" then some .status
  else if field = c!"transp" then some .transp
  else none

/-- Rust expressions produced by the macros. -/
inductive RExpr where
  /-- The expression as written. -/
  | plain (e : Expr)
  /-- `Enum::e`. -/
  | path (enum : RTy) (e : Expr)
  /-- `e.parse()?` -/
  | parse (e : RExpr)
  /-- `parse_duration(e)?` -/
  | parseDuration (e : RExpr)
  /-- `e.into()` -/
  | into (e : RExpr)
  /-- `Some(e)` -/
  | some (e : RExpr)
  /-- `vec![e, …]` -/
  | vec (es : List RExpr)
  /-- `Ty { field: e, …, ..Default::default() }` -/
  | struct (ty : Str) (fs : List (Str × RExpr))

/-- The type of an object, by the name of its field (`derive/src/macros.rs:206-215`); the macro panics on the others. -/
def objectTy (field : Str) : Option Str :=
  if field = c!"alarms" then some c!"VAlarm"
  else if field = c!"daylight" then some c!"vtimezone::Daylight"
  else if field = c!"events" then some c!"VEvent"
  else if field = c!"geo" then some c!"Geo"
  else if field = c!"rrule" then some c!"Recur"
  else if field = c!"rstatus" then some c!"RequestStatus"
  else if field = c!"standard" then some c!"vtimezone::Standard"
  else none

/-- The case `Value::Single` of `TypedValue::to_tokens` (`derive/src/macros.rs:170-197`). -/
def expandSingle (ty field : Str) (e : Expr) : RExpr :=
  let v : RExpr := match enumOf field with
    | some t => .path t e
    | none => .plain e
  let v : RExpr :=
    if shouldParsed field then
      if field = c!"duration" then .parseDuration v else .parse v
    else if shouldConvert field then .into v
    else v
  if isOption ty field then .some v else v

mutual
/-- `TypedValue::to_tokens` (`derive/src/macros.rs:167-217`). -/
def expandValue (ty field : Str) : Value → Option RExpr
  | .none => none
  | .single e => some (expandSingle ty field e)
  | .collection vs => (expandSeq ty field vs).map .vec
  | .object es => (objectTy field).bind fun t =>
    (expandEntries t es).map fun fs => if isOption ty field then .some (.struct t fs) else .struct t fs

/-- The elements of a collection (`derive/src/macros.rs:198-203`). -/
def expandSeq (ty field : Str) : List Value → Option (List RExpr)
  | [] => some []
  | v :: vs => (expandValue ty field v).bind fun v => (expandSeq ty field vs).map (v :: ·)

/-- `TypedEntry::to_tokens` for all the entries of a map (`derive/src/macros.rs:72-112`). -/
def expandEntries (ty : Str) : List (Str × Value) → Option (List (Str × RExpr))
  | [] => some []
  | (k, .none) :: es => (expandEntries ty es).map ((k, .plain (.name k)) :: ·)
  | (k, v) :: es => (expandValue ty k v).bind fun v => (expandEntries ty es).map ((k, v) :: ·)
end

/-! ## What Rust does with the expansion -/

/-- The variables in scope at the macro call, with their types and values. -/
abbrev Env := Str → Option ((t : RTy) × t.den)

/-- The variants of the four enums (`src/properties/class.rs:5-11`, `src/properties/recur.rs:139-148`,
`src/properties/status.rs:5-22`, `src/properties/time_transparency.rs:5-10`). -/
def variant : (t : RTy) → Str → Option t.den
  | .class_, n => if n = c!"Public" then some Class.pub else if n = c!"Private" then some Class.priv
    else if n = c!"Confidential" then some Class.confidential else none
  | .freq, n => if n = c!"Secondly" then some Freq.secondly else if n = c!"Minutely" then some Freq.minutely
    else if n = c!"Hourly" then some Freq.hourly else if n = c!"Daily" then some Freq.daily
    else if n = c!"Weekly" then some Freq.weekly else if n = c!"Monthly" then some Freq.monthly
    else if n = c!"Yearly" then some Freq.yearly else none
  | .status, n => if n = c!"Tentative" then some Status.tentative else if n = c!"Confirmed" then some Status.confirmed
    else if n = c!"Cancelled" then some Status.cancelled else if n = c!"NeedsAction" then some Status.needsAction
    else if n = c!"Completed" then some Status.completed else if n = c!"InProcess" then some Status.inProcess
    else if n = c!"Draft" then some Status.draft else if n = c!"Final" then some Status.final else none
  | .transp, n => if n = c!"Opaque" then some TimeTransparency.opaque
    else if n = c!"Transparent" then some TimeTransparency.transparent else none
  | _, _ => none

/-- `Class::Custom(s)`, the only variant with a value (`src/properties/class.rs:10`). -/
def variantWith : (t : RTy) → Str → Str → Option t.den
  | .class_, n, s => if n = c!"Custom" then some (Class.custom s) else none
  | _, _, _ => none

/-- `FromStr` of the types that have one with an error `?` converts to `ikal::Error` (`Infallible`, of `String`, is not
converted). -/
def fromStr : (t : RTy) → Option (Str → Res t.den)
  | .date => some Date.ofStr
  | .dateTime => some DateTime.ofStr
  | .trigger => some Trigger.ofStr
  | .offset => some fun s => Res.ofOption .date (FixedOffset.parse s)
  | .u8 => some fun s => Res.ofOption .parseInt (parseU8 s)
  | .u32 => some fun s => Res.ofOption .parseInt (parseU32 s)
  | .i8 => some fun s => Res.ofOption .parseInt (parseI8 s)
  | .class_ => some Class.ofStr
  | .status => some Status.ofStr
  | .transp => some TimeTransparency.ofStr
  | .freq => some Freq.ofStr
  | .weekday => some Weekday.ofStr
  | .weekdayNum => some WeekdayNum.ofStr
  | .geo => some fun s => Ikal.geo (ContentLine.ofValue s)
  | .recur => some Recur.ofStr
  | .rstatus => some fun s => Ikal.rstatus (ContentLine.ofValue s)
  | .period => some Ikal.period
  | .audio => some Audio.ofStr
  | .display => some Display.ofStr
  | .email => some Email.ofStr
  | .alarm => some VAlarm.ofStr
  | .standard => some Standard.ofStr
  | .daylight => some Daylight.ofStr
  | .event => some VEvent.ofStr
  | .freebusy => some VFreebusy.ofStr
  | .journal => some VJournal.ofStr
  | .timezone => some VTimezone.ofStr
  | .todo => some VTodo.ofStr
  | .calendar => some VCalendar.ofStr
  | _ => none

/-- The `From` conversions of the crate between two different types (`src/properties/text.rs:44-57`,
`src/properties/uri.rs:35-51`, `src/properties/date.rs:42-48`, `:210-214`, `src/components/valarm.rs:93-99`, `:121-127`,
`:152-158`), and of the standard library between the integers. -/
def convert : (s t : RTy) → Option (s.den → t.den)
  | .str, .text => some Text.ofStr
  | .str, .uri => some Uri.ofStr
  | .date, .dateTime => some Date.toDateTime
  | .dateTime, .date => some Date.dateTime
  | .audio, .alarm => some VAlarm.ofAudio
  | .display, .alarm => some VAlarm.ofDisplay
  | .email, .alarm => some VAlarm.ofEmail
  | .u8, .u32 => some id
  | _, _ => none

/-- `v.into()` for `v : s` where a `t` is expected: the reflexive `From`, `From<T> for Option<T>`, or a conversion. -/
def intoTy (s t : RTy) (v : s.den) : Option t.den :=
  if h : s = t then some (h ▸ v)
  else match t with
    | .option u => if h : s = u then some (some (h ▸ v)) else none
    | u => (convert s u).map (· v)

/-- An integer literal where a `t` is expected; a literal out of range is rejected. -/
def intLit : (t : RTy) → Nat → Option t.den
  | .u8, n => if n ≤ 255 then some n else none
  | .u32, n => if n ≤ 4294967295 then some n else none
  | .i8, n => if n ≤ 127 then some (n : Int) else none
  | _, _ => none

/-- `n.into()` for an integer literal: `u8` and `i8` have a single integer source, themselves; `u32` has several, so the
literal falls back to `i32`, which does not convert; `Option<T>` only converts from `T`. -/
def intInto : (t : RTy) → Nat → Option t.den
  | .u8, n => intLit .u8 n
  | .i8, n => intLit .i8 n
  | .option u, n => (intLit u n).map some
  | _, _ => none

/-- A negated integer literal where a `t` is expected. -/
def negLit : (t : RTy) → Nat → Option t.den
  | .i8, n => if n ≤ 128 then some (-(n : Int)) else none
  | _, _ => none

/-- A float literal where a `t` is expected. -/
def floatLit : (t : RTy) → Platform.F32 → Option t.den
  | .f32, x => some x
  | _, _ => none

/-- `x.into()` for a float literal. -/
def floatInto : (t : RTy) → Platform.F32 → Option t.den
  | .option u, x => (floatLit u x).map some
  | u, x => floatLit u x

/-- A string where a `t` is expected. -/
def strLit : (t : RTy) → Str → Option t.den
  | .str, s => some s
  | _, _ => none

/-- The string an expression denotes, if it is one; `Text` derefs to `str` (`src/properties/text.rs:36-42`), which serves
`.parse()` (`deref = true`) but not a `&str` parameter. -/
def strOf (Γ : Env) (deref : Bool) : Expr → Option Str
  | .str s => some s
  | .name n => match Γ n with
    | some ⟨.str, s⟩ => some s
    | some ⟨.text, t⟩ => if deref then some t.text else none
    | _ => none
  | _ => none

/-- An expression as written, where a `t` is expected. -/
def evalPlain (Γ : Env) (t : RTy) : Expr → Option t.den
  | .str s => strLit t s
  | .int n => intLit t n
  | .float x => floatLit t x
  | .negInt n => negLit t n
  | .negFloat x => floatLit t x
  | .name n => (Γ n).bind fun ⟨s, v⟩ => if h : s = t then some (h ▸ v) else none
  | .call _ _ => none

/-- `e.into()` where a `t` is expected.  On a negated literal the method call binds tighter than the sign, and the type is
ambiguous. -/
def evalInto (Γ : Env) (t : RTy) : Expr → Option t.den
  | .str s => intoTy .str t s
  | .int n => intInto t n
  | .float x => floatInto t x
  | .negInt _ => none
  | .negFloat _ => none
  | .name n => (Γ n).bind fun ⟨s, v⟩ => intoTy s t v
  | .call _ _ => none

/-- `parse_duration(s)?` where a `t` is expected. -/
def evalDuration : (t : RTy) → Str → Option (Res t.den)
  | .duration, s => some (Ikal.parseDuration s)
  | _, _ => none

/-- `Enum::e` where a `t` is expected. -/
def evalVariant (t : RTy) (enum : RTy) : Expr → Option t.den
  | .name n => (variant enum n).bind fun v => if h : enum = t then some (h ▸ v) else none
  | .call n s => (variantWith enum n s).bind fun v => if h : enum = t then some (h ▸ v) else none
  | _ => none

/-- `Enum::e.into()` where a `t` is expected. -/
def evalPath (t : RTy) (enum : RTy) : Expr → Option t.den
  | .name n => (variant enum n).bind fun v => intoTy enum t v
  | .call n s => (variantWith enum n s).bind fun v => intoTy enum t v
  | _ => none

/-- Assign a field. -/
def assign {σ : Type} (m : Member σ) (r : Res m.ty.den) (k : Res (σ → σ)) : Res (σ → σ) := do
  let v ← r
  let f ← k
  pure fun s => f (m.set v s)

mutual
/-- Type check an expression against the type `t` and evaluate it: `none` is a compile error, `err` an early return by `?`. -/
def RExpr.eval (Γ : Env) (t : RTy) : RExpr → Option (Res t.den)
  | .plain e => (evalPlain Γ t e).map .ok
  | .path en e => (evalVariant t en e).map .ok
  | .parse (.plain e) => (fromStr t).bind fun f => (strOf Γ true e).map f
  | .parse _ => none
  | .parseDuration (.plain e) => (strOf Γ false e).bind (evalDuration t)
  | .parseDuration _ => none
  | .into (.plain e) => (evalInto Γ t e).map .ok
  | .into (.path en e) => (evalPath t en e).map .ok
  | .into _ => none
  | .some e => match t with
    | .option u => (e.eval Γ u).map fun r => r.map some
    | _ => none
  | .vec es => match t with
    | .vec u => evalSeq Γ u es
    | _ => none
  | .struct ty fs => t.struct.bind fun (name, members, dflt) =>
    if name = ty ∧ (fs.map (·.1)).Nodup then (evalFields Γ members fs).map fun r => r.map (· dflt) else none

/-- The elements of `vec![…]`, in order. -/
def evalSeq (Γ : Env) (t : RTy) : List RExpr → Option (Res (List t.den))
  | [] => some (.ok [])
  | e :: es => (e.eval Γ t).bind fun r => (evalSeq Γ t es).map fun rs => do
      let v ← r
      let vs ← rs
      pure (v :: vs)

/-- The fields of a struct literal, evaluated in the order they are written; the fields not named come from the default. -/
def evalFields (Γ : Env) {σ : Type} (ms : List (Member σ)) : List (Str × RExpr) → Option (Res (σ → σ))
  | [] => some (.ok id)
  | (k, e) :: fs => (ms.find? fun m => m.name = k).bind fun m =>
    (e.eval Γ m.ty).bind fun r => (evalFields Γ ms fs).map fun rest => assign m r rest
end

/-- The component macro for the struct `t` (`derive/src/lib.rs:26-50`, `impl_macro`, `derive/src/macros.rs:17-28`). -/
def componentMacro (Γ : Env) (t : RTy) (ts : List Token) : Option (Res t.den) :=
  t.struct.bind fun (name, _, _) => (parseMap ts).bind fun es =>
    (expandEntries name es).bind fun fs => (RExpr.struct name fs).eval Γ t

/-- The kinds of `valarm!` (`src/lib.rs:106-118`, `derive/src/lib.rs:42-44`). -/
inductive AlarmKind where
  | audio | display | email

/-- `valarm! { @kind, … }` (`src/lib.rs:106-118`): the macro of the kind, then `.map(VAlarm::from)`. -/
def valarmMacro (Γ : Env) (k : AlarmKind) (ts : List Token) : Option (Res VAlarm) :=
  match k with
  | .audio => (componentMacro Γ .audio ts).map fun r => r.map VAlarm.ofAudio
  | .display => (componentMacro Γ .display ts).map fun r => r.map VAlarm.ofDisplay
  | .email => (componentMacro Γ .email ts).map fun r => r.map VAlarm.ofEmail

end

end Ikal
