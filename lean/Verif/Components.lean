import Verif.Derive

/-!
# Components (`src/components/*.rs`, `src/parser/components.rs`)

The structs, their field tables and the conversions to the generic component of `Verif.Derive` are
written out one by one in the order of declaration of the Rust fields.
-/

namespace Ikal

open Nom

section
variable [Platform]

/-- The parser of a component without sub-components (macro `component!`,
`src/parser/components.rs:9-25`). -/
def componentP {α : Type} (name : Str) (conv : List ContentLine → Res α) : P α :=
  mapRes (delimited (tag (c!"BEGIN:" ++ name ++ c!"\r\n")) contentLines
    (tag (c!"END:" ++ name ++ c!"\r\n"))) conv

/-- `FromStr` of a component (`derive/src/component.rs:147-155`, `src/components/valarm.rs:45-53`): unfold,
parse, forget the unread rest. -/
def componentOfStr {α : Type} (p : P α) (s : Str) : Res α := (p (unfold s)).toRes

/-! ## Alarms -/

/-- `Audio` (`src/components/valarm.rs:73-84`). -/
structure Audio where
  action : Text
  trigger : Trigger
  duration : Option TimeDelta
  repeat_ : Option Nat
  attach : List Text
  xProp : SMap ContentLine
  ianaProp : SMap ContentLine

namespace Audio

/-- The field table of `Audio` (`src/components/valarm.rs:73-84`), in declaration order. -/
@[reducible] def fields : List Field := [
  .req c!"ACTION" Text inferInstance textProp,
  .req c!"TRIGGER" Trigger inferInstance Ikal.trigger,
  .opt c!"DURATION" TimeDelta inferInstance Ikal.duration,
  .opt c!"REPEAT" Nat inferInstance u32Prop,
  .push c!"ATTACH" Text inferInstance textProp]

/-- The fields of a `Audio` as a value of the generic component (`src/components/valarm.rs:73-84`). -/
def toComp (v : Audio) : Comp fields where
  slots := (v.action, v.trigger, v.duration, v.repeat_, v.attach, ())
  xProp := v.xProp
  ianaProp := v.ianaProp

/-- The inverse of `toComp` (`src/components/valarm.rs:73-84`). -/
def ofComp (c : Comp fields) : Audio :=
  match c.slots with
  | (v0, v1, v2, v3, v4, _) => ⟨v0, v1, v2, v3, v4, c.xProp, c.ianaProp⟩

/-- `TryFrom<Vec<ContentLine>> for Audio` (`derive/src/component.rs:102-126`). -/
def tryFrom (ls : List ContentLine) : Res Audio := (Comp.tryFrom fields ls).map ofComp

end Audio

/-- `impl Serialize for Audio` (`derive/src/component.rs:158-177`). -/
instance : Ser Audio where
  isComponent := true
  ical v := v.toComp.ical c!"AUDIO"

/-- `Display` (`src/components/valarm.rs:101-112`). -/
structure Display where
  action : Text
  trigger : Trigger
  description : Text
  duration : Option TimeDelta
  repeat_ : Option Nat
  xProp : SMap ContentLine
  ianaProp : SMap ContentLine

namespace Display

/-- The field table of `Display` (`src/components/valarm.rs:101-112`), in declaration order. -/
@[reducible] def fields : List Field := [
  .req c!"ACTION" Text inferInstance textProp,
  .req c!"TRIGGER" Trigger inferInstance Ikal.trigger,
  .req c!"DESCRIPTION" Text inferInstance textProp,
  .opt c!"DURATION" TimeDelta inferInstance Ikal.duration,
  .opt c!"REPEAT" Nat inferInstance u32Prop]

/-- The fields of a `Display` as a value of the generic component (`src/components/valarm.rs:101-112`). -/
def toComp (v : Display) : Comp fields where
  slots := (v.action, v.trigger, v.description, v.duration, v.repeat_, ())
  xProp := v.xProp
  ianaProp := v.ianaProp

/-- The inverse of `toComp` (`src/components/valarm.rs:101-112`). -/
def ofComp (c : Comp fields) : Display :=
  match c.slots with
  | (v0, v1, v2, v3, v4, _) => ⟨v0, v1, v2, v3, v4, c.xProp, c.ianaProp⟩

/-- `TryFrom<Vec<ContentLine>> for Display` (`derive/src/component.rs:102-126`). -/
def tryFrom (ls : List ContentLine) : Res Display := (Comp.tryFrom fields ls).map ofComp

end Display

/-- `impl Serialize for Display` (`derive/src/component.rs:158-177`). -/
instance : Ser Display where
  isComponent := true
  ical v := v.toComp.ical c!"DISPLAY"

/-- `Email` (`src/components/valarm.rs:129-143`). -/
structure Email where
  action : Text
  trigger : Trigger
  description : Text
  summary : Text
  attendee : List Uri
  duration : Option TimeDelta
  repeat_ : Option Nat
  attach : List Text
  xProp : SMap ContentLine
  ianaProp : SMap ContentLine

namespace Email

/-- The field table of `Email` (`src/components/valarm.rs:129-143`), in declaration order. -/
@[reducible] def fields : List Field := [
  .req c!"ACTION" Text inferInstance textProp,
  .req c!"TRIGGER" Trigger inferInstance Ikal.trigger,
  .req c!"DESCRIPTION" Text inferInstance textProp,
  .req c!"SUMMARY" Text inferInstance textProp,
  .push c!"ATTENDEE" Uri inferInstance uriProp,
  .opt c!"DURATION" TimeDelta inferInstance Ikal.duration,
  .opt c!"REPEAT" Nat inferInstance u32Prop,
  .push c!"ATTACH" Text inferInstance textProp]

/-- The fields of a `Email` as a value of the generic component (`src/components/valarm.rs:129-143`). -/
def toComp (v : Email) : Comp fields where
  slots := (v.action, v.trigger, v.description, v.summary, v.attendee, v.duration, v.repeat_, v.attach, ())
  xProp := v.xProp
  ianaProp := v.ianaProp

/-- The inverse of `toComp` (`src/components/valarm.rs:129-143`). -/
def ofComp (c : Comp fields) : Email :=
  match c.slots with
  | (v0, v1, v2, v3, v4, v5, v6, v7, _) => ⟨v0, v1, v2, v3, v4, v5, v6, v7, c.xProp, c.ianaProp⟩

/-- `TryFrom<Vec<ContentLine>> for Email` (`derive/src/component.rs:102-126`). -/
def tryFrom (ls : List ContentLine) : Res Email := (Comp.tryFrom fields ls).map ofComp

end Email

/-- `impl Serialize for Email` (`derive/src/component.rs:158-177`). -/
instance : Ser Email where
  isComponent := true
  ical v := v.toComp.ical c!"EMAIL"

/-- `VAlarm` (`src/components/valarm.rs:5-9`). -/
inductive VAlarm where
  | audio (a : Audio)
  | display (a : Display)
  | email (a : Email)

namespace VAlarm

/-- `TryFrom<Vec<ContentLine>> for VAlarm` (`src/components/valarm.rs:11-27`); `unwrap()` panics without
an `ACTION` line. -/
def tryFrom (ls : List ContentLine) : Res VAlarm :=
  match ls.find? fun l => l.key = c!"ACTION" with
  | none => .panic
  | some action =>
    if action.value = c!"AUDIO" then (Audio.tryFrom ls).map audio
    else if action.value = c!"DISPLAY" then (Display.tryFrom ls).map display
    else if action.value = c!"EMAIL" then (Email.tryFrom ls).map email
    else .err (.alarm action.value)

/-- `From<Audio> for VAlarm` (`src/components/valarm.rs:93-99`). -/
def ofAudio (a : Audio) : VAlarm := audio { a with action := Text.ofStr c!"AUDIO" }

/-- `From<Display> for VAlarm` (`src/components/valarm.rs:121-127`). -/
def ofDisplay (a : Display) : VAlarm := display { a with action := Text.ofStr c!"DISPLAY" }

/-- `From<Email> for VAlarm` (`src/components/valarm.rs:152-158`). -/
def ofEmail (a : Email) : VAlarm := email { a with action := Text.ofStr c!"EMAIL" }

/-- The replacement of the first and last lines (`src/components/valarm.rs:63-69`). -/
def reframe (s : Str) : Str :=
  join ['\n'] ((c!"BEGIN:VALARM\r" :: (splitOn '\n' s).tail).dropLast.dropLast ++ [c!"END:VALARM\r\n"])

end VAlarm

/-- `impl Serialize for VAlarm` (`src/components/valarm.rs:55-71`): `component()` is not defined, so an
alarm is not a component for `field`. -/
instance : Ser VAlarm where
  ical v := (match v with
    | .audio a => Ser.ical a
    | .display a => Ser.ical a
    | .email a => Ser.ical a).map VAlarm.reframe

/-- `valarm` (`src/parser/components.rs:27`). -/
def valarm : P VAlarm := componentP c!"VALARM" VAlarm.tryFrom

/-- `FromStr for VAlarm` (`src/components/valarm.rs:45-53`). -/
def VAlarm.ofStr : Str → Res VAlarm := componentOfStr valarm

/-- `FromStr for Audio`, whose parser is `unreachable!()` (`src/parser/components.rs:34-36`). -/
def Audio.ofStr (_ : Str) : Res Audio := .panic
/-- `FromStr for Display` (`src/parser/components.rs:38-40`). -/
def Display.ofStr (_ : Str) : Res Display := .panic
/-- `FromStr for Email` (`src/parser/components.rs:42-44`). -/
def Email.ofStr (_ : Str) : Res Email := .panic

/-! ## Events -/

/-- `VEvent` (`src/components/vevent.rs:4-45`). -/
structure VEvent where
  dtstamp : DateTime
  uid : Text
  dtstart : Date
  class_ : Option Class
  created : Option DateTime
  description : Option Text
  geo : Option Geo
  lastModified : Option DateTime
  location : Option Text
  organizer : Option Uri
  priority : Option Nat
  sequence : Option Nat
  status : Option Status
  summary : Option Text
  transp : Option TimeTransparency
  url : Option Uri
  recurid : Option Date
  rrule : Option Recur
  dtend : Option Date
  duration : Option TimeDelta
  attach : List Text
  attendee : List Uri
  categories : List Text
  comment : List Text
  contact : List Text
  exdate : List Date
  rstatus : List RequestStatus
  relatedTo : List Text
  resources : List Text
  rdate : List RDate
  alarms : List VAlarm
  xProp : SMap ContentLine
  ianaProp : SMap ContentLine

namespace VEvent

/-- The field table of `VEvent` (`src/components/vevent.rs:4-45`), in declaration order. -/
@[reducible] def fields : List Field := [
  .req c!"DTSTAMP" DateTime inferInstance dateTimeProp,
  .req c!"UID" Text inferInstance textProp,
  .req c!"DTSTART" Date inferInstance dateProp,
  .opt c!"CLASS" Class inferInstance classProp,
  .opt c!"CREATED" DateTime inferInstance dateTimeProp,
  .opt c!"DESCRIPTION" Text inferInstance textProp,
  .opt c!"GEO" Geo inferInstance Ikal.geo,
  .opt c!"LAST-MODIFIED" DateTime inferInstance dateTimeProp,
  .opt c!"LOCATION" Text inferInstance textProp,
  .opt c!"ORGANIZER" Uri inferInstance uriProp,
  .opt c!"PRIORITY" Nat inferInstance Ikal.priority,
  .opt c!"SEQUENCE" Nat inferInstance u32Prop,
  .opt c!"STATUS" Status inferInstance Ikal.status,
  .opt c!"SUMMARY" Text inferInstance textProp,
  .opt c!"TRANSP" TimeTransparency inferInstance Ikal.transp,
  .opt c!"URL" Uri inferInstance uriProp,
  .opt c!"RECURID" Date inferInstance dateProp,
  .opt c!"RRULE" Recur inferInstance Ikal.rrule,
  .opt c!"DTEND" Date inferInstance dateProp,
  .opt c!"DURATION" TimeDelta inferInstance Ikal.duration,
  .push c!"ATTACH" Text inferInstance textProp,
  .push c!"ATTENDEE" Uri inferInstance uriProp,
  .append c!"CATEGORIES" Text inferInstance textListProp,
  .push c!"COMMENT" Text inferInstance textProp,
  .push c!"CONTACT" Text inferInstance textProp,
  .append c!"EXDATE" Date inferInstance Ikal.exdate,
  .push c!"RSTATUS" RequestStatus inferInstance Ikal.rstatus,
  .push c!"RELATED-TO" Text inferInstance textProp,
  .append c!"RESOURCES" Text inferInstance textListProp,
  .push c!"RDATE" RDate inferInstance Ikal.rdate,
  .nested c!"ALARMS" VAlarm inferInstance]

/-- The fields of a `VEvent` as a value of the generic component (`src/components/vevent.rs:4-45`). -/
def toComp (v : VEvent) : Comp fields where
  slots := (v.dtstamp, v.uid, v.dtstart, v.class_, v.created, v.description, v.geo, v.lastModified, v.location, v.organizer, v.priority, v.sequence, v.status, v.summary, v.transp, v.url, v.recurid, v.rrule, v.dtend, v.duration, v.attach, v.attendee, v.categories, v.comment, v.contact, v.exdate, v.rstatus, v.relatedTo, v.resources, v.rdate, v.alarms, ())
  xProp := v.xProp
  ianaProp := v.ianaProp

/-- The inverse of `toComp` (`src/components/vevent.rs:4-45`). -/
def ofComp (c : Comp fields) : VEvent :=
  match c.slots with
  | (v0, v1, v2, v3, v4, v5, v6, v7, v8, v9, v10, v11, v12, v13, v14, v15, v16, v17, v18, v19, v20, v21, v22, v23, v24, v25, v26, v27, v28, v29, v30, _) => ⟨v0, v1, v2, v3, v4, v5, v6, v7, v8, v9, v10, v11, v12, v13, v14, v15, v16, v17, v18, v19, v20, v21, v22, v23, v24, v25, v26, v27, v28, v29, v30, c.xProp, c.ianaProp⟩

/-- `TryFrom<Vec<ContentLine>> for VEvent` (`derive/src/component.rs:102-126`). -/
def tryFrom (ls : List ContentLine) : Res VEvent := (Comp.tryFrom fields ls).map ofComp

end VEvent

/-- `impl Serialize for VEvent` (`derive/src/component.rs:158-177`). -/
instance : Ser VEvent where
  isComponent := true
  ical v := v.toComp.ical c!"VEVENT"

/-- `vevent` (`src/parser/components.rs:46-64`). -/
def vevent : P VEvent :=
  mapRes (delimited (tag c!"BEGIN:VEVENT\r\n") (pair contentLines (many0 valarm))
    (tag c!"END:VEVENT\r\n")) fun (ls, alarms) =>
    (VEvent.tryFrom ls).map fun e => { e with alarms := alarms }

/-- `FromStr for VEvent` (`derive/src/component.rs:147-155`). -/
def VEvent.ofStr : Str → Res VEvent := componentOfStr vevent

/-! ## Free/busy, journals -/

/-- `VFreebusy` (`src/components/vfreebusy.rs:4-22`). -/
structure VFreebusy where
  dtstamp : DateTime
  uid : Text
  contact : Option Text
  dtstart : Option Date
  dtend : Option Date
  organizer : Option Uri
  url : Option Uri
  attendee : List Uri
  comment : List Text
  freebusy : List Period
  rstatus : List RequestStatus
  xProp : SMap ContentLine
  ianaProp : SMap ContentLine

namespace VFreebusy

/-- The field table of `VFreebusy` (`src/components/vfreebusy.rs:4-22`), in declaration order. -/
@[reducible] def fields : List Field := [
  .req c!"DTSTAMP" DateTime inferInstance dateTimeProp,
  .req c!"UID" Text inferInstance textProp,
  .opt c!"CONTACT" Text inferInstance textProp,
  .opt c!"DTSTART" Date inferInstance dateProp,
  .opt c!"DTEND" Date inferInstance dateProp,
  .opt c!"ORGANIZER" Uri inferInstance uriProp,
  .opt c!"URL" Uri inferInstance uriProp,
  .push c!"ATTENDEE" Uri inferInstance uriProp,
  .push c!"COMMENT" Text inferInstance textProp,
  .append c!"FREEBUSY" Period inferInstance Ikal.freebusy,
  .push c!"RSTATUS" RequestStatus inferInstance Ikal.rstatus]

/-- The fields of a `VFreebusy` as a value of the generic component (`src/components/vfreebusy.rs:4-22`). -/
def toComp (v : VFreebusy) : Comp fields where
  slots := (v.dtstamp, v.uid, v.contact, v.dtstart, v.dtend, v.organizer, v.url, v.attendee, v.comment, v.freebusy, v.rstatus, ())
  xProp := v.xProp
  ianaProp := v.ianaProp

/-- The inverse of `toComp` (`src/components/vfreebusy.rs:4-22`). -/
def ofComp (c : Comp fields) : VFreebusy :=
  match c.slots with
  | (v0, v1, v2, v3, v4, v5, v6, v7, v8, v9, v10, _) => ⟨v0, v1, v2, v3, v4, v5, v6, v7, v8, v9, v10, c.xProp, c.ianaProp⟩

/-- `TryFrom<Vec<ContentLine>> for VFreebusy` (`derive/src/component.rs:102-126`). -/
def tryFrom (ls : List ContentLine) : Res VFreebusy := (Comp.tryFrom fields ls).map ofComp

end VFreebusy

/-- `impl Serialize for VFreebusy` (`derive/src/component.rs:158-177`). -/
instance : Ser VFreebusy where
  isComponent := true
  ical v := v.toComp.ical c!"VFREEBUSY"

/-- `vfreebusy` (`src/parser/components.rs:28`). -/
def vfreebusy : P VFreebusy := componentP c!"VFREEBUSY" VFreebusy.tryFrom

/-- `FromStr for VFreebusy` (`derive/src/component.rs:147-155`). -/
def VFreebusy.ofStr : Str → Res VFreebusy := componentOfStr vfreebusy

/-- `VJournal` (`src/components/vjournal.rs:4-35`). -/
structure VJournal where
  dtstamp : DateTime
  uid : Text
  class_ : Option Class
  created : Option DateTime
  dtstart : Date
  lastModified : Option DateTime
  organizer : Option Uri
  recurid : Option Date
  sequence : Option Nat
  status : Option Status
  summary : Option Text
  url : Option Uri
  rrule : Option Recur
  attach : List Text
  attendee : List Uri
  categories : List Text
  comment : List Text
  contact : List Text
  description : List Text
  exdate : List Date
  relatedTo : List Text
  rdate : List RDate
  rstatus : List RequestStatus
  xProp : SMap ContentLine
  ianaProp : SMap ContentLine

namespace VJournal

/-- The field table of `VJournal` (`src/components/vjournal.rs:4-35`), in declaration order. -/
@[reducible] def fields : List Field := [
  .req c!"DTSTAMP" DateTime inferInstance dateTimeProp,
  .req c!"UID" Text inferInstance textProp,
  .opt c!"CLASS" Class inferInstance classProp,
  .opt c!"CREATED" DateTime inferInstance dateTimeProp,
  .req c!"DTSTART" Date inferInstance dateProp,
  .opt c!"LAST-MODIFIED" DateTime inferInstance dateTimeProp,
  .opt c!"ORGANIZER" Uri inferInstance uriProp,
  .opt c!"RECURID" Date inferInstance dateProp,
  .opt c!"SEQUENCE" Nat inferInstance u32Prop,
  .opt c!"STATUS" Status inferInstance Ikal.status,
  .opt c!"SUMMARY" Text inferInstance textProp,
  .opt c!"URL" Uri inferInstance uriProp,
  .opt c!"RRULE" Recur inferInstance Ikal.rrule,
  .push c!"ATTACH" Text inferInstance textProp,
  .push c!"ATTENDEE" Uri inferInstance uriProp,
  .append c!"CATEGORIES" Text inferInstance textListProp,
  .push c!"COMMENT" Text inferInstance textProp,
  .push c!"CONTACT" Text inferInstance textProp,
  .push c!"DESCRIPTION" Text inferInstance textProp,
  .append c!"EXDATE" Date inferInstance Ikal.exdate,
  .push c!"RELATED-TO" Text inferInstance textProp,
  .push c!"RDATE" RDate inferInstance Ikal.rdate,
  .push c!"RSTATUS" RequestStatus inferInstance Ikal.rstatus]

/-- The fields of a `VJournal` as a value of the generic component (`src/components/vjournal.rs:4-35`). -/
def toComp (v : VJournal) : Comp fields where
  slots := (v.dtstamp, v.uid, v.class_, v.created, v.dtstart, v.lastModified, v.organizer, v.recurid, v.sequence, v.status, v.summary, v.url, v.rrule, v.attach, v.attendee, v.categories, v.comment, v.contact, v.description, v.exdate, v.relatedTo, v.rdate, v.rstatus, ())
  xProp := v.xProp
  ianaProp := v.ianaProp

/-- The inverse of `toComp` (`src/components/vjournal.rs:4-35`). -/
def ofComp (c : Comp fields) : VJournal :=
  match c.slots with
  | (v0, v1, v2, v3, v4, v5, v6, v7, v8, v9, v10, v11, v12, v13, v14, v15, v16, v17, v18, v19, v20, v21, v22, _) => ⟨v0, v1, v2, v3, v4, v5, v6, v7, v8, v9, v10, v11, v12, v13, v14, v15, v16, v17, v18, v19, v20, v21, v22, c.xProp, c.ianaProp⟩

/-- `TryFrom<Vec<ContentLine>> for VJournal` (`derive/src/component.rs:102-126`). -/
def tryFrom (ls : List ContentLine) : Res VJournal := (Comp.tryFrom fields ls).map ofComp

end VJournal

/-- `impl Serialize for VJournal` (`derive/src/component.rs:158-177`). -/
instance : Ser VJournal where
  isComponent := true
  ical v := v.toComp.ical c!"VJOURNAL"

/-- `vjournal` (`src/parser/components.rs:30`). -/
def vjournal : P VJournal := componentP c!"VJOURNAL" VJournal.tryFrom

/-- `FromStr for VJournal` (`derive/src/component.rs:147-155`). -/
def VJournal.ofStr : Str → Res VJournal := componentOfStr vjournal

/-! ## Time zones -/

/-- `Standard` (`src/components/vtimezone.rs:34-49,76`). -/
structure Standard where
  dtstart : Date
  tzoffsetto : FixedOffset
  tzoffsetfrom : FixedOffset
  rrule : Option Recur
  comment : List Text
  rdate : List RDate
  tzname : List Text
  xProp : SMap ContentLine
  ianaProp : SMap ContentLine

namespace Standard

/-- The field table of `Standard` (`src/components/vtimezone.rs:34-49,76`), in declaration order. -/
@[reducible] def fields : List Field := [
  .req c!"DTSTART" Date inferInstance dateProp,
  .req c!"TZOFFSETTO" FixedOffset inferInstance offsetProp,
  .req c!"TZOFFSETFROM" FixedOffset inferInstance offsetProp,
  .opt c!"RRULE" Recur inferInstance Ikal.rrule,
  .push c!"COMMENT" Text inferInstance textProp,
  .push c!"RDATE" RDate inferInstance Ikal.rdate,
  .push c!"TZNAME" Text inferInstance textProp]

/-- The fields of a `Standard` as a value of the generic component (`src/components/vtimezone.rs:34-49,76`). -/
def toComp (v : Standard) : Comp fields where
  slots := (v.dtstart, v.tzoffsetto, v.tzoffsetfrom, v.rrule, v.comment, v.rdate, v.tzname, ())
  xProp := v.xProp
  ianaProp := v.ianaProp

/-- The inverse of `toComp` (`src/components/vtimezone.rs:34-49,76`). -/
def ofComp (c : Comp fields) : Standard :=
  match c.slots with
  | (v0, v1, v2, v3, v4, v5, v6, _) => ⟨v0, v1, v2, v3, v4, v5, v6, c.xProp, c.ianaProp⟩

/-- `TryFrom<Vec<ContentLine>> for Standard` (`derive/src/component.rs:102-126`). -/
def tryFrom (ls : List ContentLine) : Res Standard := (Comp.tryFrom fields ls).map ofComp

end Standard

/-- `impl Serialize for Standard` (`derive/src/component.rs:158-177`). -/
instance : Ser Standard where
  isComponent := true
  ical v := v.toComp.ical c!"STANDARD"

/-- `standard` (`src/parser/components.rs:31`). -/
def standard : P Standard := componentP c!"STANDARD" Standard.tryFrom

/-- `FromStr for Standard` (`derive/src/component.rs:147-155`). -/
def Standard.ofStr : Str → Res Standard := componentOfStr standard

/-- `Daylight` (`src/components/vtimezone.rs:34-49,77`). -/
structure Daylight where
  dtstart : Date
  tzoffsetto : FixedOffset
  tzoffsetfrom : FixedOffset
  rrule : Option Recur
  comment : List Text
  rdate : List RDate
  tzname : List Text
  xProp : SMap ContentLine
  ianaProp : SMap ContentLine

namespace Daylight

/-- The field table of `Daylight` (`src/components/vtimezone.rs:34-49,77`), in declaration order. -/
@[reducible] def fields : List Field := [
  .req c!"DTSTART" Date inferInstance dateProp,
  .req c!"TZOFFSETTO" FixedOffset inferInstance offsetProp,
  .req c!"TZOFFSETFROM" FixedOffset inferInstance offsetProp,
  .opt c!"RRULE" Recur inferInstance Ikal.rrule,
  .push c!"COMMENT" Text inferInstance textProp,
  .push c!"RDATE" RDate inferInstance Ikal.rdate,
  .push c!"TZNAME" Text inferInstance textProp]

/-- The fields of a `Daylight` as a value of the generic component (`src/components/vtimezone.rs:34-49,77`). -/
def toComp (v : Daylight) : Comp fields where
  slots := (v.dtstart, v.tzoffsetto, v.tzoffsetfrom, v.rrule, v.comment, v.rdate, v.tzname, ())
  xProp := v.xProp
  ianaProp := v.ianaProp

/-- The inverse of `toComp` (`src/components/vtimezone.rs:34-49,77`). -/
def ofComp (c : Comp fields) : Daylight :=
  match c.slots with
  | (v0, v1, v2, v3, v4, v5, v6, _) => ⟨v0, v1, v2, v3, v4, v5, v6, c.xProp, c.ianaProp⟩

/-- `TryFrom<Vec<ContentLine>> for Daylight` (`derive/src/component.rs:102-126`). -/
def tryFrom (ls : List ContentLine) : Res Daylight := (Comp.tryFrom fields ls).map ofComp

end Daylight

/-- `impl Serialize for Daylight` (`derive/src/component.rs:158-177`). -/
instance : Ser Daylight where
  isComponent := true
  ical v := v.toComp.ical c!"DAYLIGHT"

/-- `daylight` (`src/parser/components.rs:32`). -/
def daylight : P Daylight := componentP c!"DAYLIGHT" Daylight.tryFrom

/-- `FromStr for Daylight` (`derive/src/component.rs:147-155`). -/
def Daylight.ofStr : Str → Res Daylight := componentOfStr daylight

/-- `VTimezone` (`src/components/vtimezone.rs:6-19`). -/
structure VTimezone where
  tzid : Text
  lastModified : Option DateTime
  tzurl : Option Uri
  standard : List Standard
  daylight : List Daylight
  xProp : SMap ContentLine
  ianaProp : SMap ContentLine

namespace VTimezone

/-- The field table of `VTimezone` (`src/components/vtimezone.rs:6-19`), in declaration order. -/
@[reducible] def fields : List Field := [
  .req c!"TZID" Text inferInstance textProp,
  .opt c!"LAST-MODIFIED" DateTime inferInstance dateTimeProp,
  .opt c!"TZURL" Uri inferInstance uriProp,
  .nested c!"STANDARD" Standard inferInstance,
  .nested c!"DAYLIGHT" Daylight inferInstance]

/-- The fields of a `VTimezone` as a value of the generic component (`src/components/vtimezone.rs:6-19`). -/
def toComp (v : VTimezone) : Comp fields where
  slots := (v.tzid, v.lastModified, v.tzurl, v.standard, v.daylight, ())
  xProp := v.xProp
  ianaProp := v.ianaProp

/-- The inverse of `toComp` (`src/components/vtimezone.rs:6-19`). -/
def ofComp (c : Comp fields) : VTimezone :=
  match c.slots with
  | (v0, v1, v2, v3, v4, _) => ⟨v0, v1, v2, v3, v4, c.xProp, c.ianaProp⟩

/-- `TryFrom<Vec<ContentLine>> for VTimezone` (`derive/src/component.rs:102-126`). -/
def tryFrom (ls : List ContentLine) : Res VTimezone := (Comp.tryFrom fields ls).map ofComp

end VTimezone

/-- `impl Serialize for VTimezone` (`derive/src/component.rs:158-177`). -/
instance : Ser VTimezone where
  isComponent := true
  ical v := v.toComp.ical c!"VTIMEZONE"

/-- `vtimezone::Component` (`src/components/vtimezone.rs:28-32`). -/
inductive TzPart where
  | standard (s : Standard)
  | daylight (d : Daylight)

/-- One round of the loop filing the parts (`src/parser/components.rs:84-93`). -/
def VTimezone.file (z : VTimezone) : TzPart → VTimezone
  | .standard s => { z with standard := z.standard ++ [s] }
  | .daylight d => { z with daylight := z.daylight ++ [d] }

/-- `vtimezone` (`src/parser/components.rs:66-100`). -/
def vtimezone : P VTimezone :=
  mapRes (delimited (tag c!"BEGIN:VTIMEZONE\r\n")
    (pair contentLines (many0 (alt (map standard .standard) (map daylight .daylight))))
    (tag c!"END:VTIMEZONE\r\n")) fun (ls, parts) =>
    (VTimezone.tryFrom ls).map fun z => parts.foldl VTimezone.file z

/-- `FromStr for VTimezone` (`derive/src/component.rs:147-155`). -/
def VTimezone.ofStr : Str → Res VTimezone := componentOfStr vtimezone

/-! ## To-dos -/

/-- `VTodo` (`src/components/vtodo.rs:4-43`). -/
structure VTodo where
  dtstamp : DateTime
  uid : Text
  class_ : Option Class
  completed : Option DateTime
  created : Option DateTime
  dtstart : Option Date
  geo : Option Geo
  lastModified : Option DateTime
  location : Option Text
  organizer : Option Uri
  percentComplete : Option Nat
  priority : Option Nat
  recurid : Option Date
  sequence : Option Nat
  status : Option Status
  summary : Option Text
  url : Option Uri
  rrule : Option Recur
  due : Option Date
  duration : Option TimeDelta
  attach : List Text
  attendee : List Uri
  categories : List Text
  comment : List Text
  contact : List Text
  exdate : List Date
  rstatus : List RequestStatus
  relatedTo : List Text
  resources : List Text
  rdate : List RDate
  xProp : SMap ContentLine
  ianaProp : SMap ContentLine

namespace VTodo

/-- The field table of `VTodo` (`src/components/vtodo.rs:4-43`), in declaration order. -/
@[reducible] def fields : List Field := [
  .req c!"DTSTAMP" DateTime inferInstance dateTimeProp,
  .req c!"UID" Text inferInstance textProp,
  .opt c!"CLASS" Class inferInstance classProp,
  .opt c!"COMPLETED" DateTime inferInstance dateTimeProp,
  .opt c!"CREATED" DateTime inferInstance dateTimeProp,
  .opt c!"DTSTART" Date inferInstance dateProp,
  .opt c!"GEO" Geo inferInstance Ikal.geo,
  .opt c!"LAST-MODIFIED" DateTime inferInstance dateTimeProp,
  .opt c!"LOCATION" Text inferInstance textProp,
  .opt c!"ORGANIZER" Uri inferInstance uriProp,
  .opt c!"PERCENT-COMPLETE" Nat inferInstance Ikal.percentComplete,
  .opt c!"PRIORITY" Nat inferInstance Ikal.priority,
  .opt c!"RECURID" Date inferInstance dateProp,
  .opt c!"SEQUENCE" Nat inferInstance u32Prop,
  .opt c!"STATUS" Status inferInstance Ikal.status,
  .opt c!"SUMMARY" Text inferInstance textProp,
  .opt c!"URL" Uri inferInstance uriProp,
  .opt c!"RRULE" Recur inferInstance Ikal.rrule,
  .opt c!"DUE" Date inferInstance dateProp,
  .opt c!"DURATION" TimeDelta inferInstance Ikal.duration,
  .push c!"ATTACH" Text inferInstance textProp,
  .push c!"ATTENDEE" Uri inferInstance uriProp,
  .append c!"CATEGORIES" Text inferInstance textListProp,
  .push c!"COMMENT" Text inferInstance textProp,
  .push c!"CONTACT" Text inferInstance textProp,
  .append c!"EXDATE" Date inferInstance Ikal.exdate,
  .push c!"RSTATUS" RequestStatus inferInstance Ikal.rstatus,
  .push c!"RELATED-TO" Text inferInstance textProp,
  .append c!"RESOURCES" Text inferInstance textListProp,
  .push c!"RDATE" RDate inferInstance Ikal.rdate]

/-- The fields of a `VTodo` as a value of the generic component (`src/components/vtodo.rs:4-43`). -/
def toComp (v : VTodo) : Comp fields where
  slots := (v.dtstamp, v.uid, v.class_, v.completed, v.created, v.dtstart, v.geo, v.lastModified, v.location, v.organizer, v.percentComplete, v.priority, v.recurid, v.sequence, v.status, v.summary, v.url, v.rrule, v.due, v.duration, v.attach, v.attendee, v.categories, v.comment, v.contact, v.exdate, v.rstatus, v.relatedTo, v.resources, v.rdate, ())
  xProp := v.xProp
  ianaProp := v.ianaProp

/-- The inverse of `toComp` (`src/components/vtodo.rs:4-43`). -/
def ofComp (c : Comp fields) : VTodo :=
  match c.slots with
  | (v0, v1, v2, v3, v4, v5, v6, v7, v8, v9, v10, v11, v12, v13, v14, v15, v16, v17, v18, v19, v20, v21, v22, v23, v24, v25, v26, v27, v28, v29, _) => ⟨v0, v1, v2, v3, v4, v5, v6, v7, v8, v9, v10, v11, v12, v13, v14, v15, v16, v17, v18, v19, v20, v21, v22, v23, v24, v25, v26, v27, v28, v29, c.xProp, c.ianaProp⟩

/-- `TryFrom<Vec<ContentLine>> for VTodo` (`derive/src/component.rs:102-126`). -/
def tryFrom (ls : List ContentLine) : Res VTodo := (Comp.tryFrom fields ls).map ofComp

end VTodo

/-- `impl Serialize for VTodo` (`derive/src/component.rs:158-177`). -/
instance : Ser VTodo where
  isComponent := true
  ical v := v.toComp.ical c!"VTODO"

/-- `vtodo` (`src/parser/components.rs:29`). -/
def vtodo : P VTodo := componentP c!"VTODO" VTodo.tryFrom

/-- `FromStr for VTodo` (`derive/src/component.rs:147-155`). -/
def VTodo.ofStr : Str → Res VTodo := componentOfStr vtodo

/-! ## Calendars -/

/-- `VCalendar` (`src/components/vcalendar.rs:4-26`). -/
structure VCalendar where
  prodid : Text
  version : Text
  calscale : Option Text
  method : Option Text
  alarms : List VAlarm
  events : List VEvent
  freebusy : List VFreebusy
  journals : List VJournal
  todo : List VTodo
  timezones : List VTimezone
  xProp : SMap ContentLine
  ianaProp : SMap ContentLine

namespace VCalendar

/-- The field table of `VCalendar` (`src/components/vcalendar.rs:4-26`), in declaration order. -/
@[reducible] def fields : List Field := [
  .req c!"PRODID" Text inferInstance textProp,
  .req c!"VERSION" Text inferInstance textProp,
  .opt c!"CALSCALE" Text inferInstance textProp,
  .opt c!"METHOD" Text inferInstance textProp,
  .nested c!"ALARMS" VAlarm inferInstance,
  .nested c!"EVENTS" VEvent inferInstance,
  .nested c!"FREEBUSY" VFreebusy inferInstance,
  .nested c!"JOURNALS" VJournal inferInstance,
  .nested c!"TODO" VTodo inferInstance,
  .nested c!"TIMEZONES" VTimezone inferInstance]

/-- The fields of a `VCalendar` as a value of the generic component (`src/components/vcalendar.rs:4-26`). -/
def toComp (v : VCalendar) : Comp fields where
  slots := (v.prodid, v.version, v.calscale, v.method, v.alarms, v.events, v.freebusy, v.journals, v.todo, v.timezones, ())
  xProp := v.xProp
  ianaProp := v.ianaProp

/-- The inverse of `toComp` (`src/components/vcalendar.rs:4-26`). -/
def ofComp (c : Comp fields) : VCalendar :=
  match c.slots with
  | (v0, v1, v2, v3, v4, v5, v6, v7, v8, v9, _) => ⟨v0, v1, v2, v3, v4, v5, v6, v7, v8, v9, c.xProp, c.ianaProp⟩

/-- `TryFrom<Vec<ContentLine>> for VCalendar` (`derive/src/component.rs:102-126`). -/
def tryFrom (ls : List ContentLine) : Res VCalendar := (Comp.tryFrom fields ls).map ofComp

end VCalendar

/-- `impl Serialize for VCalendar` (`derive/src/component.rs:158-177`). -/
instance : Ser VCalendar where
  isComponent := true
  ical v := v.toComp.ical c!"VCALENDAR"

/-- `components::Component` (`src/components/mod.rs:21-29`). -/
inductive Component where
  | alarm (c : VAlarm)
  | event (c : VEvent)
  | freebusy (c : VFreebusy)
  | journal (c : VJournal)
  | timezone (c : VTimezone)
  | todo (c : VTodo)

/-- `component` (`src/parser/components.rs:102-115`). -/
def component : P Component :=
  alt (map valarm .alarm) (alt (map vevent .event) (alt (map vfreebusy .freebusy)
    (alt (map vjournal .journal) (alt (map vtimezone .timezone) (map vtodo .todo)))))

/-- `components` (`src/parser/components.rs:117-119`). -/
def components : P (List Component) := many0 component

/-- One round of the loop filing the components (`src/parser/components.rs:139-148`). -/
def VCalendar.file (v : VCalendar) : Component → VCalendar
  | .alarm c => { v with alarms := v.alarms ++ [c] }
  | .event c => { v with events := v.events ++ [c] }
  | .freebusy c => { v with freebusy := v.freebusy ++ [c] }
  | .journal c => { v with journals := v.journals ++ [c] }
  | .todo c => { v with todo := v.todo ++ [c] }
  | .timezone c => { v with timezones := v.timezones ++ [c] }

/-- `vcalendar` (`src/parser/components.rs:121-155`); the closing tag has no line break. -/
def vcalendar : P VCalendar :=
  mapRes (delimited (tag c!"BEGIN:VCALENDAR\r\n") (pair contentLines components)
    (tag c!"END:VCALENDAR")) fun (ls, cs) =>
    (VCalendar.tryFrom ls).map fun v => cs.foldl VCalendar.file v

/-- `FromStr for VCalendar` (`derive/src/component.rs:147-155`). -/
def VCalendar.ofStr : Str → Res VCalendar := componentOfStr vcalendar

end

end Ikal
