import Verif.Iter

/-!
# Equality of components

`#[derive(PartialEq)]` on the values and components, and equality of floats, which is not the identity: `NaN` is different from itself and `0.0` is
equal to `-0.0`.
-/

namespace Ikal

/-- Equality of 32-bit floats (`f32: PartialEq`).  What the standard says of it: it is symmetric and transitive. -/
class FloatEq [Platform] where
  feq : Platform.F32 → Platform.F32 → Bool
  symm : ∀ x y, feq x y → feq y x
  trans : ∀ x y z, feq x y → feq y z → feq x z

/-- `PartialEq`. -/
class PEq (α : Type) where
  eq : α → α → Bool

/-- The types that have `Eq`, and the types of the standard library and of chrono: text, numbers, dates, times, durations, offsets, rules, periods, triggers, content lines and maps of
them (`src/content_line.rs:7`, `src/properties/{class,date,period,rdate,recur,status,text,time_transparency,trigger,uri}.rs`). -/
instance (priority := low) {α : Type} [DecidableEq α] : PEq α where eq a b := decide (a = b)

/-- `Option: PartialEq`. -/
instance {α : Type} [PEq α] : PEq (Option α) where
  eq
    | some a, some b => PEq.eq a b
    | none, none => true
    | _, _ => false

/-- `Vec: PartialEq`, element by element. -/
def listEq {α : Type} [PEq α] : List α → List α → Bool
  | [], [] => true
  | a :: as, b :: bs => PEq.eq a b && listEq as bs
  | _, _ => false

instance {α : Type} [PEq α] : PEq (List α) where eq := listEq

section
variable [Platform] [FloatEq]

/-- `#[derive(PartialEq)]` on `Geo` (`src/properties/geo.rs:4`). -/
instance : PEq Geo where eq a b := FloatEq.feq a.lat b.lat && FloatEq.feq a.lon b.lon

/-- `#[derive(PartialEq)]` on `RequestStatus` (`src/properties/request_status.rs:4`). -/
instance : PEq RequestStatus where eq a b := FloatEq.feq a.statcode b.statcode && PEq.eq a.statdesc b.statdesc && PEq.eq a.extdata b.extdata

/-- `#[derive(PartialEq)]` on `Audio` (`src/components/valarm.rs:73`). -/
def Audio.eq (a b : Audio) : Bool :=
  PEq.eq a.action b.action && PEq.eq a.trigger b.trigger && PEq.eq a.duration b.duration && PEq.eq a.repeat_ b.repeat_ && PEq.eq a.attach b.attach &&
    PEq.eq a.xProp b.xProp && PEq.eq a.ianaProp b.ianaProp

instance : PEq Audio := ⟨Audio.eq⟩

/-- `#[derive(PartialEq)]` on `Display` (`src/components/valarm.rs:101`). -/
def Display.eq (a b : Display) : Bool :=
  PEq.eq a.action b.action && PEq.eq a.trigger b.trigger && PEq.eq a.description b.description && PEq.eq a.duration b.duration &&
    PEq.eq a.repeat_ b.repeat_ && PEq.eq a.xProp b.xProp && PEq.eq a.ianaProp b.ianaProp

instance : PEq Display := ⟨Display.eq⟩

/-- `#[derive(PartialEq)]` on `Email` (`src/components/valarm.rs:129`). -/
def Email.eq (a b : Email) : Bool :=
  PEq.eq a.action b.action && PEq.eq a.trigger b.trigger && PEq.eq a.description b.description && PEq.eq a.summary b.summary &&
    PEq.eq a.attendee b.attendee && PEq.eq a.duration b.duration && PEq.eq a.repeat_ b.repeat_ && PEq.eq a.attach b.attach && PEq.eq a.xProp b.xProp &&
    PEq.eq a.ianaProp b.ianaProp

instance : PEq Email := ⟨Email.eq⟩

/-- `#[derive(PartialEq)]` on `VAlarm` (`src/components/valarm.rs:4`). -/
def VAlarm.eq : VAlarm → VAlarm → Bool
  | .audio a, .audio b => PEq.eq a b
  | .display a, .display b => PEq.eq a b
  | .email a, .email b => PEq.eq a b
  | _, _ => false

instance : PEq VAlarm := ⟨VAlarm.eq⟩

/-- `#[derive(PartialEq)]` on `VEvent` (`src/components/vevent.rs:4`). -/
def VEvent.eq (a b : VEvent) : Bool :=
  PEq.eq a.dtstamp b.dtstamp && PEq.eq a.uid b.uid && PEq.eq a.dtstart b.dtstart && PEq.eq a.class_ b.class_ && PEq.eq a.created b.created &&
    PEq.eq a.description b.description && PEq.eq a.geo b.geo && PEq.eq a.lastModified b.lastModified && PEq.eq a.location b.location &&
    PEq.eq a.organizer b.organizer && PEq.eq a.priority b.priority && PEq.eq a.sequence b.sequence && PEq.eq a.status b.status &&
    PEq.eq a.summary b.summary && PEq.eq a.transp b.transp && PEq.eq a.url b.url && PEq.eq a.recurid b.recurid && PEq.eq a.rrule b.rrule &&
    PEq.eq a.dtend b.dtend && PEq.eq a.duration b.duration && PEq.eq a.attach b.attach && PEq.eq a.attendee b.attendee &&
    PEq.eq a.categories b.categories && PEq.eq a.comment b.comment && PEq.eq a.contact b.contact && PEq.eq a.exdate b.exdate &&
    PEq.eq a.rstatus b.rstatus && PEq.eq a.relatedTo b.relatedTo && PEq.eq a.resources b.resources && PEq.eq a.rdate b.rdate &&
    PEq.eq a.alarms b.alarms && PEq.eq a.xProp b.xProp && PEq.eq a.ianaProp b.ianaProp

instance : PEq VEvent := ⟨VEvent.eq⟩

/-- `#[derive(PartialEq)]` on `VFreebusy` (`src/components/vfreebusy.rs:4`). -/
def VFreebusy.eq (a b : VFreebusy) : Bool :=
  PEq.eq a.dtstamp b.dtstamp && PEq.eq a.uid b.uid && PEq.eq a.contact b.contact && PEq.eq a.dtstart b.dtstart && PEq.eq a.dtend b.dtend &&
    PEq.eq a.organizer b.organizer && PEq.eq a.url b.url && PEq.eq a.attendee b.attendee && PEq.eq a.comment b.comment && PEq.eq a.freebusy b.freebusy &&
    PEq.eq a.rstatus b.rstatus && PEq.eq a.xProp b.xProp && PEq.eq a.ianaProp b.ianaProp

instance : PEq VFreebusy := ⟨VFreebusy.eq⟩

/-- `#[derive(PartialEq)]` on `VJournal` (`src/components/vjournal.rs:4`). -/
def VJournal.eq (a b : VJournal) : Bool :=
  PEq.eq a.dtstamp b.dtstamp && PEq.eq a.uid b.uid && PEq.eq a.class_ b.class_ && PEq.eq a.created b.created && PEq.eq a.dtstart b.dtstart &&
    PEq.eq a.lastModified b.lastModified && PEq.eq a.organizer b.organizer && PEq.eq a.recurid b.recurid && PEq.eq a.sequence b.sequence &&
    PEq.eq a.status b.status && PEq.eq a.summary b.summary && PEq.eq a.url b.url && PEq.eq a.rrule b.rrule && PEq.eq a.attach b.attach &&
    PEq.eq a.attendee b.attendee && PEq.eq a.categories b.categories && PEq.eq a.comment b.comment && PEq.eq a.contact b.contact &&
    PEq.eq a.description b.description && PEq.eq a.exdate b.exdate && PEq.eq a.relatedTo b.relatedTo && PEq.eq a.rdate b.rdate &&
    PEq.eq a.rstatus b.rstatus && PEq.eq a.xProp b.xProp && PEq.eq a.ianaProp b.ianaProp

instance : PEq VJournal := ⟨VJournal.eq⟩

/-- `#[derive(PartialEq)]` on `Standard` (`src/components/vtimezone.rs:36`). -/
def Standard.eq (a b : Standard) : Bool :=
  PEq.eq a.dtstart b.dtstart && PEq.eq a.tzoffsetto b.tzoffsetto && PEq.eq a.tzoffsetfrom b.tzoffsetfrom && PEq.eq a.rrule b.rrule &&
    PEq.eq a.comment b.comment && PEq.eq a.rdate b.rdate && PEq.eq a.tzname b.tzname && PEq.eq a.xProp b.xProp && PEq.eq a.ianaProp b.ianaProp

instance : PEq Standard := ⟨Standard.eq⟩

/-- `#[derive(PartialEq)]` on `Daylight` (`src/components/vtimezone.rs:36`). -/
def Daylight.eq (a b : Daylight) : Bool :=
  PEq.eq a.dtstart b.dtstart && PEq.eq a.tzoffsetto b.tzoffsetto && PEq.eq a.tzoffsetfrom b.tzoffsetfrom && PEq.eq a.rrule b.rrule &&
    PEq.eq a.comment b.comment && PEq.eq a.rdate b.rdate && PEq.eq a.tzname b.tzname && PEq.eq a.xProp b.xProp && PEq.eq a.ianaProp b.ianaProp

instance : PEq Daylight := ⟨Daylight.eq⟩

/-- `#[derive(PartialEq)]` on `VTimezone` (`src/components/vtimezone.rs:6`). -/
def VTimezone.eq (a b : VTimezone) : Bool :=
  PEq.eq a.tzid b.tzid && PEq.eq a.lastModified b.lastModified && PEq.eq a.tzurl b.tzurl && PEq.eq a.standard b.standard &&
    PEq.eq a.daylight b.daylight && PEq.eq a.xProp b.xProp && PEq.eq a.ianaProp b.ianaProp

instance : PEq VTimezone := ⟨VTimezone.eq⟩

/-- `#[derive(PartialEq)]` on `VTodo` (`src/components/vtodo.rs:4`). -/
def VTodo.eq (a b : VTodo) : Bool :=
  PEq.eq a.dtstamp b.dtstamp && PEq.eq a.uid b.uid && PEq.eq a.class_ b.class_ && PEq.eq a.completed b.completed && PEq.eq a.created b.created &&
    PEq.eq a.dtstart b.dtstart && PEq.eq a.geo b.geo && PEq.eq a.lastModified b.lastModified && PEq.eq a.location b.location &&
    PEq.eq a.organizer b.organizer && PEq.eq a.percentComplete b.percentComplete && PEq.eq a.priority b.priority && PEq.eq a.recurid b.recurid &&
    PEq.eq a.sequence b.sequence && PEq.eq a.status b.status && PEq.eq a.summary b.summary && PEq.eq a.url b.url && PEq.eq a.rrule b.rrule &&
    PEq.eq a.due b.due && PEq.eq a.duration b.duration && PEq.eq a.attach b.attach && PEq.eq a.attendee b.attendee && PEq.eq a.categories b.categories &&
    PEq.eq a.comment b.comment && PEq.eq a.contact b.contact && PEq.eq a.exdate b.exdate && PEq.eq a.rstatus b.rstatus &&
    PEq.eq a.relatedTo b.relatedTo && PEq.eq a.resources b.resources && PEq.eq a.rdate b.rdate && PEq.eq a.xProp b.xProp && PEq.eq a.ianaProp b.ianaProp

instance : PEq VTodo := ⟨VTodo.eq⟩

/-- `#[derive(PartialEq)]` on `VCalendar` (`src/components/vcalendar.rs:4`). -/
def VCalendar.eq (a b : VCalendar) : Bool :=
  PEq.eq a.prodid b.prodid && PEq.eq a.version b.version && PEq.eq a.calscale b.calscale && PEq.eq a.method b.method && PEq.eq a.alarms b.alarms &&
    PEq.eq a.events b.events && PEq.eq a.freebusy b.freebusy && PEq.eq a.journals b.journals && PEq.eq a.todo b.todo && PEq.eq a.timezones b.timezones &&
    PEq.eq a.xProp b.xProp && PEq.eq a.ianaProp b.ianaProp

instance : PEq VCalendar := ⟨VCalendar.eq⟩

end

end Ikal
