import Verif.Spec.Saves
import Verif.Iter

/-!
# Specification: the local time zone

Two machines that are alike except for their local time zones.
-/

namespace Ikal.Spec.Zones

/-- The same machine with another local time zone: `o` is the offset at each instant, `l` says when the clocks show a time. -/
@[reducible] def elsewhere (P : Platform) (o : Int → Int) (l : Int → LocalResult) : Platform := { P with tzOffset := o, tzLocal := l }

variable {P : Platform} {o : Int → Int} {l : Int → LocalResult}

/-! ## The same value there

The types of values with floating point numbers mention the machine; these functions rebuild a value field by field. -/

/-- The same position. -/
def Geo.carry (g : @Geo P) : @Geo (elsewhere P o l) := @Geo.mk (elsewhere P o l) g.lat g.lon

/-- The same request status. -/
def RequestStatus.carry (r : @RequestStatus P) : @RequestStatus (elsewhere P o l) := @RequestStatus.mk (elsewhere P o l) r.statcode r.statdesc r.extdata

/-- The same event in the other zone. -/
def VEvent.carry (v : @VEvent P) : @VEvent (elsewhere P o l) := @VEvent.mk (elsewhere P o l)
  v.dtstamp v.uid v.dtstart v.class_ v.created v.description (v.geo.map Geo.carry) v.lastModified v.location v.organizer v.priority v.sequence v.status v.summary v.transp v.url v.recurid v.rrule v.dtend v.duration v.attach v.attendee v.categories v.comment v.contact v.exdate (v.rstatus.map RequestStatus.carry) v.relatedTo v.resources v.rdate v.alarms v.xProp v.ianaProp

/-- The same to-do in the other zone. -/
def VTodo.carry (v : @VTodo P) : @VTodo (elsewhere P o l) := @VTodo.mk (elsewhere P o l)
  v.dtstamp v.uid v.class_ v.completed v.created v.dtstart (v.geo.map Geo.carry) v.lastModified v.location v.organizer v.percentComplete v.priority v.recurid v.sequence v.status v.summary v.url v.rrule v.due v.duration v.attach v.attendee v.categories v.comment v.contact v.exdate (v.rstatus.map RequestStatus.carry) v.relatedTo v.resources v.rdate v.xProp v.ianaProp

/-- The same journal entry in the other zone. -/
def VJournal.carry (v : @VJournal P) : @VJournal (elsewhere P o l) := @VJournal.mk (elsewhere P o l)
  v.dtstamp v.uid v.class_ v.created v.dtstart v.lastModified v.organizer v.recurid v.sequence v.status v.summary v.url v.rrule v.attach v.attendee v.categories v.comment v.contact v.description v.exdate v.relatedTo v.rdate (v.rstatus.map RequestStatus.carry) v.xProp v.ianaProp

/-- The same free/busy time in the other zone. -/
def VFreebusy.carry (v : @VFreebusy P) : @VFreebusy (elsewhere P o l) := @VFreebusy.mk (elsewhere P o l)
  v.dtstamp v.uid v.contact v.dtstart v.dtend v.organizer v.url v.attendee v.comment v.freebusy (v.rstatus.map RequestStatus.carry) v.xProp v.ianaProp

/-- The same calendar in the other zone. -/
def VCalendar.carry (v : @VCalendar P) : @VCalendar (elsewhere P o l) := @VCalendar.mk (elsewhere P o l)
  v.prodid v.version v.calscale v.method v.alarms (v.events.map VEvent.carry) (v.freebusy.map VFreebusy.carry) (v.journals.map VJournal.carry) (v.todo.map VTodo.carry) v.timezones v.xProp v.ianaProp

/-! ## The instants in a component -/

def opt {α : Type} (f : α → List NaiveDateTime) : Option α → List NaiveDateTime
  | none => []
  | some a => f a

def DateTime.instants : DateTime → List NaiveDateTime
  | .naive _ => []
  | .loc u => [u]

def Date.instants : Date → List NaiveDateTime
  | .date _ => []
  | .dateTime t => DateTime.instants t

def Trigger.instants : Trigger → List NaiveDateTime
  | .duration _ => []
  | .dateTime t => DateTime.instants t

def Period.instants : Period → List NaiveDateTime
  | .startEnd a e => DateTime.instants a ++ DateTime.instants e
  | .startDur a _ => DateTime.instants a

def RDate.instants : RDate → List NaiveDateTime
  | .date ds => ds.flatMap Date.instants
  | .period ps => ps.flatMap Period.instants

/-- A rule has an instant if its `UNTIL` is one. -/
def Recur.instants (r : Recur) : List NaiveDateTime := opt Date.instants r.until_

/-- The instants in a `Audio` (`src/components/valarm.rs:73-84`). -/
def Audio.instants (v : Audio) : List NaiveDateTime :=
  Trigger.instants v.trigger

/-- The instants in a `Display` (`src/components/valarm.rs:101-112`). -/
def Display.instants (v : Display) : List NaiveDateTime :=
  Trigger.instants v.trigger

/-- The instants in a `Email` (`src/components/valarm.rs:129-143`). -/
def Email.instants (v : Email) : List NaiveDateTime :=
  Trigger.instants v.trigger

/-- The instants in an alarm. -/
def VAlarm.instants : VAlarm → List NaiveDateTime
  | .audio a => Audio.instants a
  | .display a => Display.instants a
  | .email a => Email.instants a

/-- The instants in a `VEvent` (`src/components/vevent.rs:4-45`). -/
def VEvent.instants {P : Platform} (v : @VEvent P) : List NaiveDateTime :=
  DateTime.instants v.dtstamp ++
  Date.instants v.dtstart ++
  opt DateTime.instants v.created ++
  opt DateTime.instants v.lastModified ++
  opt Date.instants v.recurid ++
  opt Recur.instants v.rrule ++
  opt Date.instants v.dtend ++
  v.exdate.flatMap Date.instants ++
  v.rdate.flatMap RDate.instants ++
  v.alarms.flatMap VAlarm.instants

/-- The instants in a `VTodo` (`src/components/vtodo.rs:4-43`). -/
def VTodo.instants {P : Platform} (v : @VTodo P) : List NaiveDateTime :=
  DateTime.instants v.dtstamp ++
  opt DateTime.instants v.completed ++
  opt DateTime.instants v.created ++
  opt Date.instants v.dtstart ++
  opt DateTime.instants v.lastModified ++
  opt Date.instants v.recurid ++
  opt Recur.instants v.rrule ++
  opt Date.instants v.due ++
  v.exdate.flatMap Date.instants ++
  v.rdate.flatMap RDate.instants

/-- The instants in a `VJournal` (`src/components/vjournal.rs:4-35`). -/
def VJournal.instants {P : Platform} (v : @VJournal P) : List NaiveDateTime :=
  DateTime.instants v.dtstamp ++
  opt DateTime.instants v.created ++
  Date.instants v.dtstart ++
  opt DateTime.instants v.lastModified ++
  opt Date.instants v.recurid ++
  opt Recur.instants v.rrule ++
  v.exdate.flatMap Date.instants ++
  v.rdate.flatMap RDate.instants

/-- The instants in a `VFreebusy` (`src/components/vfreebusy.rs:4-22`). -/
def VFreebusy.instants {P : Platform} (v : @VFreebusy P) : List NaiveDateTime :=
  DateTime.instants v.dtstamp ++
  opt Date.instants v.dtstart ++
  opt Date.instants v.dtend ++
  v.freebusy.flatMap Period.instants

/-- The instants in a `Standard` (`src/components/vtimezone.rs:34-49,76`). -/
def Standard.instants (v : Standard) : List NaiveDateTime :=
  Date.instants v.dtstart ++
  opt Recur.instants v.rrule ++
  v.rdate.flatMap RDate.instants

/-- The instants in a `Daylight` (`src/components/vtimezone.rs:34-49,77`). -/
def Daylight.instants (v : Daylight) : List NaiveDateTime :=
  Date.instants v.dtstart ++
  opt Recur.instants v.rrule ++
  v.rdate.flatMap RDate.instants

/-- The instants in a `VTimezone` (`src/components/vtimezone.rs:6-19`). -/
def VTimezone.instants (v : VTimezone) : List NaiveDateTime :=
  opt DateTime.instants v.lastModified ++
  v.standard.flatMap Standard.instants ++
  v.daylight.flatMap Daylight.instants

/-- The instants in a `VCalendar` (`src/components/vcalendar.rs:4-26`). -/
def VCalendar.instants {P : Platform} (v : @VCalendar P) : List NaiveDateTime :=
  v.alarms.flatMap VAlarm.instants ++
  v.events.flatMap VEvent.instants ++
  v.freebusy.flatMap VFreebusy.instants ++
  v.journals.flatMap VJournal.instants ++
  v.todo.flatMap VTodo.instants ++
  v.timezones.flatMap VTimezone.instants

/-- The two zones have the same offset at these instants. -/
def Agree (P : Platform) (o : Int → Int) (us : List NaiveDateTime) : Prop := ∀ u ∈ us, o u.toSecs = P.tzOffset u.toSecs

/-! ## Iteration -/

/-- A day or a floating time. -/
def Floating (d : Date) : Prop := Date.instants d = []

/-- A rule whose steps do not depend on the clocks: days and floating times with any rule, instants with a rule of weeks or shorter. -/
def Steady (r : Recur) (d : Date) : Prop := Floating d ∨ (r.freq ≠ .monthly ∧ r.freq ≠ .yearly)

/-- The iteration of a component that does not depend on the clocks: the steps do not, and if there is an `UNTIL`, it and the start are
days or floating times. -/
structure Unmoved {α : Type} [Recurring α] (v : α) : Prop where
  start : ∀ d r, Recurring.dtstart v = some d → Recurring.rrule v = some r → Steady r d
  end_ : ∀ d r, Recurring.dtend v = some d → Recurring.rrule v = some r → Steady r d
  until_ : ∀ d r u, Recurring.dtstart v = some d → Recurring.rrule v = some r → r.until_ = some u → Floating d ∧ Floating u

/-- The same outcome, with the same component. -/
def Outcome.carry {α β : Type} (f : α → β) : Outcome α → Outcome β
  | .item a => .item (f a)
  | .done => .done
  | .panic => .panic
  | .running => .running

/-- The same selection. -/
def Range.carry {α β : Type} (f : α → β) (r : Range α) : Range β := ⟨f r.state, r.skipping, r.finished, r.start, r.stop⟩

end Ikal.Spec.Zones
