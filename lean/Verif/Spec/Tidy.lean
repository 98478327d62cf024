import Verif.Spec.RoundTrip

/-!
# Specification: values that are written as one line each

A value is tidy when the text written for it has no line break of its own and its parameters are read back.  Most values always are; texts
and the like can contain a carriage return, which is written as it is.
-/

namespace Ikal.Spec

/-- Parameters that are read back, without quotes. -/
def TidyParams (m : SMap Str) : Prop := SafeParams m ∧ ∀ p ∈ m, '"' ∉ p.2

/-- Extension properties without carriage return, whose names have no line break. -/
def TidyExt (m : SMap ContentLine) : Prop := ∀ p ∈ m, '\n' ∉ p.1 ∧ '\r' ∉ p.1 ∧ '\r' ∉ p.2.value

variable [Platform]

/-- A text without carriage return, with parameters that are read back. -/
def TidyText (t : Text) : Prop := '\r' ∉ t.text ∧ TidyParams t.params

/-- The same for an URI. -/
def TidyUri (u : Uri) : Prop := '\r' ∉ u.uri ∧ TidyParams u.params

/-- A classification written without line break. -/
def TidyClass (c : Class) : Prop := ∀ s, c = .custom s → '\n' ∉ upperStr s ∧ '\r' ∉ upperStr s

/-- A number shown without line break. -/
def TidyFloat (shown : Platform.F32 → Str) (x : Platform.F32) : Prop := '\n' ∉ shown x ∧ '\r' ∉ shown x

/-- A position shown without line break. -/
def TidyGeo (g : Geo) : Prop := TidyFloat Platform.floatShow g.lat ∧ TidyFloat Platform.floatShow g.lon

/-- A request status without carriage return. -/
def TidyRequestStatus (r : RequestStatus) : Prop :=
  TidyFloat Platform.floatShow1 r.statcode ∧ '\r' ∉ r.statdesc ∧ ∀ e ∈ r.extdata, '\r' ∉ e

/-- The properties of an audio alarm are tidy. -/
structure TidyAudio (v : Audio) : Prop where
  action : TidyText v.action
  attach : ∀ a ∈ v.attach, TidyText a
  xProp : TidyExt v.xProp
  ianaProp : TidyExt v.ianaProp

/-- The properties of a display alarm are tidy. -/
structure TidyDisplay (v : Display) : Prop where
  action : TidyText v.action
  description : TidyText v.description
  xProp : TidyExt v.xProp
  ianaProp : TidyExt v.ianaProp

/-- The properties of an e-mail alarm are tidy. -/
structure TidyEmail (v : Email) : Prop where
  action : TidyText v.action
  description : TidyText v.description
  summary : TidyText v.summary
  attendee : ∀ a ∈ v.attendee, TidyUri a
  attach : ∀ a ∈ v.attach, TidyText a
  xProp : TidyExt v.xProp
  ianaProp : TidyExt v.ianaProp

/-- The properties of an event are tidy. -/
structure TidyVEvent (v : VEvent) : Prop where
  uid : TidyText v.uid
  class_ : ∀ a ∈ v.class_, TidyClass a
  description : ∀ a ∈ v.description, TidyText a
  geo : ∀ a ∈ v.geo, TidyGeo a
  location : ∀ a ∈ v.location, TidyText a
  organizer : ∀ a ∈ v.organizer, TidyUri a
  summary : ∀ a ∈ v.summary, TidyText a
  url : ∀ a ∈ v.url, TidyUri a
  attach : ∀ a ∈ v.attach, TidyText a
  attendee : ∀ a ∈ v.attendee, TidyUri a
  categories : ∀ a ∈ v.categories, TidyText a
  comment : ∀ a ∈ v.comment, TidyText a
  contact : ∀ a ∈ v.contact, TidyText a
  rstatus : ∀ a ∈ v.rstatus, TidyRequestStatus a
  relatedTo : ∀ a ∈ v.relatedTo, TidyText a
  resources : ∀ a ∈ v.resources, TidyText a
  xProp : TidyExt v.xProp
  ianaProp : TidyExt v.ianaProp

/-- The properties of a free/busy component are tidy. -/
structure TidyVFreebusy (v : VFreebusy) : Prop where
  uid : TidyText v.uid
  contact : ∀ a ∈ v.contact, TidyText a
  organizer : ∀ a ∈ v.organizer, TidyUri a
  url : ∀ a ∈ v.url, TidyUri a
  attendee : ∀ a ∈ v.attendee, TidyUri a
  comment : ∀ a ∈ v.comment, TidyText a
  rstatus : ∀ a ∈ v.rstatus, TidyRequestStatus a
  xProp : TidyExt v.xProp
  ianaProp : TidyExt v.ianaProp

/-- The properties of a journal entry are tidy. -/
structure TidyVJournal (v : VJournal) : Prop where
  uid : TidyText v.uid
  class_ : ∀ a ∈ v.class_, TidyClass a
  organizer : ∀ a ∈ v.organizer, TidyUri a
  summary : ∀ a ∈ v.summary, TidyText a
  url : ∀ a ∈ v.url, TidyUri a
  attach : ∀ a ∈ v.attach, TidyText a
  attendee : ∀ a ∈ v.attendee, TidyUri a
  categories : ∀ a ∈ v.categories, TidyText a
  comment : ∀ a ∈ v.comment, TidyText a
  contact : ∀ a ∈ v.contact, TidyText a
  description : ∀ a ∈ v.description, TidyText a
  relatedTo : ∀ a ∈ v.relatedTo, TidyText a
  rstatus : ∀ a ∈ v.rstatus, TidyRequestStatus a
  xProp : TidyExt v.xProp
  ianaProp : TidyExt v.ianaProp

/-- The properties of a standard part are tidy. -/
structure TidyStandard (v : Standard) : Prop where
  comment : ∀ a ∈ v.comment, TidyText a
  tzname : ∀ a ∈ v.tzname, TidyText a
  xProp : TidyExt v.xProp
  ianaProp : TidyExt v.ianaProp

/-- The properties of a daylight part are tidy. -/
structure TidyDaylight (v : Daylight) : Prop where
  comment : ∀ a ∈ v.comment, TidyText a
  tzname : ∀ a ∈ v.tzname, TidyText a
  xProp : TidyExt v.xProp
  ianaProp : TidyExt v.ianaProp

/-- The properties of a time zone are tidy. -/
structure TidyVTimezone (v : VTimezone) : Prop where
  tzid : TidyText v.tzid
  tzurl : ∀ a ∈ v.tzurl, TidyUri a
  xProp : TidyExt v.xProp
  ianaProp : TidyExt v.ianaProp

/-- The properties of a to-do are tidy. -/
structure TidyVTodo (v : VTodo) : Prop where
  uid : TidyText v.uid
  class_ : ∀ a ∈ v.class_, TidyClass a
  geo : ∀ a ∈ v.geo, TidyGeo a
  location : ∀ a ∈ v.location, TidyText a
  organizer : ∀ a ∈ v.organizer, TidyUri a
  summary : ∀ a ∈ v.summary, TidyText a
  url : ∀ a ∈ v.url, TidyUri a
  attach : ∀ a ∈ v.attach, TidyText a
  attendee : ∀ a ∈ v.attendee, TidyUri a
  categories : ∀ a ∈ v.categories, TidyText a
  comment : ∀ a ∈ v.comment, TidyText a
  contact : ∀ a ∈ v.contact, TidyText a
  rstatus : ∀ a ∈ v.rstatus, TidyRequestStatus a
  relatedTo : ∀ a ∈ v.relatedTo, TidyText a
  resources : ∀ a ∈ v.resources, TidyText a
  xProp : TidyExt v.xProp
  ianaProp : TidyExt v.ianaProp

/-- The properties of a calendar are tidy. -/
structure TidyVCalendar (v : VCalendar) : Prop where
  prodid : TidyText v.prodid
  version : TidyText v.version
  calscale : ∀ a ∈ v.calscale, TidyText a
  method : ∀ a ∈ v.method, TidyText a
  xProp : TidyExt v.xProp
  ianaProp : TidyExt v.ianaProp

/-- The properties of an alarm are tidy. -/
def TidyVAlarm : VAlarm → Prop
  | .audio a => TidyAudio a
  | .display a => TidyDisplay a
  | .email a => TidyEmail a

/-- The properties of an event and of its alarms are tidy. -/
structure DeepVEvent (v : VEvent) : Prop where
  props : TidyVEvent v
  alarms : ∀ a ∈ v.alarms, TidyVAlarm a

/-- The properties of a time zone and of its parts are tidy. -/
structure DeepVTimezone (v : VTimezone) : Prop where
  props : TidyVTimezone v
  standard : ∀ a ∈ v.standard, TidyStandard a
  daylight : ∀ a ∈ v.daylight, TidyDaylight a

/-- The properties of a calendar, of its components and of their parts are tidy. -/
structure DeepVCalendar (v : VCalendar) : Prop where
  props : TidyVCalendar v
  alarms : ∀ a ∈ v.alarms, TidyVAlarm a
  events : ∀ a ∈ v.events, DeepVEvent a
  freebusy : ∀ a ∈ v.freebusy, TidyVFreebusy a
  journals : ∀ a ∈ v.journals, TidyVJournal a
  todo : ∀ a ∈ v.todo, TidyVTodo a
  timezones : ∀ a ∈ v.timezones, DeepVTimezone a

end Ikal.Spec
