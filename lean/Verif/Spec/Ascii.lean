import Verif.Components

/-!
# Specification: ASCII
-/

namespace Ikal.Spec

/-- Only ASCII characters. -/
def Ascii (s : Str) : Prop := ∀ c ∈ s, c.toNat < 128

instance (s : Str) : Decidable (Ascii s) := by unfold Ascii; infer_instance

/-- Parameters in ASCII. -/
def AsciiParams (m : SMap Str) : Prop := ∀ p ∈ m, Ascii p.1 ∧ Ascii p.2

/-- Extension properties with names and values in ASCII. -/
def AsciiExt (m : SMap ContentLine) : Prop := ∀ p ∈ m, Ascii p.1 ∧ Ascii p.2.value

variable [Platform]

/-- What is needed of the floating point numbers of the platform: what is left after reading one is the end of the text, and they are shown
in ASCII. -/
def SaneFloats : Prop :=
  (∀ s x r, Platform.floatParse s = some (x, r) → ∃ p, s = p ++ r) ∧
  ∀ x, Ascii (Platform.floatShow x) ∧ Ascii (Platform.floatShow1 x)

/-- A text in ASCII. -/
def AsciiText (t : Text) : Prop := Ascii t.text ∧ AsciiParams t.params

/-- An URI in ASCII. -/
def AsciiUri (t : Uri) : Prop := Ascii t.uri ∧ AsciiParams t.params

/-- A classification in ASCII. -/
def AsciiClass (c : Class) : Prop := ∀ s, c = .custom s → Ascii s

/-- A request status in ASCII. -/
def AsciiRequestStatus (r : RequestStatus) : Prop := Ascii r.statdesc ∧ ∀ e ∈ r.extdata, Ascii e

/-- The texts of an audio alarm are ASCII. -/
structure AsciiAudio (v : Audio) : Prop where
  action : AsciiText v.action
  attach : ∀ a ∈ v.attach, AsciiText a
  xProp : AsciiExt v.xProp
  ianaProp : AsciiExt v.ianaProp

/-- The texts of a display alarm are ASCII. -/
structure AsciiDisplay (v : Display) : Prop where
  action : AsciiText v.action
  description : AsciiText v.description
  xProp : AsciiExt v.xProp
  ianaProp : AsciiExt v.ianaProp

/-- The texts of an e-mail alarm are ASCII. -/
structure AsciiEmail (v : Email) : Prop where
  action : AsciiText v.action
  description : AsciiText v.description
  summary : AsciiText v.summary
  attendee : ∀ a ∈ v.attendee, AsciiUri a
  attach : ∀ a ∈ v.attach, AsciiText a
  xProp : AsciiExt v.xProp
  ianaProp : AsciiExt v.ianaProp

/-- The texts of an alarm are ASCII. -/
def AsciiVAlarm : VAlarm → Prop
  | .audio a => AsciiAudio a
  | .display a => AsciiDisplay a
  | .email a => AsciiEmail a

/-- The texts of an event are ASCII. -/
structure AsciiVEvent (v : VEvent) : Prop where
  uid : AsciiText v.uid
  class_ : ∀ a ∈ v.class_, AsciiClass a
  description : ∀ a ∈ v.description, AsciiText a
  location : ∀ a ∈ v.location, AsciiText a
  organizer : ∀ a ∈ v.organizer, AsciiUri a
  summary : ∀ a ∈ v.summary, AsciiText a
  url : ∀ a ∈ v.url, AsciiUri a
  attach : ∀ a ∈ v.attach, AsciiText a
  attendee : ∀ a ∈ v.attendee, AsciiUri a
  categories : ∀ a ∈ v.categories, AsciiText a
  comment : ∀ a ∈ v.comment, AsciiText a
  contact : ∀ a ∈ v.contact, AsciiText a
  rstatus : ∀ a ∈ v.rstatus, AsciiRequestStatus a
  relatedTo : ∀ a ∈ v.relatedTo, AsciiText a
  resources : ∀ a ∈ v.resources, AsciiText a
  alarms : ∀ a ∈ v.alarms, AsciiVAlarm a
  xProp : AsciiExt v.xProp
  ianaProp : AsciiExt v.ianaProp

/-- The texts of a free/busy component are ASCII. -/
structure AsciiVFreebusy (v : VFreebusy) : Prop where
  uid : AsciiText v.uid
  contact : ∀ a ∈ v.contact, AsciiText a
  organizer : ∀ a ∈ v.organizer, AsciiUri a
  url : ∀ a ∈ v.url, AsciiUri a
  attendee : ∀ a ∈ v.attendee, AsciiUri a
  comment : ∀ a ∈ v.comment, AsciiText a
  rstatus : ∀ a ∈ v.rstatus, AsciiRequestStatus a
  xProp : AsciiExt v.xProp
  ianaProp : AsciiExt v.ianaProp

/-- The texts of a journal entry are ASCII. -/
structure AsciiVJournal (v : VJournal) : Prop where
  uid : AsciiText v.uid
  class_ : ∀ a ∈ v.class_, AsciiClass a
  organizer : ∀ a ∈ v.organizer, AsciiUri a
  summary : ∀ a ∈ v.summary, AsciiText a
  url : ∀ a ∈ v.url, AsciiUri a
  attach : ∀ a ∈ v.attach, AsciiText a
  attendee : ∀ a ∈ v.attendee, AsciiUri a
  categories : ∀ a ∈ v.categories, AsciiText a
  comment : ∀ a ∈ v.comment, AsciiText a
  contact : ∀ a ∈ v.contact, AsciiText a
  description : ∀ a ∈ v.description, AsciiText a
  relatedTo : ∀ a ∈ v.relatedTo, AsciiText a
  rstatus : ∀ a ∈ v.rstatus, AsciiRequestStatus a
  xProp : AsciiExt v.xProp
  ianaProp : AsciiExt v.ianaProp

/-- The texts of the standard part of a time zone are ASCII. -/
structure AsciiStandard (v : Standard) : Prop where
  comment : ∀ a ∈ v.comment, AsciiText a
  tzname : ∀ a ∈ v.tzname, AsciiText a
  xProp : AsciiExt v.xProp
  ianaProp : AsciiExt v.ianaProp

/-- The texts of the daylight part of a time zone are ASCII. -/
structure AsciiDaylight (v : Daylight) : Prop where
  comment : ∀ a ∈ v.comment, AsciiText a
  tzname : ∀ a ∈ v.tzname, AsciiText a
  xProp : AsciiExt v.xProp
  ianaProp : AsciiExt v.ianaProp

/-- The texts of a time zone are ASCII. -/
structure AsciiVTimezone (v : VTimezone) : Prop where
  tzid : AsciiText v.tzid
  tzurl : ∀ a ∈ v.tzurl, AsciiUri a
  standard : ∀ a ∈ v.standard, AsciiStandard a
  daylight : ∀ a ∈ v.daylight, AsciiDaylight a
  xProp : AsciiExt v.xProp
  ianaProp : AsciiExt v.ianaProp

/-- The texts of a to-do are ASCII. -/
structure AsciiVTodo (v : VTodo) : Prop where
  uid : AsciiText v.uid
  class_ : ∀ a ∈ v.class_, AsciiClass a
  location : ∀ a ∈ v.location, AsciiText a
  organizer : ∀ a ∈ v.organizer, AsciiUri a
  summary : ∀ a ∈ v.summary, AsciiText a
  url : ∀ a ∈ v.url, AsciiUri a
  attach : ∀ a ∈ v.attach, AsciiText a
  attendee : ∀ a ∈ v.attendee, AsciiUri a
  categories : ∀ a ∈ v.categories, AsciiText a
  comment : ∀ a ∈ v.comment, AsciiText a
  contact : ∀ a ∈ v.contact, AsciiText a
  rstatus : ∀ a ∈ v.rstatus, AsciiRequestStatus a
  relatedTo : ∀ a ∈ v.relatedTo, AsciiText a
  resources : ∀ a ∈ v.resources, AsciiText a
  xProp : AsciiExt v.xProp
  ianaProp : AsciiExt v.ianaProp

/-- The texts of a calendar are ASCII. -/
structure AsciiVCalendar (v : VCalendar) : Prop where
  prodid : AsciiText v.prodid
  version : AsciiText v.version
  calscale : ∀ a ∈ v.calscale, AsciiText a
  method : ∀ a ∈ v.method, AsciiText a
  alarms : ∀ a ∈ v.alarms, AsciiVAlarm a
  events : ∀ a ∈ v.events, AsciiVEvent a
  freebusy : ∀ a ∈ v.freebusy, AsciiVFreebusy a
  journals : ∀ a ∈ v.journals, AsciiVJournal a
  todo : ∀ a ∈ v.todo, AsciiVTodo a
  timezones : ∀ a ∈ v.timezones, AsciiVTimezone a
  xProp : AsciiExt v.xProp
  ianaProp : AsciiExt v.ianaProp

end Ikal.Spec
