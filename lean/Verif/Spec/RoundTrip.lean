import Verif.Components
import Verif.Spec.Text
import Verif.Spec.Rule

/-!
# Specification: the values that survive being written and read back

Each predicate says of a value of a property that the text written for it means that value again.
-/

namespace Ikal.Spec

variable [Platform]

/-- A text with something to write, nothing to escape, no line break, and parameters that survive. -/
def GoodText (t : Text) : Prop := t.text ≠ [] ∧ Plain t.text ∧ '\r' ∉ t.text ∧ SafeParams t.params

/-- The same for an URI. -/
def GoodUri (u : Uri) : Prop := u.uri ≠ [] ∧ Plain u.uri ∧ '\r' ∉ u.uri ∧ SafeParams u.params

/-- A standard classification, or another in capitals. -/
def GoodClass (c : Class) : Prop :=
  ∀ s, c = .custom s → s ≠ [] ∧ upperStr s = s ∧ s ≠ c!"PUBLIC" ∧ s ≠ c!"PRIVATE" ∧ s ≠ c!"CONFIDENTIAL" ∧ '\n' ∉ s ∧ '\r' ∉ s

/-- A number that is read back from the text it is shown as, at the end of a text and before a semicolon. -/
def GoodFloat (shown : Platform.F32 → Str) (x : Platform.F32) : Prop :=
  Platform.floatParse (shown x) = some (x, []) ∧ (∀ r, Platform.floatParse (shown x ++ ';' :: r) = some (x, ';' :: r)) ∧
  '\n' ∉ shown x ∧ '\r' ∉ shown x

/-- A position whose coordinates survive. -/
def GoodGeo (g : Geo) : Prop := GoodFloat Platform.floatShow g.lat ∧ GoodFloat Platform.floatShow g.lon

/-- A request status with a code that survives and texts without anything to escape. -/
def GoodRequestStatus (r : RequestStatus) : Prop :=
  GoodFloat Platform.floatShow1 r.statcode ∧ Plain r.statdesc ∧ '\r' ∉ r.statdesc ∧ ∀ e ∈ r.extdata, Plain e ∧ '\r' ∉ e

/-- An offset of whole minutes. -/
def GoodOffset (o : FixedOffset) : Prop := o.Valid ∧ o.secs % 60 = 0

/-- A trigger at a time or after a duration that survives. -/
def GoodTrigger : Trigger → Prop
  | .dateTime t => PlainDateTime t
  | .duration d => WholeDuration d

/-- A period whose bounds survive and which does not have a negative duration. -/
def GoodPeriod : Period → Prop
  | .startEnd s e => PlainDateTime s ∧ PlainDateTime e
  | .startDur s d => PlainDateTime s ∧ WholeDuration d ∧ 0 ≤ d.nanos

/-- Texts on one line: without parameters and anything to escape; a single one is not empty. -/
def GoodTexts (l : List Text) : Prop :=
  (∀ t ∈ l, t.params = [] ∧ Plain t.text ∧ '\r' ∉ t.text) ∧ l ≠ [⟨[], []⟩]

/-- None or one. -/
def AtMostOne {α : Type} (P : α → Prop) (l : List α) : Prop := l.length ≤ 1 ∧ ∀ a ∈ l, P a

/-- The values of an audio alarm survive, repeatable properties have at most one value, and there are no extension properties. -/
structure GoodAudio (v : Audio) : Prop where
  action : GoodText v.action
  trigger : GoodTrigger v.trigger
  duration : ∀ a ∈ v.duration, WholeDuration a
  repeat_ : ∀ n ∈ v.repeat_, n ≤ 4294967295
  attach : AtMostOne GoodText v.attach
  xProp : v.xProp = []
  ianaProp : v.ianaProp = []

/-- The values of a display alarm survive, repeatable properties have at most one value, and there are no extension properties. -/
structure GoodDisplay (v : Display) : Prop where
  action : GoodText v.action
  trigger : GoodTrigger v.trigger
  description : GoodText v.description
  duration : ∀ a ∈ v.duration, WholeDuration a
  repeat_ : ∀ n ∈ v.repeat_, n ≤ 4294967295
  xProp : v.xProp = []
  ianaProp : v.ianaProp = []

/-- The values of an e-mail alarm survive, repeatable properties have at most one value, and there are no extension properties. -/
structure GoodEmail (v : Email) : Prop where
  action : GoodText v.action
  trigger : GoodTrigger v.trigger
  description : GoodText v.description
  summary : GoodText v.summary
  attendee : AtMostOne GoodUri v.attendee
  duration : ∀ a ∈ v.duration, WholeDuration a
  repeat_ : ∀ n ∈ v.repeat_, n ≤ 4294967295
  attach : AtMostOne GoodText v.attach
  xProp : v.xProp = []
  ianaProp : v.ianaProp = []

/-- An alarm whose values survive and whose action says of which kind it is. -/
def GoodVAlarm : VAlarm → Prop
  | .audio a => GoodAudio a ∧ a.action.text = c!"AUDIO"
  | .display a => GoodDisplay a ∧ a.action.text = c!"DISPLAY"
  | .email a => GoodEmail a ∧ a.action.text = c!"EMAIL"

/-- The values of an event survive, repeatable properties have at most one value, and there are no recurrence dates, alarms and
extension properties. -/
structure GoodVEvent (v : VEvent) : Prop where
  dtstamp : PlainDateTime v.dtstamp
  uid : GoodText v.uid
  dtstart : PlainDate v.dtstart
  class_ : ∀ a ∈ v.class_, GoodClass a
  created : ∀ a ∈ v.created, PlainDateTime a
  description : ∀ a ∈ v.description, GoodText a
  geo : ∀ a ∈ v.geo, GoodGeo a
  lastModified : ∀ a ∈ v.lastModified, PlainDateTime a
  location : ∀ a ∈ v.location, GoodText a
  organizer : ∀ a ∈ v.organizer, GoodUri a
  priority : ∀ n ∈ v.priority, n ≤ 9
  sequence : ∀ n ∈ v.sequence, n ≤ 4294967295
  summary : ∀ a ∈ v.summary, GoodText a
  url : ∀ a ∈ v.url, GoodUri a
  recurid : ∀ a ∈ v.recurid, PlainDate a
  rrule : ∀ a ∈ v.rrule, PlainRule a
  dtend : ∀ a ∈ v.dtend, PlainDate a
  duration : ∀ a ∈ v.duration, WholeDuration a
  attach : AtMostOne GoodText v.attach
  attendee : AtMostOne GoodUri v.attendee
  categories : GoodTexts v.categories
  comment : AtMostOne GoodText v.comment
  contact : AtMostOne GoodText v.contact
  exdate : ∀ a ∈ v.exdate, PlainDate a
  rstatus : AtMostOne GoodRequestStatus v.rstatus
  relatedTo : AtMostOne GoodText v.relatedTo
  resources : GoodTexts v.resources
  rdate : v.rdate = []
  alarms : v.alarms = []
  xProp : v.xProp = []
  ianaProp : v.ianaProp = []

/-- The values of a free/busy component survive, repeatable properties have at most one value, and there are no extension properties. -/
structure GoodVFreebusy (v : VFreebusy) : Prop where
  dtstamp : PlainDateTime v.dtstamp
  uid : GoodText v.uid
  contact : ∀ a ∈ v.contact, GoodText a
  dtstart : ∀ a ∈ v.dtstart, PlainDate a
  dtend : ∀ a ∈ v.dtend, PlainDate a
  organizer : ∀ a ∈ v.organizer, GoodUri a
  url : ∀ a ∈ v.url, GoodUri a
  attendee : AtMostOne GoodUri v.attendee
  comment : AtMostOne GoodText v.comment
  freebusy : ∀ a ∈ v.freebusy, GoodPeriod a
  rstatus : AtMostOne GoodRequestStatus v.rstatus
  xProp : v.xProp = []
  ianaProp : v.ianaProp = []

/-- The values of a journal entry survive, repeatable properties have at most one value, and there are no recurrence dates and
extension properties. -/
structure GoodVJournal (v : VJournal) : Prop where
  dtstamp : PlainDateTime v.dtstamp
  uid : GoodText v.uid
  class_ : ∀ a ∈ v.class_, GoodClass a
  created : ∀ a ∈ v.created, PlainDateTime a
  dtstart : PlainDate v.dtstart
  lastModified : ∀ a ∈ v.lastModified, PlainDateTime a
  organizer : ∀ a ∈ v.organizer, GoodUri a
  recurid : ∀ a ∈ v.recurid, PlainDate a
  sequence : ∀ n ∈ v.sequence, n ≤ 4294967295
  summary : ∀ a ∈ v.summary, GoodText a
  url : ∀ a ∈ v.url, GoodUri a
  rrule : ∀ a ∈ v.rrule, PlainRule a
  attach : AtMostOne GoodText v.attach
  attendee : AtMostOne GoodUri v.attendee
  categories : GoodTexts v.categories
  comment : AtMostOne GoodText v.comment
  contact : AtMostOne GoodText v.contact
  description : AtMostOne GoodText v.description
  exdate : ∀ a ∈ v.exdate, PlainDate a
  relatedTo : AtMostOne GoodText v.relatedTo
  rdate : v.rdate = []
  rstatus : AtMostOne GoodRequestStatus v.rstatus
  xProp : v.xProp = []
  ianaProp : v.ianaProp = []

/-- The values of a standard part survive, repeatable properties have at most one value, and there are no recurrence dates and
extension properties. -/
structure GoodStandard (v : Standard) : Prop where
  dtstart : PlainDate v.dtstart
  tzoffsetto : GoodOffset v.tzoffsetto
  tzoffsetfrom : GoodOffset v.tzoffsetfrom
  rrule : ∀ a ∈ v.rrule, PlainRule a
  comment : AtMostOne GoodText v.comment
  rdate : v.rdate = []
  tzname : AtMostOne GoodText v.tzname
  xProp : v.xProp = []
  ianaProp : v.ianaProp = []

/-- The values of a daylight part survive, repeatable properties have at most one value, and there are no recurrence dates and
extension properties. -/
structure GoodDaylight (v : Daylight) : Prop where
  dtstart : PlainDate v.dtstart
  tzoffsetto : GoodOffset v.tzoffsetto
  tzoffsetfrom : GoodOffset v.tzoffsetfrom
  rrule : ∀ a ∈ v.rrule, PlainRule a
  comment : AtMostOne GoodText v.comment
  rdate : v.rdate = []
  tzname : AtMostOne GoodText v.tzname
  xProp : v.xProp = []
  ianaProp : v.ianaProp = []

/-- The values of a time zone survive, it has at most one part of each kind, which survive, and there are no extension properties. -/
structure GoodVTimezone (v : VTimezone) : Prop where
  tzid : GoodText v.tzid
  lastModified : ∀ a ∈ v.lastModified, PlainDateTime a
  tzurl : ∀ a ∈ v.tzurl, GoodUri a
  standard : AtMostOne GoodStandard v.standard
  daylight : AtMostOne GoodDaylight v.daylight
  xProp : v.xProp = []
  ianaProp : v.ianaProp = []

/-- The values of a to-do survive, repeatable properties have at most one value, and there are no recurrence dates and
extension properties. -/
structure GoodVTodo (v : VTodo) : Prop where
  dtstamp : PlainDateTime v.dtstamp
  uid : GoodText v.uid
  class_ : ∀ a ∈ v.class_, GoodClass a
  completed : ∀ a ∈ v.completed, PlainDateTime a
  created : ∀ a ∈ v.created, PlainDateTime a
  dtstart : ∀ a ∈ v.dtstart, PlainDate a
  geo : ∀ a ∈ v.geo, GoodGeo a
  lastModified : ∀ a ∈ v.lastModified, PlainDateTime a
  location : ∀ a ∈ v.location, GoodText a
  organizer : ∀ a ∈ v.organizer, GoodUri a
  percentComplete : ∀ n ∈ v.percentComplete, n ≤ 255
  priority : ∀ n ∈ v.priority, n ≤ 9
  recurid : ∀ a ∈ v.recurid, PlainDate a
  sequence : ∀ n ∈ v.sequence, n ≤ 4294967295
  summary : ∀ a ∈ v.summary, GoodText a
  url : ∀ a ∈ v.url, GoodUri a
  rrule : ∀ a ∈ v.rrule, PlainRule a
  due : ∀ a ∈ v.due, PlainDate a
  duration : ∀ a ∈ v.duration, WholeDuration a
  attach : AtMostOne GoodText v.attach
  attendee : AtMostOne GoodUri v.attendee
  categories : GoodTexts v.categories
  comment : AtMostOne GoodText v.comment
  contact : AtMostOne GoodText v.contact
  exdate : ∀ a ∈ v.exdate, PlainDate a
  rstatus : AtMostOne GoodRequestStatus v.rstatus
  relatedTo : AtMostOne GoodText v.relatedTo
  resources : GoodTexts v.resources
  rdate : v.rdate = []
  xProp : v.xProp = []
  ianaProp : v.ianaProp = []

/-- The values of a calendar survive, it has at most one component of each kind, which survive, and there are no alarms and
extension properties. -/
structure GoodVCalendar (v : VCalendar) : Prop where
  prodid : GoodText v.prodid
  version : GoodText v.version
  calscale : ∀ a ∈ v.calscale, GoodText a
  method : ∀ a ∈ v.method, GoodText a
  alarms : v.alarms = []
  events : AtMostOne GoodVEvent v.events
  freebusy : AtMostOne GoodVFreebusy v.freebusy
  journals : AtMostOne GoodVJournal v.journals
  todo : AtMostOne GoodVTodo v.todo
  timezones : AtMostOne GoodVTimezone v.timezones
  xProp : v.xProp = []
  ianaProp : v.ianaProp = []

end Ikal.Spec
