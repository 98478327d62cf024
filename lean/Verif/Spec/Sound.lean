import Verif.Spec.RoundTrip
import Verif.Spec.Parse
import Verif.Spec.Line
import Verif.Spec.Grammar

/-!
# Specification: what every value that is read is like

Predicates on values only: what can be relied on for a component that comes from a text, whatever the text.
-/

namespace Ikal.Spec

/-- The parameters of a line that was read: each name once, names of name characters, and values that are without double quote or without
semicolon and colon. -/
def ReadParams (m : SMap Str) : Prop := m.Wf ∧ ∀ p ∈ m, IsName p.1 ∧ ('"' ∉ p.2 ∨ ';' ∉ p.2 ∧ ':' ∉ p.2)

/-- A line that was read: a name of name characters, a value without line break. -/
def ReadLine (l : ContentLine) : Prop := IsName l.key ∧ '\n' ∉ l.value ∧ '\r' ∉ l.value ∧ ReadParams l.params

/-- Extension properties that were read: each name once, none of the known names, and each holds a line of that name. -/
def ReadExt (known : List Str) (sel : Str → Prop) (m : SMap ContentLine) : Prop :=
  m.Wf ∧ ∀ p ∈ m, p.1 ∉ known ∧ sel p.1 ∧ p.2.key = p.1 ∧ ReadLine p.2

variable [Platform]

/-- A text that was read has no line break. -/
def ReadText (t : Text) : Prop := '\n' ∉ t.text ∧ '\r' ∉ t.text ∧ ReadParams t.params

/-- The same for an URI. -/
def ReadUri (t : Uri) : Prop := '\n' ∉ t.uri ∧ '\r' ∉ t.uri ∧ ReadParams t.params

/-- A text of a list has no comma either, and no parameters. -/
def ReadItem (t : Text) : Prop := '\n' ∉ t.text ∧ '\r' ∉ t.text ∧ ',' ∉ t.text ∧ t.params = []

/-- A time that was read: of a day that exists, in range, in whole seconds; it may be a leap second. -/
def ReadTime (t : NaiveDateTime) : Prop := InRange t.date ∧ WholeSecond t

/-- A date-time that was read. -/
def ReadDateTime : DateTime → Prop
  | .naive t => ReadTime t
  | .loc t => ReadTime t

/-- A date that was read exists and is in range. -/
def ReadDate : Date → Prop
  | .date d => RealDate d ∧ InRange d
  | .dateTime t => ReadDateTime t

/-- A period that was read does not have a negative duration. -/
def ReadPeriod : Period → Prop
  | .startEnd a b => ReadDateTime a ∧ ReadDateTime b
  | .startDur a d => ReadDateTime a ∧ WholeDuration d ∧ 0 ≤ d.nanos

/-- Recurrence dates that were read. -/
def ReadRDate : RDate → Prop
  | .date ds => ∀ d ∈ ds, ReadDate d
  | .period ps => ∀ p ∈ ps, ReadPeriod p

/-- A trigger that was read. -/
def ReadTrigger : Trigger → Prop
  | .duration d => WholeDuration d
  | .dateTime t => ReadDateTime t

/-- A classification that was read: if not a standard one, it has not the name of one, and no line break. -/
def ReadClass (c : Class) : Prop :=
  ∀ s, c = .custom s → s ≠ c!"PUBLIC" ∧ s ≠ c!"PRIVATE" ∧ s ≠ c!"CONFIDENTIAL" ∧ '\n' ∉ s ∧ '\r' ∉ s

/-- A request status that was read has a description without semicolon. -/
def ReadRequestStatus (r : RequestStatus) : Prop := ';' ∉ r.statdesc

/-- A rule that was read: numbers of 8 bits, an end that exists. -/
structure ReadRule (r : Recur) : Prop where
  until_ : ∀ d, r.until_ = some d → ReadDate d
  count : ∀ n, r.count = some n → n ≤ 255
  interval : r.interval ≤ 255
  bySecond : All8 r.bySecond
  byMinute : All8 r.byMinute
  byHour : All8 r.byHour
  byDay : ∀ w ∈ r.byDay, ∀ n, w.ord = some n → -128 ≤ n ∧ n ≤ 127
  byMonthday : All8 r.byMonthday
  byYearday : All8 r.byYearday
  byWeekno : All8 r.byWeekno
  byMonth : All8 r.byMonth
  bySetpos : All8 r.bySetpos

/-- What an audio alarm that is read always holds. -/
structure ReadAudio (v : Audio) : Prop where
  action : ReadText v.action
  trigger : ReadTrigger v.trigger
  duration : ∀ a ∈ v.duration, WholeDuration a
  repeat_ : ∀ n ∈ v.repeat_, n ≤ 4294967295
  attach : ∀ a ∈ v.attach, ReadText a
  xProp : ReadExt [c!"ACTION", c!"TRIGGER", c!"DURATION", c!"REPEAT", c!"ATTACH"] IsX v.xProp
  ianaProp : ReadExt [c!"ACTION", c!"TRIGGER", c!"DURATION", c!"REPEAT", c!"ATTACH"] (fun k => ¬ IsX k) v.ianaProp

/-- What a display alarm that is read always holds. -/
structure ReadDisplay (v : Display) : Prop where
  action : ReadText v.action
  trigger : ReadTrigger v.trigger
  description : ReadText v.description
  duration : ∀ a ∈ v.duration, WholeDuration a
  repeat_ : ∀ n ∈ v.repeat_, n ≤ 4294967295
  xProp : ReadExt [c!"ACTION", c!"TRIGGER", c!"DESCRIPTION", c!"DURATION", c!"REPEAT"] IsX v.xProp
  ianaProp : ReadExt [c!"ACTION", c!"TRIGGER", c!"DESCRIPTION", c!"DURATION", c!"REPEAT"] (fun k => ¬ IsX k) v.ianaProp

/-- What an e-mail alarm that is read always holds. -/
structure ReadEmail (v : Email) : Prop where
  action : ReadText v.action
  trigger : ReadTrigger v.trigger
  description : ReadText v.description
  summary : ReadText v.summary
  attendee : ∀ a ∈ v.attendee, ReadUri a
  duration : ∀ a ∈ v.duration, WholeDuration a
  repeat_ : ∀ n ∈ v.repeat_, n ≤ 4294967295
  attach : ∀ a ∈ v.attach, ReadText a
  xProp : ReadExt [c!"ACTION", c!"TRIGGER", c!"DESCRIPTION", c!"SUMMARY", c!"ATTENDEE", c!"DURATION", c!"REPEAT", c!"ATTACH"] IsX v.xProp
  ianaProp : ReadExt [c!"ACTION", c!"TRIGGER", c!"DESCRIPTION", c!"SUMMARY", c!"ATTENDEE", c!"DURATION", c!"REPEAT", c!"ATTACH"] (fun k => ¬ IsX k) v.ianaProp

/-- What every alarm read is. -/
def ReadVAlarm : VAlarm → Prop
  | .audio a => ReadAudio a
  | .display a => ReadDisplay a
  | .email a => ReadEmail a

/-- What an event that is read always holds. -/
structure ReadVEvent (v : VEvent) : Prop where
  dtstamp : ReadDateTime v.dtstamp
  uid : ReadText v.uid
  dtstart : ReadDate v.dtstart
  class_ : ∀ a ∈ v.class_, ReadClass a
  created : ∀ a ∈ v.created, ReadDateTime a
  description : ∀ a ∈ v.description, ReadText a
  lastModified : ∀ a ∈ v.lastModified, ReadDateTime a
  location : ∀ a ∈ v.location, ReadText a
  organizer : ∀ a ∈ v.organizer, ReadUri a
  priority : ∀ n ∈ v.priority, n ≤ 9
  sequence : ∀ n ∈ v.sequence, n ≤ 4294967295
  summary : ∀ a ∈ v.summary, ReadText a
  url : ∀ a ∈ v.url, ReadUri a
  recurid : ∀ a ∈ v.recurid, ReadDate a
  rrule : ∀ a ∈ v.rrule, ReadRule a
  dtend : ∀ a ∈ v.dtend, ReadDate a
  duration : ∀ a ∈ v.duration, WholeDuration a
  attach : ∀ a ∈ v.attach, ReadText a
  attendee : ∀ a ∈ v.attendee, ReadUri a
  categories : ∀ a ∈ v.categories, ReadItem a
  comment : ∀ a ∈ v.comment, ReadText a
  contact : ∀ a ∈ v.contact, ReadText a
  exdate : ∀ a ∈ v.exdate, ReadDate a
  rstatus : ∀ a ∈ v.rstatus, ReadRequestStatus a
  relatedTo : ∀ a ∈ v.relatedTo, ReadText a
  resources : ∀ a ∈ v.resources, ReadItem a
  rdate : ∀ a ∈ v.rdate, ReadRDate a
  alarms : ∀ a ∈ v.alarms, ReadVAlarm a
  xProp : ReadExt [c!"DTSTAMP", c!"UID", c!"DTSTART", c!"CLASS", c!"CREATED", c!"DESCRIPTION", c!"GEO", c!"LAST-MODIFIED", c!"LOCATION", c!"ORGANIZER", c!"PRIORITY", c!"SEQUENCE", c!"STATUS", c!"SUMMARY", c!"TRANSP", c!"URL", c!"RECURID", c!"RRULE", c!"DTEND", c!"DURATION", c!"ATTACH", c!"ATTENDEE", c!"CATEGORIES", c!"COMMENT", c!"CONTACT", c!"EXDATE", c!"RSTATUS", c!"RELATED-TO", c!"RESOURCES", c!"RDATE"] IsX v.xProp
  ianaProp : ReadExt [c!"DTSTAMP", c!"UID", c!"DTSTART", c!"CLASS", c!"CREATED", c!"DESCRIPTION", c!"GEO", c!"LAST-MODIFIED", c!"LOCATION", c!"ORGANIZER", c!"PRIORITY", c!"SEQUENCE", c!"STATUS", c!"SUMMARY", c!"TRANSP", c!"URL", c!"RECURID", c!"RRULE", c!"DTEND", c!"DURATION", c!"ATTACH", c!"ATTENDEE", c!"CATEGORIES", c!"COMMENT", c!"CONTACT", c!"EXDATE", c!"RSTATUS", c!"RELATED-TO", c!"RESOURCES", c!"RDATE"] (fun k => ¬ IsX k) v.ianaProp

/-- What a free/busy component that is read always holds. -/
structure ReadVFreebusy (v : VFreebusy) : Prop where
  dtstamp : ReadDateTime v.dtstamp
  uid : ReadText v.uid
  contact : ∀ a ∈ v.contact, ReadText a
  dtstart : ∀ a ∈ v.dtstart, ReadDate a
  dtend : ∀ a ∈ v.dtend, ReadDate a
  organizer : ∀ a ∈ v.organizer, ReadUri a
  url : ∀ a ∈ v.url, ReadUri a
  attendee : ∀ a ∈ v.attendee, ReadUri a
  comment : ∀ a ∈ v.comment, ReadText a
  freebusy : ∀ a ∈ v.freebusy, ReadPeriod a
  rstatus : ∀ a ∈ v.rstatus, ReadRequestStatus a
  xProp : ReadExt [c!"DTSTAMP", c!"UID", c!"CONTACT", c!"DTSTART", c!"DTEND", c!"ORGANIZER", c!"URL", c!"ATTENDEE", c!"COMMENT", c!"FREEBUSY", c!"RSTATUS"] IsX v.xProp
  ianaProp : ReadExt [c!"DTSTAMP", c!"UID", c!"CONTACT", c!"DTSTART", c!"DTEND", c!"ORGANIZER", c!"URL", c!"ATTENDEE", c!"COMMENT", c!"FREEBUSY", c!"RSTATUS"] (fun k => ¬ IsX k) v.ianaProp

/-- What a journal entry that is read always holds. -/
structure ReadVJournal (v : VJournal) : Prop where
  dtstamp : ReadDateTime v.dtstamp
  uid : ReadText v.uid
  class_ : ∀ a ∈ v.class_, ReadClass a
  created : ∀ a ∈ v.created, ReadDateTime a
  dtstart : ReadDate v.dtstart
  lastModified : ∀ a ∈ v.lastModified, ReadDateTime a
  organizer : ∀ a ∈ v.organizer, ReadUri a
  recurid : ∀ a ∈ v.recurid, ReadDate a
  sequence : ∀ n ∈ v.sequence, n ≤ 4294967295
  summary : ∀ a ∈ v.summary, ReadText a
  url : ∀ a ∈ v.url, ReadUri a
  rrule : ∀ a ∈ v.rrule, ReadRule a
  attach : ∀ a ∈ v.attach, ReadText a
  attendee : ∀ a ∈ v.attendee, ReadUri a
  categories : ∀ a ∈ v.categories, ReadItem a
  comment : ∀ a ∈ v.comment, ReadText a
  contact : ∀ a ∈ v.contact, ReadText a
  description : ∀ a ∈ v.description, ReadText a
  exdate : ∀ a ∈ v.exdate, ReadDate a
  relatedTo : ∀ a ∈ v.relatedTo, ReadText a
  rdate : ∀ a ∈ v.rdate, ReadRDate a
  rstatus : ∀ a ∈ v.rstatus, ReadRequestStatus a
  xProp : ReadExt [c!"DTSTAMP", c!"UID", c!"CLASS", c!"CREATED", c!"DTSTART", c!"LAST-MODIFIED", c!"ORGANIZER", c!"RECURID", c!"SEQUENCE", c!"STATUS", c!"SUMMARY", c!"URL", c!"RRULE", c!"ATTACH", c!"ATTENDEE", c!"CATEGORIES", c!"COMMENT", c!"CONTACT", c!"DESCRIPTION", c!"EXDATE", c!"RELATED-TO", c!"RDATE", c!"RSTATUS"] IsX v.xProp
  ianaProp : ReadExt [c!"DTSTAMP", c!"UID", c!"CLASS", c!"CREATED", c!"DTSTART", c!"LAST-MODIFIED", c!"ORGANIZER", c!"RECURID", c!"SEQUENCE", c!"STATUS", c!"SUMMARY", c!"URL", c!"RRULE", c!"ATTACH", c!"ATTENDEE", c!"CATEGORIES", c!"COMMENT", c!"CONTACT", c!"DESCRIPTION", c!"EXDATE", c!"RELATED-TO", c!"RDATE", c!"RSTATUS"] (fun k => ¬ IsX k) v.ianaProp

/-- What the standard part of a time zone that is read always holds. -/
structure ReadStandard (v : Standard) : Prop where
  dtstart : ReadDate v.dtstart
  tzoffsetto : GoodOffset v.tzoffsetto
  tzoffsetfrom : GoodOffset v.tzoffsetfrom
  rrule : ∀ a ∈ v.rrule, ReadRule a
  comment : ∀ a ∈ v.comment, ReadText a
  rdate : ∀ a ∈ v.rdate, ReadRDate a
  tzname : ∀ a ∈ v.tzname, ReadText a
  xProp : ReadExt [c!"DTSTART", c!"TZOFFSETTO", c!"TZOFFSETFROM", c!"RRULE", c!"COMMENT", c!"RDATE", c!"TZNAME"] IsX v.xProp
  ianaProp : ReadExt [c!"DTSTART", c!"TZOFFSETTO", c!"TZOFFSETFROM", c!"RRULE", c!"COMMENT", c!"RDATE", c!"TZNAME"] (fun k => ¬ IsX k) v.ianaProp

/-- What the daylight part of a time zone that is read always holds. -/
structure ReadDaylight (v : Daylight) : Prop where
  dtstart : ReadDate v.dtstart
  tzoffsetto : GoodOffset v.tzoffsetto
  tzoffsetfrom : GoodOffset v.tzoffsetfrom
  rrule : ∀ a ∈ v.rrule, ReadRule a
  comment : ∀ a ∈ v.comment, ReadText a
  rdate : ∀ a ∈ v.rdate, ReadRDate a
  tzname : ∀ a ∈ v.tzname, ReadText a
  xProp : ReadExt [c!"DTSTART", c!"TZOFFSETTO", c!"TZOFFSETFROM", c!"RRULE", c!"COMMENT", c!"RDATE", c!"TZNAME"] IsX v.xProp
  ianaProp : ReadExt [c!"DTSTART", c!"TZOFFSETTO", c!"TZOFFSETFROM", c!"RRULE", c!"COMMENT", c!"RDATE", c!"TZNAME"] (fun k => ¬ IsX k) v.ianaProp

/-- What a time zone that is read always holds. -/
structure ReadVTimezone (v : VTimezone) : Prop where
  tzid : ReadText v.tzid
  lastModified : ∀ a ∈ v.lastModified, ReadDateTime a
  tzurl : ∀ a ∈ v.tzurl, ReadUri a
  standard : ∀ a ∈ v.standard, ReadStandard a
  daylight : ∀ a ∈ v.daylight, ReadDaylight a
  xProp : ReadExt [c!"TZID", c!"LAST-MODIFIED", c!"TZURL"] IsX v.xProp
  ianaProp : ReadExt [c!"TZID", c!"LAST-MODIFIED", c!"TZURL"] (fun k => ¬ IsX k) v.ianaProp

/-- What a to-do that is read always holds. -/
structure ReadVTodo (v : VTodo) : Prop where
  dtstamp : ReadDateTime v.dtstamp
  uid : ReadText v.uid
  class_ : ∀ a ∈ v.class_, ReadClass a
  completed : ∀ a ∈ v.completed, ReadDateTime a
  created : ∀ a ∈ v.created, ReadDateTime a
  dtstart : ∀ a ∈ v.dtstart, ReadDate a
  lastModified : ∀ a ∈ v.lastModified, ReadDateTime a
  location : ∀ a ∈ v.location, ReadText a
  organizer : ∀ a ∈ v.organizer, ReadUri a
  percentComplete : ∀ n ∈ v.percentComplete, n ≤ 255
  priority : ∀ n ∈ v.priority, n ≤ 9
  recurid : ∀ a ∈ v.recurid, ReadDate a
  sequence : ∀ n ∈ v.sequence, n ≤ 4294967295
  summary : ∀ a ∈ v.summary, ReadText a
  url : ∀ a ∈ v.url, ReadUri a
  rrule : ∀ a ∈ v.rrule, ReadRule a
  due : ∀ a ∈ v.due, ReadDate a
  duration : ∀ a ∈ v.duration, WholeDuration a
  attach : ∀ a ∈ v.attach, ReadText a
  attendee : ∀ a ∈ v.attendee, ReadUri a
  categories : ∀ a ∈ v.categories, ReadItem a
  comment : ∀ a ∈ v.comment, ReadText a
  contact : ∀ a ∈ v.contact, ReadText a
  exdate : ∀ a ∈ v.exdate, ReadDate a
  rstatus : ∀ a ∈ v.rstatus, ReadRequestStatus a
  relatedTo : ∀ a ∈ v.relatedTo, ReadText a
  resources : ∀ a ∈ v.resources, ReadItem a
  rdate : ∀ a ∈ v.rdate, ReadRDate a
  xProp : ReadExt [c!"DTSTAMP", c!"UID", c!"CLASS", c!"COMPLETED", c!"CREATED", c!"DTSTART", c!"GEO", c!"LAST-MODIFIED", c!"LOCATION", c!"ORGANIZER", c!"PERCENT-COMPLETE", c!"PRIORITY", c!"RECURID", c!"SEQUENCE", c!"STATUS", c!"SUMMARY", c!"URL", c!"RRULE", c!"DUE", c!"DURATION", c!"ATTACH", c!"ATTENDEE", c!"CATEGORIES", c!"COMMENT", c!"CONTACT", c!"EXDATE", c!"RSTATUS", c!"RELATED-TO", c!"RESOURCES", c!"RDATE"] IsX v.xProp
  ianaProp : ReadExt [c!"DTSTAMP", c!"UID", c!"CLASS", c!"COMPLETED", c!"CREATED", c!"DTSTART", c!"GEO", c!"LAST-MODIFIED", c!"LOCATION", c!"ORGANIZER", c!"PERCENT-COMPLETE", c!"PRIORITY", c!"RECURID", c!"SEQUENCE", c!"STATUS", c!"SUMMARY", c!"URL", c!"RRULE", c!"DUE", c!"DURATION", c!"ATTACH", c!"ATTENDEE", c!"CATEGORIES", c!"COMMENT", c!"CONTACT", c!"EXDATE", c!"RSTATUS", c!"RELATED-TO", c!"RESOURCES", c!"RDATE"] (fun k => ¬ IsX k) v.ianaProp

/-- What a calendar that is read always holds. -/
structure ReadVCalendar (v : VCalendar) : Prop where
  prodid : ReadText v.prodid
  version : ReadText v.version
  calscale : ∀ a ∈ v.calscale, ReadText a
  method : ∀ a ∈ v.method, ReadText a
  alarms : ∀ a ∈ v.alarms, ReadVAlarm a
  events : ∀ a ∈ v.events, ReadVEvent a
  freebusy : ∀ a ∈ v.freebusy, ReadVFreebusy a
  journals : ∀ a ∈ v.journals, ReadVJournal a
  todo : ∀ a ∈ v.todo, ReadVTodo a
  timezones : ∀ a ∈ v.timezones, ReadVTimezone a
  xProp : ReadExt [c!"PRODID", c!"VERSION", c!"CALSCALE", c!"METHOD"] IsX v.xProp
  ianaProp : ReadExt [c!"PRODID", c!"VERSION", c!"CALSCALE", c!"METHOD"] (fun k => ¬ IsX k) v.ianaProp

/-! ## What remains for a value that was read to survive being written -/

/-- Parameters whose values need no quotes. -/
def KeptParams (m : SMap Str) : Prop :=
  ∀ p ∈ m, ';' ∉ p.2 ∧ ':' ∉ p.2 ∧ ',' ∉ p.2 ∧ '\n' ∉ p.2 ∧ p.2.head? ≠ some '"'

/-- A text that is not empty and needs no escaping. -/
def KeptText (t : Text) : Prop := t.text ≠ [] ∧ ';' ∉ t.text ∧ ',' ∉ t.text ∧ KeptParams t.params

/-- The same for an URI. -/
def KeptUri (t : Uri) : Prop := t.uri ≠ [] ∧ ';' ∉ t.uri ∧ ',' ∉ t.uri ∧ KeptParams t.params

/-- Texts of a list without semicolon; not a single empty one. -/
def KeptTexts (l : List Text) : Prop := (∀ t ∈ l, ';' ∉ t.text) ∧ l ≠ [⟨[], []⟩]

/-- A year of four digits; not a local time, unless the clocks show UTC then. -/
def KeptDateTime : DateTime → Prop
  | .naive t => FourDigitYear t.date
  | .loc u => FourDigitYear u.date ∧ Platform.tzOffset u.toSecs = 0

/-- A year of four digits. -/
def KeptDate : Date → Prop
  | .date d => FourDigitYear d
  | .dateTime t => KeptDateTime t

/-- A period with such bounds. -/
def KeptPeriod : Period → Prop
  | .startEnd a b => KeptDateTime a ∧ KeptDateTime b
  | .startDur a _ => KeptDateTime a

/-- A trigger of which the time, if it has one, is such. -/
def KeptTrigger : Trigger → Prop
  | .duration _ => True
  | .dateTime t => KeptDateTime t

/-- A classification in capitals. -/
def KeptClass (c : Class) : Prop := ∀ s, c = .custom s → s ≠ [] ∧ upperStr s = s

/-- A request status with a code that survives and texts with nothing to escape. -/
def KeptRequestStatus (r : RequestStatus) : Prop :=
  GoodFloat Platform.floatShow1 r.statcode ∧ Plain r.statdesc ∧ '\r' ∉ r.statdesc ∧ ∀ e ∈ r.extdata, Plain e ∧ '\r' ∉ e

/-- A rule whose end, if it has one, has a year of four digits. -/
def KeptRule (r : Recur) : Prop := ∀ d, r.until_ = some d → KeptDate d

/-- What remains to be asked of an audio alarm that was read so that it survives being written and read again. -/
structure KeptAudio (v : Audio) : Prop where
  action : KeptText v.action
  trigger : KeptTrigger v.trigger
  attach : AtMostOne KeptText v.attach
  xProp : v.xProp = []
  ianaProp : v.ianaProp = []

/-- What remains to be asked of a display alarm that was read so that it survives being written and read again. -/
structure KeptDisplay (v : Display) : Prop where
  action : KeptText v.action
  trigger : KeptTrigger v.trigger
  description : KeptText v.description
  xProp : v.xProp = []
  ianaProp : v.ianaProp = []

/-- What remains to be asked of an e-mail alarm that was read so that it survives being written and read again. -/
structure KeptEmail (v : Email) : Prop where
  action : KeptText v.action
  trigger : KeptTrigger v.trigger
  description : KeptText v.description
  summary : KeptText v.summary
  attendee : AtMostOne KeptUri v.attendee
  attach : AtMostOne KeptText v.attach
  xProp : v.xProp = []
  ianaProp : v.ianaProp = []

/-- What remains to be asked of an alarm that was read. -/
def KeptVAlarm : VAlarm → Prop
  | .audio a => KeptAudio a ∧ a.action.text = c!"AUDIO"
  | .display a => KeptDisplay a ∧ a.action.text = c!"DISPLAY"
  | .email a => KeptEmail a ∧ a.action.text = c!"EMAIL"

/-- What remains to be asked of an event that was read so that it survives being written and read again. -/
structure KeptVEvent (v : VEvent) : Prop where
  dtstamp : KeptDateTime v.dtstamp
  uid : KeptText v.uid
  dtstart : KeptDate v.dtstart
  class_ : ∀ a ∈ v.class_, KeptClass a
  created : ∀ a ∈ v.created, KeptDateTime a
  description : ∀ a ∈ v.description, KeptText a
  geo : ∀ a ∈ v.geo, GoodGeo a
  lastModified : ∀ a ∈ v.lastModified, KeptDateTime a
  location : ∀ a ∈ v.location, KeptText a
  organizer : ∀ a ∈ v.organizer, KeptUri a
  summary : ∀ a ∈ v.summary, KeptText a
  url : ∀ a ∈ v.url, KeptUri a
  recurid : ∀ a ∈ v.recurid, KeptDate a
  rrule : ∀ a ∈ v.rrule, KeptRule a
  dtend : ∀ a ∈ v.dtend, KeptDate a
  attach : AtMostOne KeptText v.attach
  attendee : AtMostOne KeptUri v.attendee
  categories : KeptTexts v.categories
  comment : AtMostOne KeptText v.comment
  contact : AtMostOne KeptText v.contact
  exdate : ∀ a ∈ v.exdate, KeptDate a
  rstatus : AtMostOne KeptRequestStatus v.rstatus
  relatedTo : AtMostOne KeptText v.relatedTo
  resources : KeptTexts v.resources
  rdate : v.rdate = []
  alarms : v.alarms = []
  xProp : v.xProp = []
  ianaProp : v.ianaProp = []

/-- What remains to be asked of a free/busy component that was read so that it survives being written and read again. -/
structure KeptVFreebusy (v : VFreebusy) : Prop where
  dtstamp : KeptDateTime v.dtstamp
  uid : KeptText v.uid
  contact : ∀ a ∈ v.contact, KeptText a
  dtstart : ∀ a ∈ v.dtstart, KeptDate a
  dtend : ∀ a ∈ v.dtend, KeptDate a
  organizer : ∀ a ∈ v.organizer, KeptUri a
  url : ∀ a ∈ v.url, KeptUri a
  attendee : AtMostOne KeptUri v.attendee
  comment : AtMostOne KeptText v.comment
  freebusy : ∀ a ∈ v.freebusy, KeptPeriod a
  rstatus : AtMostOne KeptRequestStatus v.rstatus
  xProp : v.xProp = []
  ianaProp : v.ianaProp = []

/-- What remains to be asked of a journal entry that was read so that it survives being written and read again. -/
structure KeptVJournal (v : VJournal) : Prop where
  dtstamp : KeptDateTime v.dtstamp
  uid : KeptText v.uid
  class_ : ∀ a ∈ v.class_, KeptClass a
  created : ∀ a ∈ v.created, KeptDateTime a
  dtstart : KeptDate v.dtstart
  lastModified : ∀ a ∈ v.lastModified, KeptDateTime a
  organizer : ∀ a ∈ v.organizer, KeptUri a
  recurid : ∀ a ∈ v.recurid, KeptDate a
  summary : ∀ a ∈ v.summary, KeptText a
  url : ∀ a ∈ v.url, KeptUri a
  rrule : ∀ a ∈ v.rrule, KeptRule a
  attach : AtMostOne KeptText v.attach
  attendee : AtMostOne KeptUri v.attendee
  categories : KeptTexts v.categories
  comment : AtMostOne KeptText v.comment
  contact : AtMostOne KeptText v.contact
  description : AtMostOne KeptText v.description
  exdate : ∀ a ∈ v.exdate, KeptDate a
  relatedTo : AtMostOne KeptText v.relatedTo
  rdate : v.rdate = []
  rstatus : AtMostOne KeptRequestStatus v.rstatus
  xProp : v.xProp = []
  ianaProp : v.ianaProp = []

/-- What remains to be asked of the standard part of a time zone that was read so that it survives being written and read again. -/
structure KeptStandard (v : Standard) : Prop where
  dtstart : KeptDate v.dtstart
  rrule : ∀ a ∈ v.rrule, KeptRule a
  comment : AtMostOne KeptText v.comment
  rdate : v.rdate = []
  tzname : AtMostOne KeptText v.tzname
  xProp : v.xProp = []
  ianaProp : v.ianaProp = []

/-- What remains to be asked of the daylight part of a time zone that was read so that it survives being written and read again. -/
structure KeptDaylight (v : Daylight) : Prop where
  dtstart : KeptDate v.dtstart
  rrule : ∀ a ∈ v.rrule, KeptRule a
  comment : AtMostOne KeptText v.comment
  rdate : v.rdate = []
  tzname : AtMostOne KeptText v.tzname
  xProp : v.xProp = []
  ianaProp : v.ianaProp = []

/-- What remains to be asked of a time zone that was read so that it survives being written and read again. -/
structure KeptVTimezone (v : VTimezone) : Prop where
  tzid : KeptText v.tzid
  lastModified : ∀ a ∈ v.lastModified, KeptDateTime a
  tzurl : ∀ a ∈ v.tzurl, KeptUri a
  standard : AtMostOne KeptStandard v.standard
  daylight : AtMostOne KeptDaylight v.daylight
  xProp : v.xProp = []
  ianaProp : v.ianaProp = []

/-- What remains to be asked of a to-do that was read so that it survives being written and read again. -/
structure KeptVTodo (v : VTodo) : Prop where
  dtstamp : KeptDateTime v.dtstamp
  uid : KeptText v.uid
  class_ : ∀ a ∈ v.class_, KeptClass a
  completed : ∀ a ∈ v.completed, KeptDateTime a
  created : ∀ a ∈ v.created, KeptDateTime a
  dtstart : ∀ a ∈ v.dtstart, KeptDate a
  geo : ∀ a ∈ v.geo, GoodGeo a
  lastModified : ∀ a ∈ v.lastModified, KeptDateTime a
  location : ∀ a ∈ v.location, KeptText a
  organizer : ∀ a ∈ v.organizer, KeptUri a
  recurid : ∀ a ∈ v.recurid, KeptDate a
  summary : ∀ a ∈ v.summary, KeptText a
  url : ∀ a ∈ v.url, KeptUri a
  rrule : ∀ a ∈ v.rrule, KeptRule a
  due : ∀ a ∈ v.due, KeptDate a
  attach : AtMostOne KeptText v.attach
  attendee : AtMostOne KeptUri v.attendee
  categories : KeptTexts v.categories
  comment : AtMostOne KeptText v.comment
  contact : AtMostOne KeptText v.contact
  exdate : ∀ a ∈ v.exdate, KeptDate a
  rstatus : AtMostOne KeptRequestStatus v.rstatus
  relatedTo : AtMostOne KeptText v.relatedTo
  resources : KeptTexts v.resources
  rdate : v.rdate = []
  xProp : v.xProp = []
  ianaProp : v.ianaProp = []

/-- What remains to be asked of a calendar that was read so that it survives being written and read again. -/
structure KeptVCalendar (v : VCalendar) : Prop where
  prodid : KeptText v.prodid
  version : KeptText v.version
  calscale : ∀ a ∈ v.calscale, KeptText a
  method : ∀ a ∈ v.method, KeptText a
  alarms : v.alarms = []
  events : AtMostOne KeptVEvent v.events
  freebusy : AtMostOne KeptVFreebusy v.freebusy
  journals : AtMostOne KeptVJournal v.journals
  todo : AtMostOne KeptVTodo v.todo
  timezones : AtMostOne KeptVTimezone v.timezones
  xProp : v.xProp = []
  ianaProp : v.ianaProp = []

end Ikal.Spec
