import Verif.Spec.Document
import Verif.Spec.Rule
import Verif.Spec.Grammar
import Verif.Spec.Names

/-!
# Specification: reading, from the text to the values

The same predicates as in `Verif/Spec/Components.lean` and `Verif/Spec/Document.lean`, but with the grammars of the values in the
place of the functions of the model that read them: nothing here refers to a function that reads.
-/

namespace Ikal.Spec.Full

/-- `Unfolds s u`: `u` is `s` without the line folds, that is without each CR LF SPACE, from left to right. -/
inductive Unfolds : Str → Str → Prop
  | nil : Unfolds [] []
  | fold {r u : Str} : Unfolds r u → Unfolds ('\r' :: '\n' :: ' ' :: r) u
  | keep {c : Char} {r u : Str} : ¬ ['\r', '\n', ' '] <+: c :: r → Unfolds r u → Unfolds (c :: r) (c :: u)

variable [Platform]

/-! ## The value of one line -/

/-- A text is the value as it is, with the parameters. -/
def TextLine (l : ContentLine) (t : Text) : Prop := t.text = l.value ∧ t.params = l.params
/-- A URI is the value as it is, with the parameters. -/
def UriLine (l : ContentLine) (t : Uri) : Prop := t.uri = l.value ∧ t.params = l.params
/-- A date, with or without a time. -/
def DateLine (l : ContentLine) (d : Date) : Prop := DateValue l.value d
/-- A date with a time. -/
def DateTimeLine (l : ContentLine) (t : DateTime) : Prop := DateTimeValue l.value t
/-- Dates separated by commas. -/
def DatesLine (l : ContentLine) (ds : List Date) : Prop := ListOf DateValue l.value ds
/-- Periods separated by commas. -/
def PeriodsLine (l : ContentLine) (ps : List Period) : Prop := ListOf PeriodText l.value ps
/-- Texts separated by commas; the parameters of the line are lost. -/
def TextsLine (l : ContentLine) (ts : List Text) : Prop := ListOf (fun s (t : Text) => t.text = s ∧ t.params = []) l.value ts
/-- A duration. -/
def DurationLine (l : ContentLine) (d : TimeDelta) : Prop := DurationValue l.value d
/-- A position. -/
def GeoLine (l : ContentLine) (g : Geo) : Prop := GeoText l.value g
/-- A number up to 255. -/
def PercentLine (l : ContentLine) (n : Nat) : Prop := IsUnsigned l.value n ∧ n ≤ 255
/-- A number up to 9. -/
def PriorityLine (l : ContentLine) (n : Nat) : Prop := IsUnsigned l.value n ∧ n ≤ 9
/-- A number of 32 bits. -/
def NumberLine (l : ContentLine) (n : Nat) : Prop := IsUnsigned l.value n ∧ n ≤ 4294967295
/-- A recurrence rule. -/
def RuleLine (l : ContentLine) (r : Recur) : Prop := ∃ items, items ≠ [] ∧ RuleText l.value items ∧ RuleMeans items r
/-- A status. -/
def StatusLine (l : ContentLine) (v : Status) : Prop := l.value = statusName v
/-- A transparency. -/
def TransparencyLine (l : ContentLine) (v : TimeTransparency) : Prop := l.value = transparencyName v
/-- A classification: one of the three names, or any other text as it is. -/
def ClassLine (l : ContentLine) (v : Class) : Prop :=
  match v with
  | .pub => l.value = c!"PUBLIC"
  | .priv => l.value = c!"PRIVATE"
  | .confidential => l.value = c!"CONFIDENTIAL"
  | .custom s => l.value = s ∧ s ≠ c!"PUBLIC" ∧ s ≠ c!"PRIVATE" ∧ s ≠ c!"CONFIDENTIAL"
/-- Periods if the parameter `VALUE` is `PERIOD`, and dates otherwise, separated by commas. -/
def RDateLine (l : ContentLine) (r : RDate) : Prop :=
  match r with
  | .period ps => SMap.get? l.params c!"VALUE" = some c!"PERIOD" ∧ ListOf PeriodText l.value ps
  | .date ds => SMap.get? l.params c!"VALUE" ≠ some c!"PERIOD" ∧ ListOf DateValue l.value ds
/-- A request status. -/
def RequestStatusLine (l : ContentLine) (r : RequestStatus) : Prop := RequestStatusText l.value r
/-- A trigger: a duration or a date with a time. -/
def TriggerLine (l : ContentLine) (t : Trigger) : Prop :=
  match t with
  | .duration d => DurationValue l.value d
  | .dateTime t => DateTimeValue l.value t
/-- An offset from UTC. -/
def OffsetLine (l : ContentLine) (o : FixedOffset) : Prop := OffsetText l.value o

/-! ## The values of the lines of one name -/

/-- A required property: the value of its last line. -/
def Last {α : Type} (ls : List ContentLine) (n : Str) (R : ContentLine → α → Prop) (v : α) : Prop :=
  ∃ l, lastNamed n ls = some l ∧ R l v

/-- An optional property: all its lines are readable; the value is that of the last, if there is one. -/
def LastIfAny {α : Type} (ls : List ContentLine) (n : Str) (R : ContentLine → α → Prop) (v : Option α) : Prop :=
  (∀ l ∈ named n ls, ∃ a, R l a) ∧
  match lastNamed n ls with
  | none => v = none
  | some l => ∃ a, R l a ∧ v = some a

/-- A repeatable property: the values of all its lines, in order. -/
def Each {α : Type} (ls : List ContentLine) (n : Str) (R : ContentLine → α → Prop) (vs : List α) : Prop :=
  All2 R (named n ls) vs

/-- A repeatable property with several values in each line: all of them, in order. -/
def All {α : Type} (ls : List ContentLine) (n : Str) (R : ContentLine → List α → Prop) (vs : List α) : Prop :=
  ∃ vss, All2 R (named n ls) vss ∧ vs = vss.flatten

/-! ## The properties of each component -/

/-- What a `Audio` (`src/components/valarm.rs:73-84`) parsed from the lines `ls` holds. -/
structure AudioFrom (ls : List ContentLine) (v : Audio) : Prop where
  action : Last ls c!"ACTION" TextLine v.action
  trigger : Last ls c!"TRIGGER" TriggerLine v.trigger
  duration : LastIfAny ls c!"DURATION" DurationLine v.duration
  repeat_ : LastIfAny ls c!"REPEAT" NumberLine v.repeat_
  attach : Each ls c!"ATTACH" TextLine v.attach
  xProp : IsExt [c!"ACTION", c!"TRIGGER", c!"DURATION", c!"REPEAT", c!"ATTACH"] IsX ls v.xProp
  ianaProp : IsExt [c!"ACTION", c!"TRIGGER", c!"DURATION", c!"REPEAT", c!"ATTACH"] (fun k => ¬ IsX k) ls v.ianaProp

/-- What a `Display` (`src/components/valarm.rs:101-112`) parsed from the lines `ls` holds. -/
structure DisplayFrom (ls : List ContentLine) (v : Display) : Prop where
  action : Last ls c!"ACTION" TextLine v.action
  trigger : Last ls c!"TRIGGER" TriggerLine v.trigger
  description : Last ls c!"DESCRIPTION" TextLine v.description
  duration : LastIfAny ls c!"DURATION" DurationLine v.duration
  repeat_ : LastIfAny ls c!"REPEAT" NumberLine v.repeat_
  xProp : IsExt [c!"ACTION", c!"TRIGGER", c!"DESCRIPTION", c!"DURATION", c!"REPEAT"] IsX ls v.xProp
  ianaProp : IsExt [c!"ACTION", c!"TRIGGER", c!"DESCRIPTION", c!"DURATION", c!"REPEAT"] (fun k => ¬ IsX k) ls v.ianaProp

/-- What a `Email` (`src/components/valarm.rs:129-143`) parsed from the lines `ls` holds. -/
structure EmailFrom (ls : List ContentLine) (v : Email) : Prop where
  action : Last ls c!"ACTION" TextLine v.action
  trigger : Last ls c!"TRIGGER" TriggerLine v.trigger
  description : Last ls c!"DESCRIPTION" TextLine v.description
  summary : Last ls c!"SUMMARY" TextLine v.summary
  attendee : Each ls c!"ATTENDEE" UriLine v.attendee
  duration : LastIfAny ls c!"DURATION" DurationLine v.duration
  repeat_ : LastIfAny ls c!"REPEAT" NumberLine v.repeat_
  attach : Each ls c!"ATTACH" TextLine v.attach
  xProp : IsExt [c!"ACTION", c!"TRIGGER", c!"DESCRIPTION", c!"SUMMARY", c!"ATTENDEE", c!"DURATION", c!"REPEAT", c!"ATTACH"] IsX ls v.xProp
  ianaProp : IsExt [c!"ACTION", c!"TRIGGER", c!"DESCRIPTION", c!"SUMMARY", c!"ATTENDEE", c!"DURATION", c!"REPEAT", c!"ATTACH"] (fun k => ¬ IsX k) ls v.ianaProp

/-- What a `VEvent` (`src/components/vevent.rs:4-45`) parsed from the lines `ls` holds. -/
structure VEventFrom (ls : List ContentLine) (v : VEvent) : Prop where
  dtstamp : Last ls c!"DTSTAMP" DateTimeLine v.dtstamp
  uid : Last ls c!"UID" TextLine v.uid
  dtstart : Last ls c!"DTSTART" DateLine v.dtstart
  class_ : LastIfAny ls c!"CLASS" ClassLine v.class_
  created : LastIfAny ls c!"CREATED" DateTimeLine v.created
  description : LastIfAny ls c!"DESCRIPTION" TextLine v.description
  geo : LastIfAny ls c!"GEO" GeoLine v.geo
  lastModified : LastIfAny ls c!"LAST-MODIFIED" DateTimeLine v.lastModified
  location : LastIfAny ls c!"LOCATION" TextLine v.location
  organizer : LastIfAny ls c!"ORGANIZER" UriLine v.organizer
  priority : LastIfAny ls c!"PRIORITY" PriorityLine v.priority
  sequence : LastIfAny ls c!"SEQUENCE" NumberLine v.sequence
  status : LastIfAny ls c!"STATUS" StatusLine v.status
  summary : LastIfAny ls c!"SUMMARY" TextLine v.summary
  transp : LastIfAny ls c!"TRANSP" TransparencyLine v.transp
  url : LastIfAny ls c!"URL" UriLine v.url
  recurid : LastIfAny ls c!"RECURID" DateLine v.recurid
  rrule : LastIfAny ls c!"RRULE" RuleLine v.rrule
  dtend : LastIfAny ls c!"DTEND" DateLine v.dtend
  duration : LastIfAny ls c!"DURATION" DurationLine v.duration
  attach : Each ls c!"ATTACH" TextLine v.attach
  attendee : Each ls c!"ATTENDEE" UriLine v.attendee
  categories : All ls c!"CATEGORIES" TextsLine v.categories
  comment : Each ls c!"COMMENT" TextLine v.comment
  contact : Each ls c!"CONTACT" TextLine v.contact
  exdate : All ls c!"EXDATE" DatesLine v.exdate
  rstatus : Each ls c!"RSTATUS" RequestStatusLine v.rstatus
  relatedTo : Each ls c!"RELATED-TO" TextLine v.relatedTo
  resources : All ls c!"RESOURCES" TextsLine v.resources
  rdate : Each ls c!"RDATE" RDateLine v.rdate
  alarms : v.alarms = []
  xProp : IsExt [c!"DTSTAMP", c!"UID", c!"DTSTART", c!"CLASS", c!"CREATED", c!"DESCRIPTION", c!"GEO", c!"LAST-MODIFIED", c!"LOCATION", c!"ORGANIZER", c!"PRIORITY", c!"SEQUENCE", c!"STATUS", c!"SUMMARY", c!"TRANSP", c!"URL", c!"RECURID", c!"RRULE", c!"DTEND", c!"DURATION", c!"ATTACH", c!"ATTENDEE", c!"CATEGORIES", c!"COMMENT", c!"CONTACT", c!"EXDATE", c!"RSTATUS", c!"RELATED-TO", c!"RESOURCES", c!"RDATE"] IsX ls v.xProp
  ianaProp : IsExt [c!"DTSTAMP", c!"UID", c!"DTSTART", c!"CLASS", c!"CREATED", c!"DESCRIPTION", c!"GEO", c!"LAST-MODIFIED", c!"LOCATION", c!"ORGANIZER", c!"PRIORITY", c!"SEQUENCE", c!"STATUS", c!"SUMMARY", c!"TRANSP", c!"URL", c!"RECURID", c!"RRULE", c!"DTEND", c!"DURATION", c!"ATTACH", c!"ATTENDEE", c!"CATEGORIES", c!"COMMENT", c!"CONTACT", c!"EXDATE", c!"RSTATUS", c!"RELATED-TO", c!"RESOURCES", c!"RDATE"] (fun k => ¬ IsX k) ls v.ianaProp

/-- What a `VFreebusy` (`src/components/vfreebusy.rs:4-22`) parsed from the lines `ls` holds. -/
structure VFreebusyFrom (ls : List ContentLine) (v : VFreebusy) : Prop where
  dtstamp : Last ls c!"DTSTAMP" DateTimeLine v.dtstamp
  uid : Last ls c!"UID" TextLine v.uid
  contact : LastIfAny ls c!"CONTACT" TextLine v.contact
  dtstart : LastIfAny ls c!"DTSTART" DateLine v.dtstart
  dtend : LastIfAny ls c!"DTEND" DateLine v.dtend
  organizer : LastIfAny ls c!"ORGANIZER" UriLine v.organizer
  url : LastIfAny ls c!"URL" UriLine v.url
  attendee : Each ls c!"ATTENDEE" UriLine v.attendee
  comment : Each ls c!"COMMENT" TextLine v.comment
  freebusy : All ls c!"FREEBUSY" PeriodsLine v.freebusy
  rstatus : Each ls c!"RSTATUS" RequestStatusLine v.rstatus
  xProp : IsExt [c!"DTSTAMP", c!"UID", c!"CONTACT", c!"DTSTART", c!"DTEND", c!"ORGANIZER", c!"URL", c!"ATTENDEE", c!"COMMENT", c!"FREEBUSY", c!"RSTATUS"] IsX ls v.xProp
  ianaProp : IsExt [c!"DTSTAMP", c!"UID", c!"CONTACT", c!"DTSTART", c!"DTEND", c!"ORGANIZER", c!"URL", c!"ATTENDEE", c!"COMMENT", c!"FREEBUSY", c!"RSTATUS"] (fun k => ¬ IsX k) ls v.ianaProp

/-- What a `VJournal` (`src/components/vjournal.rs:4-35`) parsed from the lines `ls` holds. -/
structure VJournalFrom (ls : List ContentLine) (v : VJournal) : Prop where
  dtstamp : Last ls c!"DTSTAMP" DateTimeLine v.dtstamp
  uid : Last ls c!"UID" TextLine v.uid
  class_ : LastIfAny ls c!"CLASS" ClassLine v.class_
  created : LastIfAny ls c!"CREATED" DateTimeLine v.created
  dtstart : Last ls c!"DTSTART" DateLine v.dtstart
  lastModified : LastIfAny ls c!"LAST-MODIFIED" DateTimeLine v.lastModified
  organizer : LastIfAny ls c!"ORGANIZER" UriLine v.organizer
  recurid : LastIfAny ls c!"RECURID" DateLine v.recurid
  sequence : LastIfAny ls c!"SEQUENCE" NumberLine v.sequence
  status : LastIfAny ls c!"STATUS" StatusLine v.status
  summary : LastIfAny ls c!"SUMMARY" TextLine v.summary
  url : LastIfAny ls c!"URL" UriLine v.url
  rrule : LastIfAny ls c!"RRULE" RuleLine v.rrule
  attach : Each ls c!"ATTACH" TextLine v.attach
  attendee : Each ls c!"ATTENDEE" UriLine v.attendee
  categories : All ls c!"CATEGORIES" TextsLine v.categories
  comment : Each ls c!"COMMENT" TextLine v.comment
  contact : Each ls c!"CONTACT" TextLine v.contact
  description : Each ls c!"DESCRIPTION" TextLine v.description
  exdate : All ls c!"EXDATE" DatesLine v.exdate
  relatedTo : Each ls c!"RELATED-TO" TextLine v.relatedTo
  rdate : Each ls c!"RDATE" RDateLine v.rdate
  rstatus : Each ls c!"RSTATUS" RequestStatusLine v.rstatus
  xProp : IsExt [c!"DTSTAMP", c!"UID", c!"CLASS", c!"CREATED", c!"DTSTART", c!"LAST-MODIFIED", c!"ORGANIZER", c!"RECURID", c!"SEQUENCE", c!"STATUS", c!"SUMMARY", c!"URL", c!"RRULE", c!"ATTACH", c!"ATTENDEE", c!"CATEGORIES", c!"COMMENT", c!"CONTACT", c!"DESCRIPTION", c!"EXDATE", c!"RELATED-TO", c!"RDATE", c!"RSTATUS"] IsX ls v.xProp
  ianaProp : IsExt [c!"DTSTAMP", c!"UID", c!"CLASS", c!"CREATED", c!"DTSTART", c!"LAST-MODIFIED", c!"ORGANIZER", c!"RECURID", c!"SEQUENCE", c!"STATUS", c!"SUMMARY", c!"URL", c!"RRULE", c!"ATTACH", c!"ATTENDEE", c!"CATEGORIES", c!"COMMENT", c!"CONTACT", c!"DESCRIPTION", c!"EXDATE", c!"RELATED-TO", c!"RDATE", c!"RSTATUS"] (fun k => ¬ IsX k) ls v.ianaProp

/-- What a `Standard` (`src/components/vtimezone.rs:34-49,76`) parsed from the lines `ls` holds. -/
structure StandardFrom (ls : List ContentLine) (v : Standard) : Prop where
  dtstart : Last ls c!"DTSTART" DateLine v.dtstart
  tzoffsetto : Last ls c!"TZOFFSETTO" OffsetLine v.tzoffsetto
  tzoffsetfrom : Last ls c!"TZOFFSETFROM" OffsetLine v.tzoffsetfrom
  rrule : LastIfAny ls c!"RRULE" RuleLine v.rrule
  comment : Each ls c!"COMMENT" TextLine v.comment
  rdate : Each ls c!"RDATE" RDateLine v.rdate
  tzname : Each ls c!"TZNAME" TextLine v.tzname
  xProp : IsExt [c!"DTSTART", c!"TZOFFSETTO", c!"TZOFFSETFROM", c!"RRULE", c!"COMMENT", c!"RDATE", c!"TZNAME"] IsX ls v.xProp
  ianaProp : IsExt [c!"DTSTART", c!"TZOFFSETTO", c!"TZOFFSETFROM", c!"RRULE", c!"COMMENT", c!"RDATE", c!"TZNAME"] (fun k => ¬ IsX k) ls v.ianaProp

/-- What a `Daylight` (`src/components/vtimezone.rs:34-49,77`) parsed from the lines `ls` holds. -/
structure DaylightFrom (ls : List ContentLine) (v : Daylight) : Prop where
  dtstart : Last ls c!"DTSTART" DateLine v.dtstart
  tzoffsetto : Last ls c!"TZOFFSETTO" OffsetLine v.tzoffsetto
  tzoffsetfrom : Last ls c!"TZOFFSETFROM" OffsetLine v.tzoffsetfrom
  rrule : LastIfAny ls c!"RRULE" RuleLine v.rrule
  comment : Each ls c!"COMMENT" TextLine v.comment
  rdate : Each ls c!"RDATE" RDateLine v.rdate
  tzname : Each ls c!"TZNAME" TextLine v.tzname
  xProp : IsExt [c!"DTSTART", c!"TZOFFSETTO", c!"TZOFFSETFROM", c!"RRULE", c!"COMMENT", c!"RDATE", c!"TZNAME"] IsX ls v.xProp
  ianaProp : IsExt [c!"DTSTART", c!"TZOFFSETTO", c!"TZOFFSETFROM", c!"RRULE", c!"COMMENT", c!"RDATE", c!"TZNAME"] (fun k => ¬ IsX k) ls v.ianaProp

/-- What a `VTimezone` (`src/components/vtimezone.rs:6-19`) parsed from the lines `ls` holds. -/
structure VTimezoneFrom (ls : List ContentLine) (v : VTimezone) : Prop where
  tzid : Last ls c!"TZID" TextLine v.tzid
  lastModified : LastIfAny ls c!"LAST-MODIFIED" DateTimeLine v.lastModified
  tzurl : LastIfAny ls c!"TZURL" UriLine v.tzurl
  standard : v.standard = []
  daylight : v.daylight = []
  xProp : IsExt [c!"TZID", c!"LAST-MODIFIED", c!"TZURL"] IsX ls v.xProp
  ianaProp : IsExt [c!"TZID", c!"LAST-MODIFIED", c!"TZURL"] (fun k => ¬ IsX k) ls v.ianaProp

/-- What a `VTodo` (`src/components/vtodo.rs:4-43`) parsed from the lines `ls` holds. -/
structure VTodoFrom (ls : List ContentLine) (v : VTodo) : Prop where
  dtstamp : Last ls c!"DTSTAMP" DateTimeLine v.dtstamp
  uid : Last ls c!"UID" TextLine v.uid
  class_ : LastIfAny ls c!"CLASS" ClassLine v.class_
  completed : LastIfAny ls c!"COMPLETED" DateTimeLine v.completed
  created : LastIfAny ls c!"CREATED" DateTimeLine v.created
  dtstart : LastIfAny ls c!"DTSTART" DateLine v.dtstart
  geo : LastIfAny ls c!"GEO" GeoLine v.geo
  lastModified : LastIfAny ls c!"LAST-MODIFIED" DateTimeLine v.lastModified
  location : LastIfAny ls c!"LOCATION" TextLine v.location
  organizer : LastIfAny ls c!"ORGANIZER" UriLine v.organizer
  percentComplete : LastIfAny ls c!"PERCENT-COMPLETE" PercentLine v.percentComplete
  priority : LastIfAny ls c!"PRIORITY" PriorityLine v.priority
  recurid : LastIfAny ls c!"RECURID" DateLine v.recurid
  sequence : LastIfAny ls c!"SEQUENCE" NumberLine v.sequence
  status : LastIfAny ls c!"STATUS" StatusLine v.status
  summary : LastIfAny ls c!"SUMMARY" TextLine v.summary
  url : LastIfAny ls c!"URL" UriLine v.url
  rrule : LastIfAny ls c!"RRULE" RuleLine v.rrule
  due : LastIfAny ls c!"DUE" DateLine v.due
  duration : LastIfAny ls c!"DURATION" DurationLine v.duration
  attach : Each ls c!"ATTACH" TextLine v.attach
  attendee : Each ls c!"ATTENDEE" UriLine v.attendee
  categories : All ls c!"CATEGORIES" TextsLine v.categories
  comment : Each ls c!"COMMENT" TextLine v.comment
  contact : Each ls c!"CONTACT" TextLine v.contact
  exdate : All ls c!"EXDATE" DatesLine v.exdate
  rstatus : Each ls c!"RSTATUS" RequestStatusLine v.rstatus
  relatedTo : Each ls c!"RELATED-TO" TextLine v.relatedTo
  resources : All ls c!"RESOURCES" TextsLine v.resources
  rdate : Each ls c!"RDATE" RDateLine v.rdate
  xProp : IsExt [c!"DTSTAMP", c!"UID", c!"CLASS", c!"COMPLETED", c!"CREATED", c!"DTSTART", c!"GEO", c!"LAST-MODIFIED", c!"LOCATION", c!"ORGANIZER", c!"PERCENT-COMPLETE", c!"PRIORITY", c!"RECURID", c!"SEQUENCE", c!"STATUS", c!"SUMMARY", c!"URL", c!"RRULE", c!"DUE", c!"DURATION", c!"ATTACH", c!"ATTENDEE", c!"CATEGORIES", c!"COMMENT", c!"CONTACT", c!"EXDATE", c!"RSTATUS", c!"RELATED-TO", c!"RESOURCES", c!"RDATE"] IsX ls v.xProp
  ianaProp : IsExt [c!"DTSTAMP", c!"UID", c!"CLASS", c!"COMPLETED", c!"CREATED", c!"DTSTART", c!"GEO", c!"LAST-MODIFIED", c!"LOCATION", c!"ORGANIZER", c!"PERCENT-COMPLETE", c!"PRIORITY", c!"RECURID", c!"SEQUENCE", c!"STATUS", c!"SUMMARY", c!"URL", c!"RRULE", c!"DUE", c!"DURATION", c!"ATTACH", c!"ATTENDEE", c!"CATEGORIES", c!"COMMENT", c!"CONTACT", c!"EXDATE", c!"RSTATUS", c!"RELATED-TO", c!"RESOURCES", c!"RDATE"] (fun k => ¬ IsX k) ls v.ianaProp

/-- What a `VCalendar` (`src/components/vcalendar.rs:4-26`) parsed from the lines `ls` holds. -/
structure VCalendarFrom (ls : List ContentLine) (v : VCalendar) : Prop where
  prodid : Last ls c!"PRODID" TextLine v.prodid
  version : Last ls c!"VERSION" TextLine v.version
  calscale : LastIfAny ls c!"CALSCALE" TextLine v.calscale
  method : LastIfAny ls c!"METHOD" TextLine v.method
  alarms : v.alarms = []
  events : v.events = []
  freebusy : v.freebusy = []
  journals : v.journals = []
  todo : v.todo = []
  timezones : v.timezones = []
  xProp : IsExt [c!"PRODID", c!"VERSION", c!"CALSCALE", c!"METHOD"] IsX ls v.xProp
  ianaProp : IsExt [c!"PRODID", c!"VERSION", c!"CALSCALE", c!"METHOD"] (fun k => ¬ IsX k) ls v.ianaProp

/-! ## Documents -/

/-- What an alarm parsed from the lines `ls` holds. -/
def VAlarmFrom (ls : List ContentLine) : VAlarm → Prop
  | .audio a => firstAction ls = some c!"AUDIO" ∧ AudioFrom ls a
  | .display a => firstAction ls = some c!"DISPLAY" ∧ DisplayFrom ls a
  | .email a => firstAction ls = some c!"EMAIL" ∧ EmailFrom ls a

/-- An alarm. -/
def AlarmText (i : Str) (v : VAlarm) (r : Str) : Prop := ∃ ls, LeafText c!"VALARM" i ls r ∧ VAlarmFrom ls v

/-- A to-do. -/
def TodoText (i : Str) (v : VTodo) (r : Str) : Prop := ∃ ls, LeafText c!"VTODO" i ls r ∧ VTodoFrom ls v

/-- A journal entry. -/
def JournalText (i : Str) (v : VJournal) (r : Str) : Prop := ∃ ls, LeafText c!"VJOURNAL" i ls r ∧ VJournalFrom ls v

/-- A free/busy component. -/
def FreebusyText (i : Str) (v : VFreebusy) (r : Str) : Prop := ∃ ls, LeafText c!"VFREEBUSY" i ls r ∧ VFreebusyFrom ls v

/-- The standard part of a time zone. -/
def StandardText (i : Str) (v : Standard) (r : Str) : Prop := ∃ ls, LeafText c!"STANDARD" i ls r ∧ StandardFrom ls v

/-- The daylight part of a time zone. -/
def DaylightText (i : Str) (v : Daylight) (r : Str) : Prop := ∃ ls, LeafText c!"DAYLIGHT" i ls r ∧ DaylightFrom ls v

/-- An event: property lines, then alarms. -/
def EventText (i : Str) (v : VEvent) (r : Str) : Prop :=
  ∃ body ls r1, i = c!"BEGIN:VEVENT\r\n" ++ body ∧ LinesText body ls r1 ∧
    SeqText AlarmText r1 v.alarms (c!"END:VEVENT\r\n" ++ r) ∧
    VEventFrom ls { v with alarms := [] }

/-- A part of a time zone. -/
def TzPartText (i : Str) (v : TzPart) (r : Str) : Prop :=
  match v with
  | .standard s => StandardText i s r
  | .daylight d => DaylightText i d r

/-- A time zone: property lines, then parts, each filed under its kind in the order of the text. -/
def TimezoneText (i : Str) (v : VTimezone) (r : Str) : Prop :=
  ∃ body ls r1 parts, i = c!"BEGIN:VTIMEZONE\r\n" ++ body ∧ LinesText body ls r1 ∧
    SeqText TzPartText r1 parts (c!"END:VTIMEZONE\r\n" ++ r) ∧
    VTimezoneFrom ls { v with standard := [], daylight := [] } ∧
    v.standard = standardParts parts ∧ v.daylight = daylightParts parts

/-- A component of a calendar. -/
def ComponentText (i : Str) (v : Component) (r : Str) : Prop :=
  match v with
  | .alarm c => AlarmText i c r
  | .event c => EventText i c r
  | .freebusy c => FreebusyText i c r
  | .journal c => JournalText i c r
  | .timezone c => TimezoneText i c r
  | .todo c => TodoText i c r

/-- A calendar: property lines, then components. -/
def CalendarText (i : Str) (v : VCalendar) (cs : List Component) (r : Str) : Prop :=
  ∃ body ls r1, i = c!"BEGIN:VCALENDAR\r\n" ++ body ∧ LinesText body ls r1 ∧
    SeqText ComponentText r1 cs (c!"END:VCALENDAR" ++ r) ∧
    VCalendarFrom ls { v with alarms := [], events := [], freebusy := [], journals := [], todo := [], timezones := [] } ∧
    Filed cs v

end Ikal.Spec.Full
