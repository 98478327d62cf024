import Verif.Spec.Output
import Verif.Spec.Reading

/-!
# Specification: what a written component is read as

Property by property: the text that is written for the value (`Verif/Spec/Output.lean`), put in a line with its parameters, and the value
that is read from that line (`Verif/Spec/Reading.lean`).
-/

namespace Ikal.Spec.Back

open Full

variable [Platform]

/-! ## One property -/

/-- How the values of a type are written: the text, and the parameters of the line. -/
structure Writing (α : Type) where
  form : Form α
  params : α → SMap Str

/-- The text that is written for a value. -/
def Writing.Writes {α : Type} (W : Writing α) (v : α) (t : Str) : Prop := ∃ ps, W.form v ps t

def asText : Writing Text := ⟨textForm, Text.params⟩
def asUri : Writing Uri := ⟨uriForm, Uri.params⟩
def asShown {α : Type} (f : α → Str) : Writing α := ⟨shown f, fun _ => []⟩
def asNumber : Writing Nat := ⟨numberForm, fun _ => []⟩
def asRule : Writing Recur := ⟨ruleForm, fun _ => []⟩
def asRequestStatus : Writing RequestStatus := ⟨requestStatusForm, fun _ => []⟩
def asDate : Writing Date := ⟨dateForm, fun
  | .date _ => [(c!"VALUE", c!"DATE")]
  | .dateTime _ => []⟩
def asTrigger : Writing Trigger := ⟨triggerForm, fun
  | .dateTime _ => [(c!"VALUE", c!"DATE-TIME")]
  | .duration _ => [(c!"VALUE", c!"DURATION")]⟩

/-- A required value: its text must not be empty, and is read with its parameters. -/
def One {α : Type} (n : Str) (W : Writing α) (R : ContentLine → α → Prop) (v w : α) : Prop :=
  ∃ t, W.Writes v t ∧ t ≠ [] ∧ R ⟨n, W.params v, t⟩ w

/-- An optional value: absent if it was absent or its text is empty, otherwise what is read. -/
def Opt {α : Type} (n : Str) (W : Writing α) (R : ContentLine → α → Prop) (v w : Option α) : Prop :=
  match v with
  | none => w = none
  | some a => ∃ t, W.Writes a t ∧ (t = [] ∧ w = none ∨ t ≠ [] ∧ ∃ b, R ⟨n, W.params a, t⟩ b ∧ w = some b)

/-- Several values: a single one is read like an optional one, more are one line with all the texts and no parameters, which is read as
one value. -/
def Many {α : Type} (n : Str) (W : Writing α) (R : ContentLine → α → Prop) (v w : List α) : Prop :=
  match v with
  | [] => w = []
  | [a] => ∃ t, W.Writes a t ∧ (t = [] ∧ w = [] ∨ t ≠ [] ∧ ∃ b, R ⟨n, W.params a, t⟩ b ∧ w = [b])
  | v => ∃ ts, All2 W.Writes v ts ∧ ∃ b, R ⟨n, [], joinWith c!"," ts⟩ b ∧ w = [b]

/-- Several values that are read from one line: the same, but the line is read as all of its values. -/
def Parts {α : Type} (n : Str) (W : Writing α) (R : ContentLine → List α → Prop) (v w : List α) : Prop :=
  match v with
  | [] => w = []
  | [a] => ∃ t, W.Writes a t ∧ (t = [] ∧ w = [] ∨ t ≠ [] ∧ R ⟨n, W.params a, t⟩ w)
  | v => ∃ ts, All2 W.Writes v ts ∧ R ⟨n, [], joinWith c!"," ts⟩ w

/-- Extension properties: read as a single one, with the name of the field, that contains all of them. -/
def Ext (n : Str) (m m' : SMap ContentLine) : Prop :=
  m = [] ∧ m' = [] ∨
  m ≠ [] ∧ ∃ ts, All2 (fun (p : Str × ContentLine) t => ∃ e, EscapedAs p.2.value e ∧ t = p.1 ++ c!"=" ++ e) m ts ∧
    m' = [(n, ⟨n, [], joinWith c!";" ts⟩)]

/-! ## Components without components -/

/-- What the properties of a `Audio` (`src/components/valarm.rs:73-84`) are read as. -/
structure AudioProps (v w : Audio) : Prop where
  action : One c!"ACTION" asText TextLine v.action w.action
  trigger : One c!"TRIGGER" asTrigger TriggerLine v.trigger w.trigger
  duration : Opt c!"DURATION" (asShown TimeDelta.toStr) DurationLine v.duration w.duration
  repeat_ : Opt c!"REPEAT" asNumber NumberLine v.repeat_ w.repeat_
  attach : Many c!"ATTACH" asText TextLine v.attach w.attach
  xProp : Ext c!"X-PROP" v.xProp w.xProp
  ianaProp : Ext c!"IANA-PROP" v.ianaProp w.ianaProp

/-- What the properties of a `Display` (`src/components/valarm.rs:101-112`) are read as. -/
structure DisplayProps (v w : Display) : Prop where
  action : One c!"ACTION" asText TextLine v.action w.action
  trigger : One c!"TRIGGER" asTrigger TriggerLine v.trigger w.trigger
  description : One c!"DESCRIPTION" asText TextLine v.description w.description
  duration : Opt c!"DURATION" (asShown TimeDelta.toStr) DurationLine v.duration w.duration
  repeat_ : Opt c!"REPEAT" asNumber NumberLine v.repeat_ w.repeat_
  xProp : Ext c!"X-PROP" v.xProp w.xProp
  ianaProp : Ext c!"IANA-PROP" v.ianaProp w.ianaProp

/-- What the properties of a `Email` (`src/components/valarm.rs:129-143`) are read as. -/
structure EmailProps (v w : Email) : Prop where
  action : One c!"ACTION" asText TextLine v.action w.action
  trigger : One c!"TRIGGER" asTrigger TriggerLine v.trigger w.trigger
  description : One c!"DESCRIPTION" asText TextLine v.description w.description
  summary : One c!"SUMMARY" asText TextLine v.summary w.summary
  attendee : Many c!"ATTENDEE" asUri UriLine v.attendee w.attendee
  duration : Opt c!"DURATION" (asShown TimeDelta.toStr) DurationLine v.duration w.duration
  repeat_ : Opt c!"REPEAT" asNumber NumberLine v.repeat_ w.repeat_
  attach : Many c!"ATTACH" asText TextLine v.attach w.attach
  xProp : Ext c!"X-PROP" v.xProp w.xProp
  ianaProp : Ext c!"IANA-PROP" v.ianaProp w.ianaProp

/-- What the properties of a `VEvent` (`src/components/vevent.rs:4-45`) are read as. -/
structure VEventProps (v w : VEvent) : Prop where
  dtstamp : One c!"DTSTAMP" (asShown DateTime.toStr) DateTimeLine v.dtstamp w.dtstamp
  uid : One c!"UID" asText TextLine v.uid w.uid
  dtstart : One c!"DTSTART" asDate DateLine v.dtstart w.dtstart
  class_ : Opt c!"CLASS" (asShown Class.toStr) ClassLine v.class_ w.class_
  created : Opt c!"CREATED" (asShown DateTime.toStr) DateTimeLine v.created w.created
  description : Opt c!"DESCRIPTION" asText TextLine v.description w.description
  geo : Opt c!"GEO" (asShown Geo.toStr) GeoLine v.geo w.geo
  lastModified : Opt c!"LAST-MODIFIED" (asShown DateTime.toStr) DateTimeLine v.lastModified w.lastModified
  location : Opt c!"LOCATION" asText TextLine v.location w.location
  organizer : Opt c!"ORGANIZER" asUri UriLine v.organizer w.organizer
  priority : Opt c!"PRIORITY" asNumber PriorityLine v.priority w.priority
  sequence : Opt c!"SEQUENCE" asNumber NumberLine v.sequence w.sequence
  status : Opt c!"STATUS" (asShown Status.toStr) StatusLine v.status w.status
  summary : Opt c!"SUMMARY" asText TextLine v.summary w.summary
  transp : Opt c!"TRANSP" (asShown TimeTransparency.toStr) TransparencyLine v.transp w.transp
  url : Opt c!"URL" asUri UriLine v.url w.url
  recurid : Opt c!"RECURID" asDate DateLine v.recurid w.recurid
  rrule : Opt c!"RRULE" asRule RuleLine v.rrule w.rrule
  dtend : Opt c!"DTEND" asDate DateLine v.dtend w.dtend
  duration : Opt c!"DURATION" (asShown TimeDelta.toStr) DurationLine v.duration w.duration
  attach : Many c!"ATTACH" asText TextLine v.attach w.attach
  attendee : Many c!"ATTENDEE" asUri UriLine v.attendee w.attendee
  categories : Parts c!"CATEGORIES" asText TextsLine v.categories w.categories
  comment : Many c!"COMMENT" asText TextLine v.comment w.comment
  contact : Many c!"CONTACT" asText TextLine v.contact w.contact
  exdate : Parts c!"EXDATE" asDate DatesLine v.exdate w.exdate
  rstatus : Many c!"RSTATUS" asRequestStatus RequestStatusLine v.rstatus w.rstatus
  relatedTo : Many c!"RELATED-TO" asText TextLine v.relatedTo w.relatedTo
  resources : Parts c!"RESOURCES" asText TextsLine v.resources w.resources
  rdate : Many c!"RDATE" (asShown RDate.toStr) RDateLine v.rdate w.rdate
  xProp : Ext c!"X-PROP" v.xProp w.xProp
  ianaProp : Ext c!"IANA-PROP" v.ianaProp w.ianaProp

/-- What the properties of a `VFreebusy` (`src/components/vfreebusy.rs:4-22`) are read as. -/
structure VFreebusyProps (v w : VFreebusy) : Prop where
  dtstamp : One c!"DTSTAMP" (asShown DateTime.toStr) DateTimeLine v.dtstamp w.dtstamp
  uid : One c!"UID" asText TextLine v.uid w.uid
  contact : Opt c!"CONTACT" asText TextLine v.contact w.contact
  dtstart : Opt c!"DTSTART" asDate DateLine v.dtstart w.dtstart
  dtend : Opt c!"DTEND" asDate DateLine v.dtend w.dtend
  organizer : Opt c!"ORGANIZER" asUri UriLine v.organizer w.organizer
  url : Opt c!"URL" asUri UriLine v.url w.url
  attendee : Many c!"ATTENDEE" asUri UriLine v.attendee w.attendee
  comment : Many c!"COMMENT" asText TextLine v.comment w.comment
  freebusy : Parts c!"FREEBUSY" (asShown Period.toStr) PeriodsLine v.freebusy w.freebusy
  rstatus : Many c!"RSTATUS" asRequestStatus RequestStatusLine v.rstatus w.rstatus
  xProp : Ext c!"X-PROP" v.xProp w.xProp
  ianaProp : Ext c!"IANA-PROP" v.ianaProp w.ianaProp

/-- What the properties of a `VJournal` (`src/components/vjournal.rs:4-35`) are read as. -/
structure VJournalProps (v w : VJournal) : Prop where
  dtstamp : One c!"DTSTAMP" (asShown DateTime.toStr) DateTimeLine v.dtstamp w.dtstamp
  uid : One c!"UID" asText TextLine v.uid w.uid
  class_ : Opt c!"CLASS" (asShown Class.toStr) ClassLine v.class_ w.class_
  created : Opt c!"CREATED" (asShown DateTime.toStr) DateTimeLine v.created w.created
  dtstart : One c!"DTSTART" asDate DateLine v.dtstart w.dtstart
  lastModified : Opt c!"LAST-MODIFIED" (asShown DateTime.toStr) DateTimeLine v.lastModified w.lastModified
  organizer : Opt c!"ORGANIZER" asUri UriLine v.organizer w.organizer
  recurid : Opt c!"RECURID" asDate DateLine v.recurid w.recurid
  sequence : Opt c!"SEQUENCE" asNumber NumberLine v.sequence w.sequence
  status : Opt c!"STATUS" (asShown Status.toStr) StatusLine v.status w.status
  summary : Opt c!"SUMMARY" asText TextLine v.summary w.summary
  url : Opt c!"URL" asUri UriLine v.url w.url
  rrule : Opt c!"RRULE" asRule RuleLine v.rrule w.rrule
  attach : Many c!"ATTACH" asText TextLine v.attach w.attach
  attendee : Many c!"ATTENDEE" asUri UriLine v.attendee w.attendee
  categories : Parts c!"CATEGORIES" asText TextsLine v.categories w.categories
  comment : Many c!"COMMENT" asText TextLine v.comment w.comment
  contact : Many c!"CONTACT" asText TextLine v.contact w.contact
  description : Many c!"DESCRIPTION" asText TextLine v.description w.description
  exdate : Parts c!"EXDATE" asDate DatesLine v.exdate w.exdate
  relatedTo : Many c!"RELATED-TO" asText TextLine v.relatedTo w.relatedTo
  rdate : Many c!"RDATE" (asShown RDate.toStr) RDateLine v.rdate w.rdate
  rstatus : Many c!"RSTATUS" asRequestStatus RequestStatusLine v.rstatus w.rstatus
  xProp : Ext c!"X-PROP" v.xProp w.xProp
  ianaProp : Ext c!"IANA-PROP" v.ianaProp w.ianaProp

/-- What the properties of a `Standard` (`src/components/vtimezone.rs:34-49,76`) are read as. -/
structure StandardProps (v w : Standard) : Prop where
  dtstart : One c!"DTSTART" asDate DateLine v.dtstart w.dtstart
  tzoffsetto : One c!"TZOFFSETTO" (asShown FixedOffset.toStr) OffsetLine v.tzoffsetto w.tzoffsetto
  tzoffsetfrom : One c!"TZOFFSETFROM" (asShown FixedOffset.toStr) OffsetLine v.tzoffsetfrom w.tzoffsetfrom
  rrule : Opt c!"RRULE" asRule RuleLine v.rrule w.rrule
  comment : Many c!"COMMENT" asText TextLine v.comment w.comment
  rdate : Many c!"RDATE" (asShown RDate.toStr) RDateLine v.rdate w.rdate
  tzname : Many c!"TZNAME" asText TextLine v.tzname w.tzname
  xProp : Ext c!"X-PROP" v.xProp w.xProp
  ianaProp : Ext c!"IANA-PROP" v.ianaProp w.ianaProp

/-- What the properties of a `Daylight` (`src/components/vtimezone.rs:34-49,77`) are read as. -/
structure DaylightProps (v w : Daylight) : Prop where
  dtstart : One c!"DTSTART" asDate DateLine v.dtstart w.dtstart
  tzoffsetto : One c!"TZOFFSETTO" (asShown FixedOffset.toStr) OffsetLine v.tzoffsetto w.tzoffsetto
  tzoffsetfrom : One c!"TZOFFSETFROM" (asShown FixedOffset.toStr) OffsetLine v.tzoffsetfrom w.tzoffsetfrom
  rrule : Opt c!"RRULE" asRule RuleLine v.rrule w.rrule
  comment : Many c!"COMMENT" asText TextLine v.comment w.comment
  rdate : Many c!"RDATE" (asShown RDate.toStr) RDateLine v.rdate w.rdate
  tzname : Many c!"TZNAME" asText TextLine v.tzname w.tzname
  xProp : Ext c!"X-PROP" v.xProp w.xProp
  ianaProp : Ext c!"IANA-PROP" v.ianaProp w.ianaProp

/-- What the properties of a `VTimezone` (`src/components/vtimezone.rs:6-19`) are read as. -/
structure VTimezoneProps (v w : VTimezone) : Prop where
  tzid : One c!"TZID" asText TextLine v.tzid w.tzid
  lastModified : Opt c!"LAST-MODIFIED" (asShown DateTime.toStr) DateTimeLine v.lastModified w.lastModified
  tzurl : Opt c!"TZURL" asUri UriLine v.tzurl w.tzurl
  xProp : Ext c!"X-PROP" v.xProp w.xProp
  ianaProp : Ext c!"IANA-PROP" v.ianaProp w.ianaProp

/-- What the properties of a `VTodo` (`src/components/vtodo.rs:4-43`) are read as. -/
structure VTodoProps (v w : VTodo) : Prop where
  dtstamp : One c!"DTSTAMP" (asShown DateTime.toStr) DateTimeLine v.dtstamp w.dtstamp
  uid : One c!"UID" asText TextLine v.uid w.uid
  class_ : Opt c!"CLASS" (asShown Class.toStr) ClassLine v.class_ w.class_
  completed : Opt c!"COMPLETED" (asShown DateTime.toStr) DateTimeLine v.completed w.completed
  created : Opt c!"CREATED" (asShown DateTime.toStr) DateTimeLine v.created w.created
  dtstart : Opt c!"DTSTART" asDate DateLine v.dtstart w.dtstart
  geo : Opt c!"GEO" (asShown Geo.toStr) GeoLine v.geo w.geo
  lastModified : Opt c!"LAST-MODIFIED" (asShown DateTime.toStr) DateTimeLine v.lastModified w.lastModified
  location : Opt c!"LOCATION" asText TextLine v.location w.location
  organizer : Opt c!"ORGANIZER" asUri UriLine v.organizer w.organizer
  percentComplete : Opt c!"PERCENT-COMPLETE" asNumber PercentLine v.percentComplete w.percentComplete
  priority : Opt c!"PRIORITY" asNumber PriorityLine v.priority w.priority
  recurid : Opt c!"RECURID" asDate DateLine v.recurid w.recurid
  sequence : Opt c!"SEQUENCE" asNumber NumberLine v.sequence w.sequence
  status : Opt c!"STATUS" (asShown Status.toStr) StatusLine v.status w.status
  summary : Opt c!"SUMMARY" asText TextLine v.summary w.summary
  url : Opt c!"URL" asUri UriLine v.url w.url
  rrule : Opt c!"RRULE" asRule RuleLine v.rrule w.rrule
  due : Opt c!"DUE" asDate DateLine v.due w.due
  duration : Opt c!"DURATION" (asShown TimeDelta.toStr) DurationLine v.duration w.duration
  attach : Many c!"ATTACH" asText TextLine v.attach w.attach
  attendee : Many c!"ATTENDEE" asUri UriLine v.attendee w.attendee
  categories : Parts c!"CATEGORIES" asText TextsLine v.categories w.categories
  comment : Many c!"COMMENT" asText TextLine v.comment w.comment
  contact : Many c!"CONTACT" asText TextLine v.contact w.contact
  exdate : Parts c!"EXDATE" asDate DatesLine v.exdate w.exdate
  rstatus : Many c!"RSTATUS" asRequestStatus RequestStatusLine v.rstatus w.rstatus
  relatedTo : Many c!"RELATED-TO" asText TextLine v.relatedTo w.relatedTo
  resources : Parts c!"RESOURCES" asText TextsLine v.resources w.resources
  rdate : Many c!"RDATE" (asShown RDate.toStr) RDateLine v.rdate w.rdate
  xProp : Ext c!"X-PROP" v.xProp w.xProp
  ianaProp : Ext c!"IANA-PROP" v.ianaProp w.ianaProp

/-- What the properties of a `VCalendar` (`src/components/vcalendar.rs:4-26`) are read as. -/
structure VCalendarProps (v w : VCalendar) : Prop where
  prodid : One c!"PRODID" asText TextLine v.prodid w.prodid
  version : One c!"VERSION" asText TextLine v.version w.version
  calscale : Opt c!"CALSCALE" asText TextLine v.calscale w.calscale
  method : Opt c!"METHOD" asText TextLine v.method w.method
  xProp : Ext c!"X-PROP" v.xProp w.xProp
  ianaProp : Ext c!"IANA-PROP" v.ianaProp w.ianaProp


/-! ## Alarms -/

/-- The action of an alarm. -/
def action : VAlarm → Text
  | .audio a => a.action
  | .display a => a.action
  | .email a => a.action

/-- The name of the kind of an alarm. -/
def kind : VAlarm → Str
  | .audio _ => c!"AUDIO"
  | .display _ => c!"DISPLAY"
  | .email _ => c!"EMAIL"

/-- The alarms are of one kind, and the properties of one are read as those of the other. -/
def SameKind : VAlarm → VAlarm → Prop
  | .audio a, .audio b => AudioProps a b
  | .display a, .display b => DisplayProps a b
  | .email a, .email b => EmailProps a b
  | _, _ => False

/-! ## Components with components -/

/-- What an event is read as: it must have no alarm. -/
structure VEventBack (v w : VEvent) : Prop where
  alarms : v.alarms = []
  noAlarms : w.alarms = []
  props : VEventProps v w

/-- What a time zone is read as: it must have at most one part of each kind, and no part if it has extension properties. -/
structure VTimezoneBack (v w : VTimezone) : Prop where
  oneStandard : v.standard.length ≤ 1
  oneDaylight : v.daylight.length ≤ 1
  alone : v.standard ≠ [] ∨ v.daylight ≠ [] → v.xProp = [] ∧ v.ianaProp = []
  props : VTimezoneProps v w
  standard : All2 StandardProps v.standard w.standard
  daylight : All2 DaylightProps v.daylight w.daylight

/-- What a calendar is read as: it must have no alarm, at most one component of each kind, and no component if it has extension properties. -/
structure VCalendarBack (v w : VCalendar) : Prop where
  alarms : v.alarms = []
  noAlarms : w.alarms = []
  oneEvent : v.events.length ≤ 1
  oneFreebusy : v.freebusy.length ≤ 1
  oneJournal : v.journals.length ≤ 1
  oneTodo : v.todo.length ≤ 1
  oneTimezone : v.timezones.length ≤ 1
  alone : v.events ≠ [] ∨ v.freebusy ≠ [] ∨ v.journals ≠ [] ∨ v.todo ≠ [] ∨ v.timezones ≠ [] → v.xProp = [] ∧ v.ianaProp = []
  props : VCalendarProps v w
  events : All2 VEventBack v.events w.events
  freebusy : All2 VFreebusyProps v.freebusy w.freebusy
  journals : All2 VJournalProps v.journals w.journals
  todo : All2 VTodoProps v.todo w.todo
  timezones : All2 VTimezoneBack v.timezones w.timezones

end Ikal.Spec.Back
