import Verif.Spec.Kinds
import Verif.Spec.Tidy

/-!
# Specification: saving and loading again and again

What becomes of each property when a component is written and read back any number of times.
-/

namespace Ikal.Spec

/-- `n` steps of a relation, one after the other. -/
inductive Repeatedly {α : Type} (R : α → α → Prop) : Nat → α → α → Prop
  | none {a : α} : Repeatedly R 0 a a
  | more {n : Nat} {a b c : α} : Repeatedly R n a b → R b c → Repeatedly R (n + 1) a c

/-- The component is written and the text is read. -/
def Saved {α : Type} [Ser α] (read : Str → Res α) (v w : α) : Prop := ∃ t, ical v = .ok t ∧ read t = .ok w

/-- No number is shown and no letter is put in upper case with a line break, and what follows a number in a text is the rest of that text. -/
structure OneLinePlatform [Platform] : Prop where
  floats : ∀ x : Platform.F32, TidyFloat Platform.floatShow x ∧ TidyFloat Platform.floatShow1 x
  rest : ∀ s (x : Platform.F32) r, Platform.floatParse s = some (x, r) → r <:+ s
  upper : ∀ c, c ≠ '\n' → c ≠ '\r' → '\n' ∉ upperStr [c] ∧ '\r' ∉ upperStr [c]

namespace After

open Full

/-! ## Texts -/

/-- A text after `n` times: a semicolon or a comma has `n` more backslashes before it, and a line break is a backslash and an `n` if the
text was saved at all. -/
inductive Marked (n : Nat) : Str → Str → Prop
  | nil : Marked n [] []
  | mark {c : Char} {s t : Str} : c = ';' ∨ c = ',' → Marked n s t → Marked n (c :: s) (List.replicate n '\\' ++ c :: t)
  | newline {s t : Str} : n ≠ 0 → Marked n s t → Marked n ('\n' :: s) ('\\' :: 'n' :: t)
  | same {s t : Str} : n = 0 → Marked n s t → Marked n ('\n' :: s) ('\n' :: t)
  | other {c : Char} {s t : Str} : c ≠ ';' → c ≠ ',' → c ≠ '\n' → Marked n s t → Marked n (c :: s) (c :: t)

/-- A text with parameters. -/
structure Words (α : Type) where
  text : α → Str
  params : α → SMap Str

def texts : Words Text := ⟨Text.text, Text.params⟩
def uris : Words Uri := ⟨Uri.uri, Uri.params⟩

/-- The text gets backslashes, the parameters are kept. -/
def Kept {α : Type} (T : Words α) (n : Nat) (a b : α) : Prop := Marked n (T.text a) (T.text b) ∧ T.params b = T.params a

/-- A required text: it must not be empty to be saved. -/
def Required {α : Type} (T : Words α) (n : Nat) (a b : α) : Prop := (n ≠ 0 → T.text a ≠ []) ∧ Kept T n a b

/-- An optional text: it disappears if it is empty. -/
def Maybe {α : Type} (T : Words α) (n : Nat) (v w : Option α) : Prop :=
  match v with
  | none => w = none
  | some a => n ≠ 0 ∧ T.text a = [] ∧ w = none ∨ (n = 0 ∨ T.text a ≠ []) ∧ ∃ b, Kept T n a b ∧ w = some b

/-- A list of texts: a single one is like an optional one; more become one text without parameters, with all of them separated by commas,
when they are saved first, and that text gets the backslashes from then on. -/
def Listed {α : Type} (T : Words α) (n : Nat) (v w : List α) : Prop :=
  match v with
  | [] => w = []
  | [a] => n ≠ 0 ∧ T.text a = [] ∧ w = [] ∨ (n = 0 ∨ T.text a ≠ []) ∧ ∃ b, Kept T n a b ∧ w = [b]
  | v => n = 0 ∧ w = v ∨ ∃ k ts b, n = k + 1 ∧ All2 (fun a t => Marked 1 (T.text a) t) v ts ∧ Marked k (joinWith c!"," ts) (T.text b) ∧
      T.params b = [] ∧ w = [b]

/-- The pieces of a text between its commas: all but the last get one backslash at the end, that of the comma. -/
inductive Pieces (n : Nat) : List Str → List Str → Prop
  | last {p q : Str} : Marked n p q → Pieces n [p] [q]
  | more {p q : Str} {ps qs : List Str} : Marked n p q → Pieces n ps qs → Pieces n (p :: ps) ((q ++ c!"\\") :: qs)

/-- A list of texts that are read from one line: they are split at their commas when they are saved first, and lose their parameters; a
single empty text disappears. -/
def Split (n : Nat) (v w : List Text) : Prop :=
  n = 0 ∧ w = v ∨
  n ≠ 0 ∧ (v = [] ∨ ∃ a, v = [a] ∧ a.text = []) ∧ w = [] ∨
  n ≠ 0 ∧ v ≠ [] ∧ (∀ a, v = [a] → a.text ≠ []) ∧
    ∃ qss, All2 (fun (a : Text) qs => ∃ ps, CommaPieces a.text ps ∧ Pieces n ps qs) v qss ∧
      w = qss.flatten.map fun q => (⟨[], q⟩ : Text)

/-- Extension properties: all of them become a single one with the name of the field when they are saved first, and from then on the name
is put before the value each time. -/
def ExtAfter (name : Str) (n : Nat) (m m' : SMap ContentLine) : Prop :=
  n = 0 ∧ m' = m ∨
  m = [] ∧ m' = [] ∨
  m ≠ [] ∧ ∃ k ts t, n = k + 1 ∧ All2 (fun (p : Str × ContentLine) t => ∃ e, Marked 1 p.2.value e ∧ t = p.1 ++ c!"=" ++ e) m ts ∧
    Marked k (joinWith c!";" ts) t ∧ m' = [(name, ⟨name, [], (List.replicate k (name ++ c!"=")).flatten ++ t⟩)]

/-! ## Dates, times and durations -/

section
variable [Platform]

/-- An instant is written by the wall clock and read as UTC: it moves by the offset of the local zone, and its fraction of a second is lost. -/
def Moved (u u' : NaiveDateTime) : Prop :=
  AnySecond u' ∧ u'.toSecs = u.toSecs + Platform.tzOffset u.toSecs ∧ u'.frac = 0

/-- A time that exists and, for an instant, is not in a leap second. -/
def Ordinary : DateTime → Prop
  | .naive t => AnySecond t
  | .loc u => AnySecond u ∧ u.frac < 1000000000

/-- A date-time: a floating one is kept but for its fraction of a second, an instant moves each time. -/
def DateTimeAfter (n : Nat) (v w : DateTime) : Prop :=
  Ordinary v → match v with
  | .naive t => n = 0 ∧ w = .naive t ∨ n ≠ 0 ∧ w = .naive { t with frac := if t.frac < 1000000000 then 0 else 1000000000 }
  | .loc u => ∃ u', w = .loc u' ∧ Repeatedly Moved n u u'

/-- A date is kept. -/
def DateAfter (n : Nat) (v w : Date) : Prop :=
  match v with
  | .date d => RealDate d → w = .date d
  | .dateTime t => Ordinary t → ∃ t', w = .dateTime t' ∧ DateTimeAfter n t t'

end

/-- A duration: kept if it is a whole number of seconds, otherwise nothing is left of it. -/
def DurationAfter (n : Nat) (v w : TimeDelta) : Prop :=
  v.Valid → n = 0 ∧ w = v ∨ n ≠ 0 ∧ w = if v.nanos % 1000000000 = 0 then v else ⟨0⟩

/-- An offset: its seconds are lost. -/
def OffsetAfter (n : Nat) (v w : FixedOffset) : Prop :=
  v.Valid → n = 0 ∧ w = v ∨ n ≠ 0 ∧ w.secs = (if v.secs < 0 then -1 else 1) * ((v.secs.natAbs / 60 * 60 : Nat) : Int)

variable [Platform]

/-- A trigger stays a duration or a date-time. -/
def TriggerAfter (n : Nat) (v w : Trigger) : Prop :=
  match v with
  | .duration d => d.Valid → ∃ d', w = .duration d' ∧ DurationAfter n d d'
  | .dateTime t => Ordinary t → ∃ t', w = .dateTime t' ∧ DateTimeAfter n t t'

/-- A period stays a start with an end or with a duration. -/
def PeriodAfter (n : Nat) (v w : Period) : Prop :=
  match v with
  | .startEnd a e => Ordinary a → Ordinary e →
      ∃ a' e', w = .startEnd a' e' ∧ DateTimeAfter n a a' ∧ DateTimeAfter n e e'
  | .startDur a d => Ordinary a → d.Valid →
      ∃ a' d', w = .startDur a' d' ∧ DateTimeAfter n a a' ∧ DurationAfter n d d'

/-- An optional value is there after as before. -/
def OptAfter {α : Type} (A : Nat → α → α → Prop) (n : Nat) (v w : Option α) : Prop :=
  match v with
  | none => w = none
  | some a => ∃ b, w = some b ∧ A n a b

/-! ## Components without components -/

/-- The properties of a `Audio` (`src/components/valarm.rs:73-84`) after it was saved `n` times. -/
structure AudioProps (n : Nat) (v w : Audio) : Prop where
  action : Required texts n v.action w.action
  trigger : TriggerAfter n v.trigger w.trigger
  duration : OptAfter DurationAfter n v.duration w.duration
  repeat_ : w.repeat_ = v.repeat_
  attach : Listed texts n v.attach w.attach
  xProp : ExtAfter c!"X-PROP" n v.xProp w.xProp
  ianaProp : ExtAfter c!"IANA-PROP" n v.ianaProp w.ianaProp

/-- The properties of a `Display` (`src/components/valarm.rs:101-112`) after it was saved `n` times. -/
structure DisplayProps (n : Nat) (v w : Display) : Prop where
  action : Required texts n v.action w.action
  trigger : TriggerAfter n v.trigger w.trigger
  description : Required texts n v.description w.description
  duration : OptAfter DurationAfter n v.duration w.duration
  repeat_ : w.repeat_ = v.repeat_
  xProp : ExtAfter c!"X-PROP" n v.xProp w.xProp
  ianaProp : ExtAfter c!"IANA-PROP" n v.ianaProp w.ianaProp

/-- The properties of a `Email` (`src/components/valarm.rs:129-143`) after it was saved `n` times. -/
structure EmailProps (n : Nat) (v w : Email) : Prop where
  action : Required texts n v.action w.action
  trigger : TriggerAfter n v.trigger w.trigger
  description : Required texts n v.description w.description
  summary : Required texts n v.summary w.summary
  attendee : Listed uris n v.attendee w.attendee
  duration : OptAfter DurationAfter n v.duration w.duration
  repeat_ : w.repeat_ = v.repeat_
  attach : Listed texts n v.attach w.attach
  xProp : ExtAfter c!"X-PROP" n v.xProp w.xProp
  ianaProp : ExtAfter c!"IANA-PROP" n v.ianaProp w.ianaProp

/-- The properties of a `VEvent` (`src/components/vevent.rs:4-45`) after it was saved `n` times. -/
structure VEventProps (n : Nat) (v w : VEvent) : Prop where
  dtstamp : DateTimeAfter n v.dtstamp w.dtstamp
  uid : Required texts n v.uid w.uid
  dtstart : DateAfter n v.dtstart w.dtstart
  class_ : Repeatedly (Back.Opt c!"CLASS" (Back.asShown Class.toStr) ClassLine) n v.class_ w.class_
  created : OptAfter DateTimeAfter n v.created w.created
  description : Maybe texts n v.description w.description
  geo : Repeatedly (Back.Opt c!"GEO" (Back.asShown Geo.toStr) GeoLine) n v.geo w.geo
  lastModified : OptAfter DateTimeAfter n v.lastModified w.lastModified
  location : Maybe texts n v.location w.location
  organizer : Maybe uris n v.organizer w.organizer
  priority : w.priority = v.priority
  sequence : w.sequence = v.sequence
  status : w.status = v.status
  summary : Maybe texts n v.summary w.summary
  transp : w.transp = v.transp
  url : Maybe uris n v.url w.url
  recurid : OptAfter DateAfter n v.recurid w.recurid
  rrule : Repeatedly (Back.Opt c!"RRULE" Back.asRule RuleLine) n v.rrule w.rrule
  dtend : OptAfter DateAfter n v.dtend w.dtend
  duration : OptAfter DurationAfter n v.duration w.duration
  attach : Listed texts n v.attach w.attach
  attendee : Listed uris n v.attendee w.attendee
  categories : Split n v.categories w.categories
  comment : Listed texts n v.comment w.comment
  contact : Listed texts n v.contact w.contact
  exdate : All2 (DateAfter n) v.exdate w.exdate
  rstatus : Repeatedly (Back.Many c!"RSTATUS" Back.asRequestStatus RequestStatusLine) n v.rstatus w.rstatus
  relatedTo : Listed texts n v.relatedTo w.relatedTo
  resources : Split n v.resources w.resources
  rdate : Repeatedly (Back.Many c!"RDATE" (Back.asShown RDate.toStr) RDateLine) n v.rdate w.rdate
  xProp : ExtAfter c!"X-PROP" n v.xProp w.xProp
  ianaProp : ExtAfter c!"IANA-PROP" n v.ianaProp w.ianaProp

/-- The properties of a `VFreebusy` (`src/components/vfreebusy.rs:4-22`) after it was saved `n` times. -/
structure VFreebusyProps (n : Nat) (v w : VFreebusy) : Prop where
  dtstamp : DateTimeAfter n v.dtstamp w.dtstamp
  uid : Required texts n v.uid w.uid
  contact : Maybe texts n v.contact w.contact
  dtstart : OptAfter DateAfter n v.dtstart w.dtstart
  dtend : OptAfter DateAfter n v.dtend w.dtend
  organizer : Maybe uris n v.organizer w.organizer
  url : Maybe uris n v.url w.url
  attendee : Listed uris n v.attendee w.attendee
  comment : Listed texts n v.comment w.comment
  freebusy : All2 (PeriodAfter n) v.freebusy w.freebusy
  rstatus : Repeatedly (Back.Many c!"RSTATUS" Back.asRequestStatus RequestStatusLine) n v.rstatus w.rstatus
  xProp : ExtAfter c!"X-PROP" n v.xProp w.xProp
  ianaProp : ExtAfter c!"IANA-PROP" n v.ianaProp w.ianaProp

/-- The properties of a `VJournal` (`src/components/vjournal.rs:4-35`) after it was saved `n` times. -/
structure VJournalProps (n : Nat) (v w : VJournal) : Prop where
  dtstamp : DateTimeAfter n v.dtstamp w.dtstamp
  uid : Required texts n v.uid w.uid
  class_ : Repeatedly (Back.Opt c!"CLASS" (Back.asShown Class.toStr) ClassLine) n v.class_ w.class_
  created : OptAfter DateTimeAfter n v.created w.created
  dtstart : DateAfter n v.dtstart w.dtstart
  lastModified : OptAfter DateTimeAfter n v.lastModified w.lastModified
  organizer : Maybe uris n v.organizer w.organizer
  recurid : OptAfter DateAfter n v.recurid w.recurid
  sequence : w.sequence = v.sequence
  status : w.status = v.status
  summary : Maybe texts n v.summary w.summary
  url : Maybe uris n v.url w.url
  rrule : Repeatedly (Back.Opt c!"RRULE" Back.asRule RuleLine) n v.rrule w.rrule
  attach : Listed texts n v.attach w.attach
  attendee : Listed uris n v.attendee w.attendee
  categories : Split n v.categories w.categories
  comment : Listed texts n v.comment w.comment
  contact : Listed texts n v.contact w.contact
  description : Listed texts n v.description w.description
  exdate : All2 (DateAfter n) v.exdate w.exdate
  relatedTo : Listed texts n v.relatedTo w.relatedTo
  rdate : Repeatedly (Back.Many c!"RDATE" (Back.asShown RDate.toStr) RDateLine) n v.rdate w.rdate
  rstatus : Repeatedly (Back.Many c!"RSTATUS" Back.asRequestStatus RequestStatusLine) n v.rstatus w.rstatus
  xProp : ExtAfter c!"X-PROP" n v.xProp w.xProp
  ianaProp : ExtAfter c!"IANA-PROP" n v.ianaProp w.ianaProp

/-- The properties of a `Standard` (`src/components/vtimezone.rs:34-49,76`) after it was saved `n` times. -/
structure StandardProps (n : Nat) (v w : Standard) : Prop where
  dtstart : DateAfter n v.dtstart w.dtstart
  tzoffsetto : OffsetAfter n v.tzoffsetto w.tzoffsetto
  tzoffsetfrom : OffsetAfter n v.tzoffsetfrom w.tzoffsetfrom
  rrule : Repeatedly (Back.Opt c!"RRULE" Back.asRule RuleLine) n v.rrule w.rrule
  comment : Listed texts n v.comment w.comment
  rdate : Repeatedly (Back.Many c!"RDATE" (Back.asShown RDate.toStr) RDateLine) n v.rdate w.rdate
  tzname : Listed texts n v.tzname w.tzname
  xProp : ExtAfter c!"X-PROP" n v.xProp w.xProp
  ianaProp : ExtAfter c!"IANA-PROP" n v.ianaProp w.ianaProp

/-- The properties of a `Daylight` (`src/components/vtimezone.rs:34-49,77`) after it was saved `n` times. -/
structure DaylightProps (n : Nat) (v w : Daylight) : Prop where
  dtstart : DateAfter n v.dtstart w.dtstart
  tzoffsetto : OffsetAfter n v.tzoffsetto w.tzoffsetto
  tzoffsetfrom : OffsetAfter n v.tzoffsetfrom w.tzoffsetfrom
  rrule : Repeatedly (Back.Opt c!"RRULE" Back.asRule RuleLine) n v.rrule w.rrule
  comment : Listed texts n v.comment w.comment
  rdate : Repeatedly (Back.Many c!"RDATE" (Back.asShown RDate.toStr) RDateLine) n v.rdate w.rdate
  tzname : Listed texts n v.tzname w.tzname
  xProp : ExtAfter c!"X-PROP" n v.xProp w.xProp
  ianaProp : ExtAfter c!"IANA-PROP" n v.ianaProp w.ianaProp

/-- The properties of a `VTimezone` (`src/components/vtimezone.rs:6-19`) after it was saved `n` times. -/
structure VTimezoneProps (n : Nat) (v w : VTimezone) : Prop where
  tzid : Required texts n v.tzid w.tzid
  lastModified : OptAfter DateTimeAfter n v.lastModified w.lastModified
  tzurl : Maybe uris n v.tzurl w.tzurl
  xProp : ExtAfter c!"X-PROP" n v.xProp w.xProp
  ianaProp : ExtAfter c!"IANA-PROP" n v.ianaProp w.ianaProp

/-- The properties of a `VTodo` (`src/components/vtodo.rs:4-43`) after it was saved `n` times. -/
structure VTodoProps (n : Nat) (v w : VTodo) : Prop where
  dtstamp : DateTimeAfter n v.dtstamp w.dtstamp
  uid : Required texts n v.uid w.uid
  class_ : Repeatedly (Back.Opt c!"CLASS" (Back.asShown Class.toStr) ClassLine) n v.class_ w.class_
  completed : OptAfter DateTimeAfter n v.completed w.completed
  created : OptAfter DateTimeAfter n v.created w.created
  dtstart : OptAfter DateAfter n v.dtstart w.dtstart
  geo : Repeatedly (Back.Opt c!"GEO" (Back.asShown Geo.toStr) GeoLine) n v.geo w.geo
  lastModified : OptAfter DateTimeAfter n v.lastModified w.lastModified
  location : Maybe texts n v.location w.location
  organizer : Maybe uris n v.organizer w.organizer
  percentComplete : w.percentComplete = v.percentComplete
  priority : w.priority = v.priority
  recurid : OptAfter DateAfter n v.recurid w.recurid
  sequence : w.sequence = v.sequence
  status : w.status = v.status
  summary : Maybe texts n v.summary w.summary
  url : Maybe uris n v.url w.url
  rrule : Repeatedly (Back.Opt c!"RRULE" Back.asRule RuleLine) n v.rrule w.rrule
  due : OptAfter DateAfter n v.due w.due
  duration : OptAfter DurationAfter n v.duration w.duration
  attach : Listed texts n v.attach w.attach
  attendee : Listed uris n v.attendee w.attendee
  categories : Split n v.categories w.categories
  comment : Listed texts n v.comment w.comment
  contact : Listed texts n v.contact w.contact
  exdate : All2 (DateAfter n) v.exdate w.exdate
  rstatus : Repeatedly (Back.Many c!"RSTATUS" Back.asRequestStatus RequestStatusLine) n v.rstatus w.rstatus
  relatedTo : Listed texts n v.relatedTo w.relatedTo
  resources : Split n v.resources w.resources
  rdate : Repeatedly (Back.Many c!"RDATE" (Back.asShown RDate.toStr) RDateLine) n v.rdate w.rdate
  xProp : ExtAfter c!"X-PROP" n v.xProp w.xProp
  ianaProp : ExtAfter c!"IANA-PROP" n v.ianaProp w.ianaProp

/-- The properties of a `VCalendar` (`src/components/vcalendar.rs:4-26`) after it was saved `n` times. -/
structure VCalendarProps (n : Nat) (v w : VCalendar) : Prop where
  prodid : Required texts n v.prodid w.prodid
  version : Required texts n v.version w.version
  calscale : Maybe texts n v.calscale w.calscale
  method : Maybe texts n v.method w.method
  xProp : ExtAfter c!"X-PROP" n v.xProp w.xProp
  ianaProp : ExtAfter c!"IANA-PROP" n v.ianaProp w.ianaProp

/-! ## Alarms -/

/-- The alarms are of one kind, and the properties of one become those of the other. -/
def VAlarmAfter (n : Nat) : VAlarm → VAlarm → Prop
  | .audio a, .audio b => AudioProps n a b
  | .display a, .display b => DisplayProps n a b
  | .email a, .email b => EmailProps n a b
  | _, _ => False

/-! ## Components with components -/

/-- An event: it must have no alarm to be saved. -/
structure VEventAfter (n : Nat) (v w : VEvent) : Prop where
  alarms : n ≠ 0 → v.alarms = []
  same : w.alarms = v.alarms
  props : VEventProps n v w

/-- A time zone: to be saved it must have at most one part of each kind, and no part if it has extension properties. -/
structure VTimezoneAfter (n : Nat) (v w : VTimezone) : Prop where
  oneStandard : n ≠ 0 → v.standard.length ≤ 1
  oneDaylight : n ≠ 0 → v.daylight.length ≤ 1
  alone : n ≠ 0 → v.standard ≠ [] ∨ v.daylight ≠ [] → v.xProp = [] ∧ v.ianaProp = []
  props : VTimezoneProps n v w
  standard : All2 (StandardProps n) v.standard w.standard
  daylight : All2 (DaylightProps n) v.daylight w.daylight

/-- A calendar: to be saved it must have no alarm, at most one component of each kind, and no component if it has extension properties. -/
structure VCalendarAfter (n : Nat) (v w : VCalendar) : Prop where
  alarms : n ≠ 0 → v.alarms = []
  same : w.alarms = v.alarms
  oneEvent : n ≠ 0 → v.events.length ≤ 1
  oneFreebusy : n ≠ 0 → v.freebusy.length ≤ 1
  oneJournal : n ≠ 0 → v.journals.length ≤ 1
  oneTodo : n ≠ 0 → v.todo.length ≤ 1
  oneTimezone : n ≠ 0 → v.timezones.length ≤ 1
  alone : n ≠ 0 → v.events ≠ [] ∨ v.freebusy ≠ [] ∨ v.journals ≠ [] ∨ v.todo ≠ [] ∨ v.timezones ≠ [] → v.xProp = [] ∧ v.ianaProp = []
  props : VCalendarProps n v w
  events : All2 (VEventAfter n) v.events w.events
  freebusy : All2 (VFreebusyProps n) v.freebusy w.freebusy
  journals : All2 (VJournalProps n) v.journals w.journals
  todo : All2 (VTodoProps n) v.todo w.todo
  timezones : All2 (VTimezoneAfter n) v.timezones w.timezones

end After

end Ikal.Spec
