import Verif.Spec.Abnf

/-!
# Specification: what can be written as RFC 5545 has it
-/

namespace Ikal.Spec.Abnf

/-- No control character except line feeds, which are escaped. -/
def Fine (s : Str) : Prop := ∀ c ∈ s, Control c → c = '\n'

/-- No control character at all. -/
def NoControl (s : Str) : Prop := ∀ c ∈ s, ¬ Control c

/-- The values of parameters are written without quotes, so they can have none of `"`, `;` and `:`. -/
def FineParams (m : SMap Str) : Prop := ∀ p ∈ m, IsToken p.1 ∧ Fine p.2 ∧ '"' ∉ p.2 ∧ ';' ∉ p.2 ∧ ':' ∉ p.2

/-- Extension properties: their names are not escaped. -/
def FineExt (m : SMap ContentLine) : Prop := ∀ p ∈ m, NoControl p.1 ∧ Fine p.2.value

/-- A list with one member or none. -/
def OneOrNone {α : Type} (l : List α) : Prop := l.length ≤ 1

variable [Platform]

/-- What is needed of the floating point numbers of the platform: they are shown without control characters. -/
def FineFloats : Prop := ∀ x, NoControl (Platform.floatShow x) ∧ NoControl (Platform.floatShow1 x)

/-- A text and its parameters. -/
def FineText (t : Text) : Prop := Fine t.text ∧ FineParams t.params

/-- An URI and its parameters. -/
def FineUri (t : Uri) : Prop := Fine t.uri ∧ FineParams t.params

/-- A classification is written in upper case and not escaped. -/
def FineClass (c : Class) : Prop := ∀ s, c = .custom s → NoControl (upperStr s)

/-- A request status. -/
def FineRequestStatus (r : RequestStatus) : Prop := Fine r.statdesc ∧ ∀ e ∈ r.extdata, Fine e

/-- The text of a component `name` with parts that have some of the names `ps`, as RFC 5545 has it, possibly folded with spaces. -/
def IsText (name : Str) (ps : List Str) (t : Str) : Prop :=
  ∃ lines parts, (Tree.mk name lines parts).Good ∧ (∀ x ∈ parts, ∃ n ls ts, x = .mk n ls ts ∧ n ∈ ps) ∧ Unfolds t (Tree.mk name lines parts).str ∧
    ¬ c!"\r\n\t" <:+: t

/-- A component as RFC 5545 has it, with any parameters: between `BEGIN` and `END`, which are no other lines, content lines and then components. -/
inductive Tree.Lawful : Tree → Prop
  | mk {n : Str} {ls : List Line} {ts : List Tree} : IsToken n → (∀ l ∈ ls, l.Ok ∧ ¬ l.Frame) → (∀ t ∈ ts, Tree.Lawful t) → Tree.Lawful (.mk n ls ts)

/-- The text is, unfolded, that of some component of RFC 5545. -/
def IsRfc (t : Str) : Prop := ∃ x : Tree, x.Lawful ∧ Unfolds t x.str

/-- The texts of an audio alarm can be written as RFC 5545 has them. -/
structure FineAudio (v : Audio) : Prop where
  action : FineText v.action
  attach : ∀ a ∈ v.attach, FineText a
  xProp : FineExt v.xProp
  ianaProp : FineExt v.ianaProp

/-- The texts of a display alarm can be written as RFC 5545 has them. -/
structure FineDisplay (v : Display) : Prop where
  action : FineText v.action
  description : FineText v.description
  xProp : FineExt v.xProp
  ianaProp : FineExt v.ianaProp

/-- The texts of an e-mail alarm can be written as RFC 5545 has them. -/
structure FineEmail (v : Email) : Prop where
  action : FineText v.action
  description : FineText v.description
  summary : FineText v.summary
  attendee : ∀ a ∈ v.attendee, FineUri a
  attach : ∀ a ∈ v.attach, FineText a
  xProp : FineExt v.xProp
  ianaProp : FineExt v.ianaProp

/-- The texts of an alarm can be written as RFC 5545 has them. -/
def FineVAlarm : VAlarm → Prop
  | .audio a => FineAudio a
  | .display a => FineDisplay a
  | .email a => FineEmail a

/-- The texts of an event can be written as RFC 5545 has them, and it has no alarms. -/
structure FineVEvent (v : VEvent) : Prop where
  uid : FineText v.uid
  class_ : ∀ a ∈ v.class_, FineClass a
  description : ∀ a ∈ v.description, FineText a
  location : ∀ a ∈ v.location, FineText a
  organizer : ∀ a ∈ v.organizer, FineUri a
  summary : ∀ a ∈ v.summary, FineText a
  url : ∀ a ∈ v.url, FineUri a
  attach : ∀ a ∈ v.attach, FineText a
  attendee : ∀ a ∈ v.attendee, FineUri a
  categories : ∀ a ∈ v.categories, FineText a
  comment : ∀ a ∈ v.comment, FineText a
  contact : ∀ a ∈ v.contact, FineText a
  rstatus : ∀ a ∈ v.rstatus, FineRequestStatus a
  relatedTo : ∀ a ∈ v.relatedTo, FineText a
  resources : ∀ a ∈ v.resources, FineText a
  alarms : v.alarms = []
  xProp : FineExt v.xProp
  ianaProp : FineExt v.ianaProp

/-- The texts of a free/busy component can be written as RFC 5545 has them. -/
structure FineVFreebusy (v : VFreebusy) : Prop where
  uid : FineText v.uid
  contact : ∀ a ∈ v.contact, FineText a
  organizer : ∀ a ∈ v.organizer, FineUri a
  url : ∀ a ∈ v.url, FineUri a
  attendee : ∀ a ∈ v.attendee, FineUri a
  comment : ∀ a ∈ v.comment, FineText a
  rstatus : ∀ a ∈ v.rstatus, FineRequestStatus a
  xProp : FineExt v.xProp
  ianaProp : FineExt v.ianaProp

/-- The texts of a journal entry can be written as RFC 5545 has them. -/
structure FineVJournal (v : VJournal) : Prop where
  uid : FineText v.uid
  class_ : ∀ a ∈ v.class_, FineClass a
  organizer : ∀ a ∈ v.organizer, FineUri a
  summary : ∀ a ∈ v.summary, FineText a
  url : ∀ a ∈ v.url, FineUri a
  attach : ∀ a ∈ v.attach, FineText a
  attendee : ∀ a ∈ v.attendee, FineUri a
  categories : ∀ a ∈ v.categories, FineText a
  comment : ∀ a ∈ v.comment, FineText a
  contact : ∀ a ∈ v.contact, FineText a
  description : ∀ a ∈ v.description, FineText a
  relatedTo : ∀ a ∈ v.relatedTo, FineText a
  rstatus : ∀ a ∈ v.rstatus, FineRequestStatus a
  xProp : FineExt v.xProp
  ianaProp : FineExt v.ianaProp

/-- The texts of the standard part of a time zone can be written as RFC 5545 has them. -/
structure FineStandard (v : Standard) : Prop where
  comment : ∀ a ∈ v.comment, FineText a
  tzname : ∀ a ∈ v.tzname, FineText a
  xProp : FineExt v.xProp
  ianaProp : FineExt v.ianaProp

/-- The texts of the daylight part of a time zone can be written as RFC 5545 has them. -/
structure FineDaylight (v : Daylight) : Prop where
  comment : ∀ a ∈ v.comment, FineText a
  tzname : ∀ a ∈ v.tzname, FineText a
  xProp : FineExt v.xProp
  ianaProp : FineExt v.ianaProp

/-- The texts of a time zone can be written as RFC 5545 has them, and it has not both parts and extension properties. -/
structure FineVTimezone (v : VTimezone) : Prop where
  tzid : FineText v.tzid
  tzurl : ∀ a ∈ v.tzurl, FineUri a
  standard : OneOrNone v.standard ∧ ∀ a ∈ v.standard, FineStandard a
  daylight : OneOrNone v.daylight ∧ ∀ a ∈ v.daylight, FineDaylight a
  order : v.standard = [] ∧ v.daylight = [] ∨ v.xProp = [] ∧ v.ianaProp = []
  xProp : FineExt v.xProp
  ianaProp : FineExt v.ianaProp

/-- The texts of a to-do can be written as RFC 5545 has them. -/
structure FineVTodo (v : VTodo) : Prop where
  uid : FineText v.uid
  class_ : ∀ a ∈ v.class_, FineClass a
  location : ∀ a ∈ v.location, FineText a
  organizer : ∀ a ∈ v.organizer, FineUri a
  summary : ∀ a ∈ v.summary, FineText a
  url : ∀ a ∈ v.url, FineUri a
  attach : ∀ a ∈ v.attach, FineText a
  attendee : ∀ a ∈ v.attendee, FineUri a
  categories : ∀ a ∈ v.categories, FineText a
  comment : ∀ a ∈ v.comment, FineText a
  contact : ∀ a ∈ v.contact, FineText a
  rstatus : ∀ a ∈ v.rstatus, FineRequestStatus a
  relatedTo : ∀ a ∈ v.relatedTo, FineText a
  resources : ∀ a ∈ v.resources, FineText a
  xProp : FineExt v.xProp
  ianaProp : FineExt v.ianaProp

/-- The texts of a calendar can be written as RFC 5545 has them; it has no alarms of its own, at most one component of each kind, and not both components and
extension properties. -/
structure FineVCalendar (v : VCalendar) : Prop where
  prodid : FineText v.prodid
  version : FineText v.version
  calscale : ∀ a ∈ v.calscale, FineText a
  method : ∀ a ∈ v.method, FineText a
  alarms : v.alarms = []
  events : OneOrNone v.events ∧ ∀ a ∈ v.events, FineVEvent a
  freebusy : OneOrNone v.freebusy ∧ ∀ a ∈ v.freebusy, FineVFreebusy a
  journals : OneOrNone v.journals ∧ ∀ a ∈ v.journals, FineVJournal a
  todo : OneOrNone v.todo ∧ ∀ a ∈ v.todo, FineVTodo a
  timezones : OneOrNone v.timezones ∧ ∀ a ∈ v.timezones, FineVTimezone a
  order : v.events = [] ∧ v.freebusy = [] ∧ v.journals = [] ∧ v.todo = [] ∧ v.timezones = [] ∨ v.xProp = [] ∧ v.ianaProp = []
  xProp : FineExt v.xProp
  ianaProp : FineExt v.ianaProp

/-- What a time zone must be like to be written as RFC 5545 has it, whatever its texts: at most one part of each kind, and not parts as well as extension
properties. -/
structure ShapeVTimezone (v : VTimezone) : Prop where
  standard : OneOrNone v.standard
  daylight : OneOrNone v.daylight
  order : v.standard = [] ∧ v.daylight = [] ∨ v.xProp = [] ∧ v.ianaProp = []

/-- What a calendar must be like to be written as RFC 5545 has it, whatever its texts: no alarms, at most one component of each kind, which must be so as
well, and not components as well as extension properties. -/
structure ShapeVCalendar (v : VCalendar) : Prop where
  alarms : v.alarms = []
  events : OneOrNone v.events ∧ ∀ e ∈ v.events, e.alarms = []
  freebusy : OneOrNone v.freebusy
  journals : OneOrNone v.journals
  todo : OneOrNone v.todo
  timezones : OneOrNone v.timezones ∧ ∀ z ∈ v.timezones, ShapeVTimezone z
  order : v.events = [] ∧ v.freebusy = [] ∧ v.journals = [] ∧ v.todo = [] ∧ v.timezones = [] ∨ v.xProp = [] ∧ v.ianaProp = []

end Ikal.Spec.Abnf
