import Verif.Spec.Components
import Verif.Spec.Line

/-!
# Specification: which texts are which components

Each predicate `XText i v r` says: the (unfolded) text `i` begins with the component `v`, and `r` follows it.
Names, delimiters and line breaks are those of RFC 5545, section 3.6, as ikal reads them.
-/

namespace Ikal.Spec

variable [Platform]

/-- The text `i` begins with a component `name` made of the property lines `ls` only; `r` follows. -/
def LeafText (name i : Str) (ls : List ContentLine) (r : Str) : Prop :=
  ∃ body, i = c!"BEGIN:" ++ name ++ c!"\r\n" ++ body ∧ LinesText body ls (c!"END:" ++ name ++ c!"\r\n" ++ r)

/-- The text `i` begins with things `T` following each other; `r` follows. -/
inductive SeqText {α : Type} (T : Str → α → Str → Prop) : Str → List α → Str → Prop
  | nil {i : Str} : SeqText T i [] i
  | cons {i r r' : Str} {a : α} {as : List α} : T i a r → SeqText T r as r' → SeqText T i (a :: as) r'

/-- The kind of an alarm is the value of its first `ACTION` line. -/
def firstAction (ls : List ContentLine) : Option Str := (named c!"ACTION" ls).head?.map (·.value)

/-- What an alarm parsed from the lines `ls` holds. -/
def VAlarmFrom (ls : List ContentLine) : VAlarm → Prop
  | .audio a => firstAction ls = some c!"AUDIO" ∧ AudioFrom ls a
  | .display a => firstAction ls = some c!"DISPLAY" ∧ DisplayFrom ls a
  | .email a => firstAction ls = some c!"EMAIL" ∧ EmailFrom ls a

/-- An alarm. -/
def AlarmText (i : Str) (v : VAlarm) (r : Str) : Prop := ∃ ls, LeafText c!"VALARM" i ls r ∧ VAlarmFrom ls v

/-- A to-do. -/
def TodoText (i : Str) (v : VTodo) (r : Str) : Prop := ∃ ls, LeafText c!"VTODO" i ls r ∧ VTodoFrom ls v

/-- A journal entry. -/
def JournalText (i : Str) (v : VJournal) (r : Str) : Prop := ∃ ls, LeafText c!"VJOURNAL" i ls r ∧ VJournalFrom ls v

/-- A free/busy component. -/
def FreebusyText (i : Str) (v : VFreebusy) (r : Str) : Prop := ∃ ls, LeafText c!"VFREEBUSY" i ls r ∧ VFreebusyFrom ls v

/-- The standard part of a time zone. -/
def StandardText (i : Str) (v : Standard) (r : Str) : Prop := ∃ ls, LeafText c!"STANDARD" i ls r ∧ StandardFrom ls v

/-- The daylight part of a time zone. -/
def DaylightText (i : Str) (v : Daylight) (r : Str) : Prop := ∃ ls, LeafText c!"DAYLIGHT" i ls r ∧ DaylightFrom ls v

/-- An event: property lines, then alarms. -/
def EventText (i : Str) (v : VEvent) (r : Str) : Prop :=
  ∃ body ls r1, i = c!"BEGIN:VEVENT\r\n" ++ body ∧ LinesText body ls r1 ∧
    SeqText AlarmText r1 v.alarms (c!"END:VEVENT\r\n" ++ r) ∧
    VEventFrom ls { v with alarms := [] }

/-- A part of a time zone. -/
def TzPartText (i : Str) (v : TzPart) (r : Str) : Prop :=
  match v with
  | .standard s => StandardText i s r
  | .daylight d => DaylightText i d r

/-- The standard parts among the parts of a time zone. -/
def standardParts (ps : List TzPart) : List Standard := ps.filterMap fun | .standard s => some s | _ => none
/-- The daylight parts among the parts of a time zone. -/
def daylightParts (ps : List TzPart) : List Daylight := ps.filterMap fun | .daylight s => some s | _ => none

/-- A time zone: property lines, then parts, each filed under its kind in the order of the text. -/
def TimezoneText (i : Str) (v : VTimezone) (r : Str) : Prop :=
  ∃ body ls r1 parts, i = c!"BEGIN:VTIMEZONE\r\n" ++ body ∧ LinesText body ls r1 ∧
    SeqText TzPartText r1 parts (c!"END:VTIMEZONE\r\n" ++ r) ∧
    VTimezoneFrom ls { v with standard := [], daylight := [] } ∧
    v.standard = standardParts parts ∧ v.daylight = daylightParts parts

/-- A component of a calendar. -/
def ComponentText (i : Str) (v : Component) (r : Str) : Prop :=
  match v with
  | .alarm c => AlarmText i c r
  | .event c => EventText i c r
  | .freebusy c => FreebusyText i c r
  | .journal c => JournalText i c r
  | .timezone c => TimezoneText i c r
  | .todo c => TodoText i c r

/-- The alarms among the components of a calendar. -/
def alarmsOf (cs : List Component) : List VAlarm := cs.filterMap fun | .alarm c => some c | _ => none
/-- The events among the components of a calendar. -/
def eventsOf (cs : List Component) : List VEvent := cs.filterMap fun | .event c => some c | _ => none
/-- The free/busy components among the components of a calendar. -/
def freebusyOf (cs : List Component) : List VFreebusy := cs.filterMap fun | .freebusy c => some c | _ => none
/-- The journal entries among the components of a calendar. -/
def journalsOf (cs : List Component) : List VJournal := cs.filterMap fun | .journal c => some c | _ => none
/-- The time zones among the components of a calendar. -/
def timezonesOf (cs : List Component) : List VTimezone := cs.filterMap fun | .timezone c => some c | _ => none
/-- The to-dos among the components of a calendar. -/
def todosOf (cs : List Component) : List VTodo := cs.filterMap fun | .todo c => some c | _ => none

/-- The sub-components of the calendar are `cs`, each filed under its kind in the order of the text. -/
def Filed (cs : List Component) (v : VCalendar) : Prop :=
  v.alarms = alarmsOf cs ∧ v.events = eventsOf cs ∧ v.freebusy = freebusyOf cs ∧ v.journals = journalsOf cs ∧
  v.todo = todosOf cs ∧ v.timezones = timezonesOf cs

/-- A calendar: property lines, then components. -/
def CalendarText (i : Str) (v : VCalendar) (cs : List Component) (r : Str) : Prop :=
  ∃ body ls r1, i = c!"BEGIN:VCALENDAR\r\n" ++ body ∧ LinesText body ls r1 ∧
    SeqText ComponentText r1 cs (c!"END:VCALENDAR" ++ r) ∧
    VCalendarFrom ls { v with alarms := [], events := [], freebusy := [], journals := [], todo := [], timezones := [] } ∧
    Filed cs v

end Ikal.Spec
