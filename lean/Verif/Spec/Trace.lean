import Verif.Trace
import Verif.Spec.Failing

/-!
# Specification: where a parser error says reading stopped

Nothing here refers to a function that reads.
-/

namespace Ikal.Spec.Full

/-- The names of nom's kinds of errors (`nom::error::ErrorKind`). -/
inductive KindName : NomKind → String → Prop
  | tag : KindName .tag "Tag" | mapRes : KindName .mapRes "MapRes" | alt : KindName .alt "Alt" | many0 : KindName .many0 "Many0"
  | many1 : KindName .many1 "Many1" | count : KindName .count "Count" | not : KindName .not "Not" | crLf : KindName .crLf "CrLf"
  | eof : KindName .eof "Eof" | digit : KindName .digit "Digit" | float : KindName .float "Float" | fail : KindName .fail "Fail"

variable [Platform]

/-- The parts of a component that has none. -/
def NoParts (_ : Str) (_ : Unit) (_ : Str) : Prop := False

/-- Reading a component of the (unfolded) text `u` does not succeed: the innermost entry of the error, that is where reading stopped and what
it missed.

* The text does not begin with the opening line: the whole text, and the opening line (`Tag`) is missing.
* It does, and after property lines and parts, as far as they can be read, there is something else than the closing line: what follows the
  last of them, where the closing line (`Tag`) is missing.
* It is closed: then the fault is in the values of the properties, and the entry says no more than that (`MapRes`), with the whole text. -/
inductive Stops {α : Type} (opening closing : Str) (PartText : Str → α → Str → Prop) (u : Str) : Str × TraceKind → Prop
  | unopened : ¬ opening <+: u → Stops opening closing PartText u (u, .nom .tag)
  | unclosed {body r1 r : Str} {ls : List ContentLine} {parts : List α} : u = opening ++ body → LinesText body ls r1 →
      SeqText PartText r1 parts r → (∀ v r', ¬ PartText r v r') → ¬ closing <+: r →
      Stops opening closing PartText u (r, .nom .tag)
  | unconverted {body r1 r : Str} {ls : List ContentLine} {parts : List α} : u = opening ++ body → LinesText body ls r1 →
      SeqText PartText r1 parts (closing ++ r) → Stops opening closing PartText u (u, .nom .mapRes)

/-- The entries of a failed reading of an alarm. -/
def AlarmStops (u : Str) (t : Trace) : Prop := ∃ e, Stops c!"BEGIN:VALARM\r\n" c!"END:VALARM\r\n" NoParts u e ∧ t = [e]
/-- The entries of a failed reading of a to-do. -/
def TodoStops (u : Str) (t : Trace) : Prop := ∃ e, Stops c!"BEGIN:VTODO\r\n" c!"END:VTODO\r\n" NoParts u e ∧ t = [e]
/-- The entries of a failed reading of a journal entry. -/
def JournalStops (u : Str) (t : Trace) : Prop := ∃ e, Stops c!"BEGIN:VJOURNAL\r\n" c!"END:VJOURNAL\r\n" NoParts u e ∧ t = [e]
/-- The entries of a failed reading of a free/busy component. -/
def FreebusyStops (u : Str) (t : Trace) : Prop := ∃ e, Stops c!"BEGIN:VFREEBUSY\r\n" c!"END:VFREEBUSY\r\n" NoParts u e ∧ t = [e]
/-- The entries of a failed reading of the standard part of a time zone. -/
def StandardStops (u : Str) (t : Trace) : Prop := ∃ e, Stops c!"BEGIN:STANDARD\r\n" c!"END:STANDARD\r\n" NoParts u e ∧ t = [e]
/-- The entries of a failed reading of the daylight part of a time zone. -/
def DaylightStops (u : Str) (t : Trace) : Prop := ∃ e, Stops c!"BEGIN:DAYLIGHT\r\n" c!"END:DAYLIGHT\r\n" NoParts u e ∧ t = [e]
/-- The entries of a failed reading of an event: the last one names it. -/
def EventStops (u : Str) (t : Trace) : Prop :=
  ∃ e, Stops c!"BEGIN:VEVENT\r\n" c!"END:VEVENT\r\n" AlarmText u e ∧ t = [e, (u, .context c!"vevent")]
/-- The entries of a failed reading of a time zone: the last one names it. -/
def TimezoneStops (u : Str) (t : Trace) : Prop :=
  ∃ e, Stops c!"BEGIN:VTIMEZONE\r\n" c!"END:VTIMEZONE\r\n" TzPartText u e ∧ t = [e, (u, .context c!"vtimezone")]
/-- The entries of a failed reading of a calendar: the last one names it. -/
def CalendarStops (u : Str) (t : Trace) : Prop :=
  ∃ e, Stops c!"BEGIN:VCALENDAR\r\n" c!"END:VCALENDAR" ComponentText u e ∧ t = [e, (u, .context c!"vcalendar")]

end Ikal.Spec.Full
