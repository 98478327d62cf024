import Verif.Spec.Reading

/-!
# Specification: RFC 5545 texts

The grammar of [RFC 5545 3.1](https://datatracker.ietf.org/doc/html/rfc5545#section-3.1) and the frames of its section 3.6, written down from the RFC and not
from the crate: content lines as syntax trees with their texts, components as trees of content lines, and unfolding.
-/

namespace Ikal.Spec.Abnf

/-- `CONTROL = %x00-08 / %x0A-1F / %x7F`. -/
def Control (c : Char) : Prop := c.toNat ≤ 8 ∨ 10 ≤ c.toNat ∧ c.toNat ≤ 31 ∨ c.toNat = 127

/-- `ALPHA / DIGIT / "-"`. -/
def TokenChar (c : Char) : Prop := 'A' ≤ c ∧ c ≤ 'Z' ∨ 'a' ≤ c ∧ c ≤ 'z' ∨ '0' ≤ c ∧ c ≤ '9' ∨ c = '-'

/-- `iana-token = 1*(ALPHA / DIGIT / "-")`; every `x-name` is one as well. -/
def IsToken (s : Str) : Prop := s ≠ [] ∧ ∀ c ∈ s, TokenChar c

/-- `QSAFE-CHAR`: any character except `CONTROL` and `DQUOTE`. -/
def QSafeChar (c : Char) : Prop := ¬ Control c ∧ c ≠ '"'

/-- `SAFE-CHAR`: any character except `CONTROL`, `DQUOTE`, `";"`, `":"`, `","`. -/
def SafeChar (c : Char) : Prop := ¬ Control c ∧ c ≠ '"' ∧ c ≠ ';' ∧ c ≠ ':' ∧ c ≠ ','

/-- `param-value = paramtext / quoted-string`. -/
inductive ParamValue where
  | text (s : Str)
  | quoted (s : Str)

/-- `paramtext = *SAFE-CHAR`, `quoted-string = DQUOTE *QSAFE-CHAR DQUOTE`. -/
def ParamValue.Ok : ParamValue → Prop
  | .text s => ∀ c ∈ s, SafeChar c
  | .quoted s => ∀ c ∈ s, QSafeChar c

/-- The text of a parameter value. -/
def ParamValue.str : ParamValue → Str
  | .text s => s
  | .quoted s => c!"\"" ++ s ++ c!"\""

/-- `param = param-name "=" param-value *("," param-value)`. -/
structure Param where
  name : Str
  first : ParamValue
  more : List ParamValue

def Param.Ok (p : Param) : Prop := IsToken p.name ∧ p.first.Ok ∧ ∀ v ∈ p.more, v.Ok

/-- The text of the values of a parameter. -/
def Param.raw (p : Param) : Str := p.first.str ++ (p.more.map fun v => c!"," ++ v.str).flatten

/-- The text of a parameter with the semicolon before it. -/
def Param.str (p : Param) : Str := c!";" ++ p.name ++ c!"=" ++ p.raw

/-- What a parameter says, as one text: of a single quoted string the text inside the quotes, of a single text the text, of several values the list. -/
def Param.meaning (p : Param) : Str :=
  match p.first, p.more with
  | .quoted s, [] => s
  | _, _ => p.raw

/-- `contentline = name *(";" param) ":" value CRLF`. -/
structure Line where
  name : Str
  params : List Param
  value : Str

/-- `VALUE-CHAR` is any character except `CONTROL`. -/
def Line.Ok (l : Line) : Prop := IsToken l.name ∧ (∀ p ∈ l.params, p.Ok) ∧ ∀ c ∈ l.value, ¬ Control c

/-- The text of a line. -/
def Line.str (l : Line) : Str := l.name ++ (l.params.map Param.str).flatten ++ c!":" ++ l.value ++ c!"\r\n"

/-- The lines of frames: `BEGIN:` and `END:`. -/
def Line.Frame (l : Line) : Prop := l.params = [] ∧ (l.name = c!"BEGIN" ∨ l.name = c!"END")

/-- Which parameters ikal understands: one quoted string; or values of which the first is not quoted, and the quoted strings among the others
contain neither `;` nor `:`. -/
def Param.Understood (p : Param) : Prop :=
  match p.first, p.more with
  | .quoted _, [] => True
  | .quoted _, _ :: _ => False
  | .text _, more => ∀ s, .quoted s ∈ more → ';' ∉ s ∧ ':' ∉ s

/-- The parameter of a name that counts: the last one. -/
def meaningOf (ps : List Param) (k : Str) : Option Str := ((ps.filter fun p => p.name = k).getLast?).map Param.meaning

/-- What the line is read as: its name, its value, and for each name of a parameter what it says. -/
def Means (l : Line) (c : ContentLine) : Prop := c.key = l.name ∧ c.value = l.value ∧ c.params.Wf ∧ ∀ k, c.params.get? k = meaningOf l.params k

/-- Two lists of the same length whose members are related. -/
inductive Pairs {α : Type u} {β : Type v} (R : α → β → Prop) : List α → List β → Prop
  | nil : Pairs R [] []
  | cons {a : α} {b : β} {as : List α} {bs : List β} : R a b → Pairs R as bs → Pairs R (a :: as) (b :: bs)

/-! ## Folding -/

/-- RFC 5545 3.1: "Any sequence of CRLF followed immediately by a single linear white-space character is ignored (i.e., removed)". -/
inductive Unfolds : Str → Str → Prop
  | nil : Unfolds [] []
  | fold {w : Char} {r u : Str} : w = ' ' ∨ w = '\t' → Unfolds r u → Unfolds ('\r' :: '\n' :: w :: r) u
  | keep {c : Char} {r u : Str} : ¬ ['\r', '\n', ' '] <+: c :: r → ¬ ['\r', '\n', '\t'] <+: c :: r → Unfolds r u → Unfolds (c :: r) (c :: u)

/-! ## Components -/

/-- A component: `"BEGIN:" name CRLF *contentline *component "END:" name CRLF`. -/
inductive Tree where
  | mk (name : Str) (lines : List Line) (parts : List Tree)

mutual
/-- The text of a component. -/
def Tree.str : Tree → Str
  | .mk n ls ts => c!"BEGIN:" ++ n ++ c!"\r\n" ++ (ls.map Line.str).flatten ++ Tree.strs ts ++ c!"END:" ++ n ++ c!"\r\n"
/-- The text of components. -/
def Tree.strs : List Tree → Str
  | [] => []
  | t :: ts => t.str ++ Tree.strs ts
end

/-- Lines of the RFC other than those of frames, with parameters that ikal understands. -/
def GoodLine (l : Line) : Prop := l.Ok ∧ ¬ l.Frame ∧ ∀ p ∈ l.params, p.Understood

/-- Such lines everywhere in a component. -/
inductive Tree.Good : Tree → Prop
  | mk {n : Str} {ls : List Line} {ts : List Tree} : IsToken n → (∀ l ∈ ls, GoodLine l) → (∀ t ∈ ts, Tree.Good t) → Tree.Good (.mk n ls ts)

/-- A line with several values of a parameter of which the first is quoted, after parameters that are understood; as in
`ATTENDEE;MEMBER="mailto:a@example.org","mailto:b@example.org":mailto:c@example.org`. -/
def BadLine (l : Line) : Prop :=
  l.Ok ∧ ¬ l.Frame ∧ ∃ pre p post s, l.params = pre ++ p :: post ∧ (∀ q ∈ pre, q.Understood) ∧ p.first = .quoted s ∧ p.more ≠ []

/-- Such a line somewhere in a component, and only good lines before it. -/
inductive Tree.Spoilt : Tree → Prop
  | line {n : Str} {pre post : List Line} {l : Line} {ts : List Tree} : IsToken n → (∀ x ∈ pre, GoodLine x) → BadLine l → Tree.Spoilt (.mk n (pre ++ l :: post) ts)
  | part {n : Str} {ls : List Line} {pre post : List Tree} {t : Tree} : IsToken n → (∀ l ∈ ls, GoodLine l) → (∀ x ∈ pre, Tree.Good x) → Tree.Spoilt t →
      Tree.Spoilt (.mk n ls (pre ++ t :: post))

section
variable [Platform]
/-- A component with no parts, whose lines say `c`. -/
def IsLeaf {α : Type} (name : Str) (From : List ContentLine → α → Prop) (t : Tree) (v : α) : Prop :=
  ∃ lines ls, t = .mk name lines [] ∧ Pairs Means lines ls ∧ From ls v

/-- An event: its lines and its alarms. -/
def IsEvent (t : Tree) (v : VEvent) : Prop :=
  ∃ lines ls parts, t = .mk c!"VEVENT" lines parts ∧ Pairs Means lines ls ∧ Full.VEventFrom ls { v with alarms := [] } ∧
    Pairs (IsLeaf c!"VALARM" Full.VAlarmFrom) parts v.alarms

/-- A part of a time zone. -/
def IsTzPart (t : Tree) (v : TzPart) : Prop :=
  match v with
  | .standard s => IsLeaf c!"STANDARD" Full.StandardFrom t s
  | .daylight d => IsLeaf c!"DAYLIGHT" Full.DaylightFrom t d

/-- A time zone: its lines and its parts. -/
def IsTimezone (t : Tree) (v : VTimezone) : Prop :=
  ∃ lines ls parts ps, t = .mk c!"VTIMEZONE" lines parts ∧ Pairs Means lines ls ∧ Full.VTimezoneFrom ls { v with standard := [], daylight := [] } ∧
    Pairs IsTzPart parts ps ∧ v.standard = standardParts ps ∧ v.daylight = daylightParts ps

/-- A component of a calendar: to-dos, journal entries, free/busy times and alarms have no parts. -/
def IsComponent (t : Tree) (v : Component) : Prop :=
  match v with
  | .alarm c => IsLeaf c!"VALARM" Full.VAlarmFrom t c
  | .event c => IsEvent t c
  | .freebusy c => IsLeaf c!"VFREEBUSY" Full.VFreebusyFrom t c
  | .journal c => IsLeaf c!"VJOURNAL" Full.VJournalFrom t c
  | .timezone c => IsTimezone t c
  | .todo c => IsLeaf c!"VTODO" Full.VTodoFrom t c

/-- A calendar: its lines and its components. -/
def IsCalendar (t : Tree) (v : VCalendar) : Prop :=
  ∃ lines ls parts cs, t = .mk c!"VCALENDAR" lines parts ∧ Pairs Means lines ls ∧
    Full.VCalendarFrom ls { v with alarms := [], events := [], freebusy := [], journals := [], todo := [], timezones := [] } ∧
    Pairs IsComponent parts cs ∧ Filed cs v

end

end Ikal.Spec.Abnf
