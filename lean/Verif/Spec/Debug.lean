import Verif.Debug
import Verif.Spec.Sound
import Verif.Spec.Output
import Verif.Spec.Float
import Verif.Props.Fate

/-!
# Specification: what `Debug` shows
-/

namespace Ikal.Spec

/-! ## The form of the texts -/

/-- `Name { label: text, label: text }`. -/
def structText (name : Str) (fields : List (Str × Str)) : Str := name ++ c!" { " ++ joinWith c!", " (fields.map fun f => f.1 ++ c!": " ++ f.2) ++ c!" }"

/-- `Name(text)`. -/
def tupleText (name text : Str) : Str := name ++ c!"(" ++ text ++ c!")"

/-- `[text, text]`. -/
def listText (texts : List Str) : Str := c!"[" ++ joinWith c!", " texts ++ c!"]"

/-- `{key: text, key: text}`. -/
def mapText (entries : List (Str × Str)) : Str := c!"{" ++ joinWith c!", " (entries.map fun f => f.1 ++ c!": " ++ f.2) ++ c!"}"

/-- The same lines with four blanks in front of each. -/
def Indented (s t : Str) : Prop :=
  ∃ ls : List Str, (∀ l ∈ ls, '\n' ∉ l) ∧ s = (ls.map fun l => l ++ c!"\n").flatten ∧ t = (ls.map fun l => c!"    " ++ l ++ c!"\n").flatten

/-- `Name {`, each field `label: text,` on lines of its own, `}`. -/
def StructLines (name : Str) (fields : List (Str × Str)) (s : Str) : Prop :=
  ∃ b, Indented (fields.map fun f => f.1 ++ c!": " ++ f.2 ++ c!",\n").flatten b ∧ s = name ++ c!" {\n" ++ b ++ c!"}"

/-- `Name(`, `text,` on lines of its own, `)`. -/
def TupleLines (name text s : Str) : Prop := ∃ b, Indented (text ++ c!",\n") b ∧ s = name ++ c!"(\n" ++ b ++ c!")"

/-- `[`, each `text,` on lines of its own, `]`; `[]` if there are none. -/
def ListLines (texts : List Str) (s : Str) : Prop :=
  texts = [] ∧ s = c!"[]" ∨ texts ≠ [] ∧ ∃ b, Indented (texts.map fun t => t ++ c!",\n").flatten b ∧ s = c!"[\n" ++ b ++ c!"]"

/-- `{`, each entry `key: text,` on lines of its own, `}`; `{}` if there are none. -/
def MapLines (entries : List (Str × Str)) (s : Str) : Prop :=
  entries = [] ∧ s = c!"{}" ∨ entries ≠ [] ∧ ∃ b, Indented (entries.map fun f => f.1 ++ c!": " ++ f.2 ++ c!",\n").flatten b ∧ s = c!"{\n" ++ b ++ c!"}"

/-! ## Dates and times (chrono) -/

/-- `year-month-day`. -/
def DebugDate (s : Str) (d : NaiveDate) : Prop :=
  ∃ y m a, s = y ++ c!"-" ++ m ++ c!"-" ++ a ∧ YearText y d.year ∧ FixedText 2 m d.month ∧ FixedText 2 a d.day

/-- A point and three, six or nine digits, as few as possible; nothing for none. -/
def DebugFraction (s : Str) (nanos : Nat) : Prop :=
  nanos = 0 ∧ s = [] ∨
  nanos ≠ 0 ∧ ∃ k t, s = '.' :: t ∧ FixedText k t (nanos / 10 ^ (9 - k)) ∧
    (k = 3 ∧ 1000000 ∣ nanos ∨ k = 6 ∧ 1000 ∣ nanos ∧ ¬ 1000000 ∣ nanos ∨ k = 9 ∧ ¬ 1000 ∣ nanos)

/-- `dateThours:minutes:seconds` and the fraction; a leap second is second 60. -/
def DebugTime (s : Str) (t : NaiveDateTime) : Prop :=
  ∃ d h m x f, s = d ++ c!"T" ++ h ++ c!":" ++ m ++ c!":" ++ x ++ f ∧ DebugDate d t.date ∧ FixedText 2 h (t.secs / 3600) ∧
    FixedText 2 m (t.secs % 3600 / 60) ∧
    (t.frac < 1000000000 ∧ FixedText 2 x (t.secs % 60) ∨ 1000000000 ≤ t.frac ∧ FixedText 2 x (t.secs % 60 + 1)) ∧
    DebugFraction f (t.frac % 1000000000)

/-- A sign, `hours:minutes` and, if there are, `:seconds`. -/
def DebugOffset (s : Str) (o : Int) : Prop :=
  ∃ sign h m x, s = sign :: (h ++ c!":" ++ m ++ x) ∧ (o < 0 ∧ sign = '-' ∨ 0 ≤ o ∧ sign = '+') ∧
    FixedText 2 h (o.natAbs / 3600) ∧ FixedText 2 m (o.natAbs % 3600 / 60) ∧
    (o.natAbs % 60 = 0 ∧ x = [] ∨ o.natAbs % 60 ≠ 0 ∧ ∃ t, x = ':' :: t ∧ FixedText 2 t (o.natAbs % 60))

/-! ## Floats -/

/-- `c·10^e` in scientific notation: one digit, a point and the others, if there are others, `e` and the exponent. -/
def ScientificText (t : Str) (c : Nat) (e : Int) : Prop :=
  ∃ d ds x, NumberText (d :: ds) c ∧ SignedText x (e + ds.length) ∧ t = d :: ((if ds = [] then [] else '.' :: ds) ++ c!"e" ++ x)

/-- The number with the bits `b` is at least `1e16` or less than `1e-4`. -/
def Extreme (b : Nat) : Prop := (∃ n, RoundsTo 1 16 n ∧ units n ≤ units b) ∨ ∃ n, RoundsTo 1 (-4) n ∧ units b < units n

/-! ## What can be told from them -/

/-- The instants of the date-times of a value that are in local time. -/
class HasTimes (α : Type) where
  localTimes : α → List NaiveDateTime
export HasTimes (localTimes)

section
variable {α : Type} [HasTimes α]
instance : HasTimes (Option α) := ⟨fun o => match o with | none => [] | some a => localTimes a⟩
instance : HasTimes (List α) := ⟨fun l => l.flatMap localTimes⟩
end

instance : HasTimes DateTime := ⟨fun | .naive _ => [] | .loc u => [u]⟩
instance : HasTimes Date := ⟨fun | .date _ => [] | .dateTime t => localTimes t⟩
instance : HasTimes Period := ⟨fun | .startEnd a b => localTimes a ++ localTimes b | .startDur a _ => localTimes a⟩
instance : HasTimes RDate := ⟨fun | .date l => localTimes l | .period l => localTimes l⟩
instance : HasTimes Trigger := ⟨fun | .dateTime t => localTimes t | .duration _ => []⟩
instance : HasTimes Recur := ⟨fun r => localTimes r.until_⟩

section
variable [Platform]
instance : HasTimes Audio := ⟨fun v => localTimes v.trigger⟩
instance : HasTimes Display := ⟨fun v => localTimes v.trigger⟩
instance : HasTimes Email := ⟨fun v => localTimes v.trigger⟩
instance : HasTimes VAlarm := ⟨fun | .audio a => localTimes a | .display a => localTimes a | .email a => localTimes a⟩
instance : HasTimes VEvent := ⟨fun v => localTimes v.dtstamp ++ (localTimes v.dtstart ++ (localTimes v.created ++ (localTimes v.lastModified ++ (localTimes v.recurid ++ (localTimes v.rrule ++ (localTimes v.dtend ++ (localTimes v.exdate ++ (localTimes v.rdate ++ (localTimes v.alarms)))))))))⟩
instance : HasTimes VFreebusy := ⟨fun v => localTimes v.dtstamp ++ (localTimes v.dtstart ++ (localTimes v.dtend ++ (localTimes v.freebusy)))⟩
instance : HasTimes VJournal := ⟨fun v => localTimes v.dtstamp ++ (localTimes v.created ++ (localTimes v.dtstart ++ (localTimes v.lastModified ++ (localTimes v.recurid ++ (localTimes v.rrule ++ (localTimes v.exdate ++ (localTimes v.rdate)))))))⟩
instance : HasTimes Standard := ⟨fun v => localTimes v.dtstart ++ (localTimes v.rrule ++ (localTimes v.rdate))⟩
instance : HasTimes Daylight := ⟨fun v => localTimes v.dtstart ++ (localTimes v.rrule ++ (localTimes v.rdate))⟩
instance : HasTimes VTimezone := ⟨fun v => localTimes v.lastModified ++ (localTimes v.standard ++ (localTimes v.daylight))⟩
instance : HasTimes VTodo := ⟨fun v => localTimes v.dtstamp ++ (localTimes v.completed ++ (localTimes v.created ++ (localTimes v.dtstart ++ (localTimes v.lastModified ++ (localTimes v.recurid ++ (localTimes v.rrule ++ (localTimes v.due ++ (localTimes v.exdate ++ (localTimes v.rdate)))))))))⟩
instance : HasTimes VCalendar := ⟨fun v => localTimes v.alarms ++ (localTimes v.events ++ (localTimes v.freebusy ++ (localTimes v.journals ++ (localTimes v.todo ++ (localTimes v.timezones)))))⟩

/-- No leap second in local time where the clocks differ from UTC by other than whole minutes (`Debug` of such a time is that of the next second). -/
def ClearClock {α : Type} [HasTimes α] (x : α) : Prop := ∀ u ∈ localTimes x, u.frac = 0 ∨ Platform.tzOffset u.toSecs % 60 = 0

/-- `Debug` of floats: a text of letters, digits, signs and points which tells the float. -/
class LawfulFloatDebug [FloatDebug] : Prop where
  text : ∀ x : Platform.F32, FloatDebug.text x ≠ [] ∧ ∀ c ∈ FloatDebug.text x, c.isAlphanum = true ∨ c = '-' ∨ c = '+' ∨ c = '.'
  inj : ∀ x y : Platform.F32, FloatDebug.text x = FloatDebug.text y → x = y

end

end Ikal.Spec
