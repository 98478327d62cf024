import Verif.Spec.Reading

/-!
# Specification: when reading fails, and how

Reading a text either gives a component (`Verif/Spec/Reading.lean`), or panics, or returns an error.  This says when it panics; in all
other cases in which no component is read, an error is returned.  Nothing here refers to a function that reads.
-/

namespace Ikal.Spec.Full

variable [Platform]

/-! ## Values -/

/-- No value of this property makes reading panic. -/
def Never (_ : ContentLine) : Prop := False

/-- The text begins with a well-written duration of more seconds than a duration can have. -/
def TooLong (s : Str) : Prop := ∃ f r, DurationFields.Ok f ∧ s = f.text ++ r ∧ 9223372036854775 < f.seconds

/-- A duration that is too long. -/
def DurationPanics (l : ContentLine) : Prop := TooLong l.value

/-- A period that is only a date-time, or a date-time and a duration that is too long. -/
def BadPeriod (s : Str) : Prop :=
  ('/' ∉ s ∧ ∃ t, DateTimeValue s t) ∨
  ∃ a b t, s = a ++ '/' :: b ∧ '/' ∉ a ∧ DateTimeValue a t ∧ b.head? = some 'P' ∧ TooLong b

/-- Periods separated by commas: one of them is bad, and those before it are well written. -/
def PeriodsPanic (l : ContentLine) : Prop :=
  ∃ a s b, CommaPieces l.value (a ++ s :: b) ∧ (∀ y ∈ a, ∃ p, PeriodText y p) ∧ BadPeriod s

/-- Recurrence dates, declared as periods. -/
def RDatePanics (l : ContentLine) : Prop := SMap.get? l.params c!"VALUE" = some c!"PERIOD" ∧ PeriodsPanic l

/-- A recurrence rule with some item, but without `FREQ`. -/
def RulePanics (l : ContentLine) : Prop := ∃ items, items ≠ [] ∧ RuleText l.value items ∧ ∀ v, (c!"FREQ", v) ∉ items

/-! ## Properties -/

/-- A property: its name, is it required, which lines are readable and which make reading panic. -/
structure Property where
  name : Str
  required : Prop
  Readable : ContentLine → Prop
  Panics : ContentLine → Prop

/-- A required property, which is read from its last line. -/
def required {α : Type} (name : Str) (R : ContentLine → α → Prop) (panics : ContentLine → Prop) : Property :=
  ⟨name, True, fun l => ∃ a, R l a, panics⟩

/-- An optional or repeatable property, of which each line is read. -/
def other {α : Type} (name : Str) (R : ContentLine → α → Prop) (panics : ContentLine → Prop) : Property :=
  ⟨name, False, fun l => ∃ a, R l a, panics⟩

/-- The required property `p` is there and can be read. -/
def Property.Given (p : Property) (ls : List ContentLine) : Prop := ∃ l, lastNamed p.name ls = some l ∧ p.Readable l

/-- The line is not one of an optional or repeatable property, or it can be read. -/
def LineFine (props : List Property) (l : ContentLine) : Prop := ∀ p ∈ props, ¬ p.required → l.key = p.name → p.Readable l

/-- Reading the lines `ls` of a component with the given properties panics: either at the first required property (in the order of
declaration) that is not given, or, all required ones being given, at the first line (in the order of the text) that is not fine. -/
def LinesPanic (props : List Property) (ls : List ContentLine) : Prop :=
  (∃ before p after l, props = before ++ p :: after ∧ (∀ q ∈ before, q.required → q.Given ls) ∧
    p.required ∧ lastNamed p.name ls = some l ∧ p.Panics l) ∨
  ((∀ q ∈ props, q.required → q.Given ls) ∧
    ∃ before l after p, ls = before ++ l :: after ∧ (∀ l' ∈ before, LineFine props l') ∧
      p ∈ props ∧ ¬ p.required ∧ l.key = p.name ∧ p.Panics l)

/-! ## The properties of each component -/

/-- The properties of `Audio` (`src/components/valarm.rs:73-84`). -/
def audioProperties : List Property :=
  [required c!"ACTION" TextLine Never, required c!"TRIGGER" TriggerLine DurationPanics, other c!"DURATION" DurationLine DurationPanics,
   other c!"REPEAT" NumberLine Never, other c!"ATTACH" TextLine Never]

/-- The properties of `Display` (`src/components/valarm.rs:101-112`). -/
def displayProperties : List Property :=
  [required c!"ACTION" TextLine Never, required c!"TRIGGER" TriggerLine DurationPanics, required c!"DESCRIPTION" TextLine Never,
   other c!"DURATION" DurationLine DurationPanics, other c!"REPEAT" NumberLine Never]

/-- The properties of `Email` (`src/components/valarm.rs:129-143`). -/
def emailProperties : List Property :=
  [required c!"ACTION" TextLine Never, required c!"TRIGGER" TriggerLine DurationPanics, required c!"DESCRIPTION" TextLine Never,
   required c!"SUMMARY" TextLine Never, other c!"ATTENDEE" UriLine Never, other c!"DURATION" DurationLine DurationPanics,
   other c!"REPEAT" NumberLine Never, other c!"ATTACH" TextLine Never]

/-- The properties of `VEvent` (`src/components/vevent.rs:4-45`). -/
def vEventProperties : List Property :=
  [required c!"DTSTAMP" DateTimeLine Never, required c!"UID" TextLine Never, required c!"DTSTART" DateLine Never,
   other c!"CLASS" ClassLine Never, other c!"CREATED" DateTimeLine Never, other c!"DESCRIPTION" TextLine Never,
   other c!"GEO" GeoLine Never, other c!"LAST-MODIFIED" DateTimeLine Never, other c!"LOCATION" TextLine Never,
   other c!"ORGANIZER" UriLine Never, other c!"PRIORITY" PriorityLine Never, other c!"SEQUENCE" NumberLine Never,
   other c!"STATUS" StatusLine Never, other c!"SUMMARY" TextLine Never, other c!"TRANSP" TransparencyLine Never,
   other c!"URL" UriLine Never, other c!"RECURID" DateLine Never, other c!"RRULE" RuleLine RulePanics, other c!"DTEND" DateLine Never,
   other c!"DURATION" DurationLine DurationPanics, other c!"ATTACH" TextLine Never, other c!"ATTENDEE" UriLine Never,
   other c!"CATEGORIES" TextsLine Never, other c!"COMMENT" TextLine Never, other c!"CONTACT" TextLine Never,
   other c!"EXDATE" DatesLine Never, other c!"RSTATUS" RequestStatusLine Never, other c!"RELATED-TO" TextLine Never,
   other c!"RESOURCES" TextsLine Never, other c!"RDATE" RDateLine RDatePanics]

/-- The properties of `VFreebusy` (`src/components/vfreebusy.rs:4-22`). -/
def vFreebusyProperties : List Property :=
  [required c!"DTSTAMP" DateTimeLine Never, required c!"UID" TextLine Never, other c!"CONTACT" TextLine Never,
   other c!"DTSTART" DateLine Never, other c!"DTEND" DateLine Never, other c!"ORGANIZER" UriLine Never, other c!"URL" UriLine Never,
   other c!"ATTENDEE" UriLine Never, other c!"COMMENT" TextLine Never, other c!"FREEBUSY" PeriodsLine PeriodsPanic,
   other c!"RSTATUS" RequestStatusLine Never]

/-- The properties of `VJournal` (`src/components/vjournal.rs:4-35`). -/
def vJournalProperties : List Property :=
  [required c!"DTSTAMP" DateTimeLine Never, required c!"UID" TextLine Never, other c!"CLASS" ClassLine Never,
   other c!"CREATED" DateTimeLine Never, required c!"DTSTART" DateLine Never, other c!"LAST-MODIFIED" DateTimeLine Never,
   other c!"ORGANIZER" UriLine Never, other c!"RECURID" DateLine Never, other c!"SEQUENCE" NumberLine Never,
   other c!"STATUS" StatusLine Never, other c!"SUMMARY" TextLine Never, other c!"URL" UriLine Never, other c!"RRULE" RuleLine RulePanics,
   other c!"ATTACH" TextLine Never, other c!"ATTENDEE" UriLine Never, other c!"CATEGORIES" TextsLine Never,
   other c!"COMMENT" TextLine Never, other c!"CONTACT" TextLine Never, other c!"DESCRIPTION" TextLine Never,
   other c!"EXDATE" DatesLine Never, other c!"RELATED-TO" TextLine Never, other c!"RDATE" RDateLine RDatePanics,
   other c!"RSTATUS" RequestStatusLine Never]

/-- The properties of `Standard` (`src/components/vtimezone.rs:34-49,76`). -/
def standardProperties : List Property :=
  [required c!"DTSTART" DateLine Never, required c!"TZOFFSETTO" OffsetLine Never, required c!"TZOFFSETFROM" OffsetLine Never,
   other c!"RRULE" RuleLine RulePanics, other c!"COMMENT" TextLine Never, other c!"RDATE" RDateLine RDatePanics,
   other c!"TZNAME" TextLine Never]

/-- The properties of `Daylight` (`src/components/vtimezone.rs:34-49,77`). -/
def daylightProperties : List Property :=
  [required c!"DTSTART" DateLine Never, required c!"TZOFFSETTO" OffsetLine Never, required c!"TZOFFSETFROM" OffsetLine Never,
   other c!"RRULE" RuleLine RulePanics, other c!"COMMENT" TextLine Never, other c!"RDATE" RDateLine RDatePanics,
   other c!"TZNAME" TextLine Never]

/-- The properties of `VTimezone` (`src/components/vtimezone.rs:6-19`). -/
def vTimezoneProperties : List Property :=
  [required c!"TZID" TextLine Never, other c!"LAST-MODIFIED" DateTimeLine Never, other c!"TZURL" UriLine Never]

/-- The properties of `VTodo` (`src/components/vtodo.rs:4-43`). -/
def vTodoProperties : List Property :=
  [required c!"DTSTAMP" DateTimeLine Never, required c!"UID" TextLine Never, other c!"CLASS" ClassLine Never,
   other c!"COMPLETED" DateTimeLine Never, other c!"CREATED" DateTimeLine Never, other c!"DTSTART" DateLine Never,
   other c!"GEO" GeoLine Never, other c!"LAST-MODIFIED" DateTimeLine Never, other c!"LOCATION" TextLine Never,
   other c!"ORGANIZER" UriLine Never, other c!"PERCENT-COMPLETE" PercentLine Never, other c!"PRIORITY" PriorityLine Never,
   other c!"RECURID" DateLine Never, other c!"SEQUENCE" NumberLine Never, other c!"STATUS" StatusLine Never,
   other c!"SUMMARY" TextLine Never, other c!"URL" UriLine Never, other c!"RRULE" RuleLine RulePanics, other c!"DUE" DateLine Never,
   other c!"DURATION" DurationLine DurationPanics, other c!"ATTACH" TextLine Never, other c!"ATTENDEE" UriLine Never,
   other c!"CATEGORIES" TextsLine Never, other c!"COMMENT" TextLine Never, other c!"CONTACT" TextLine Never,
   other c!"EXDATE" DatesLine Never, other c!"RSTATUS" RequestStatusLine Never, other c!"RELATED-TO" TextLine Never,
   other c!"RESOURCES" TextsLine Never, other c!"RDATE" RDateLine RDatePanics]

/-- The properties of `VCalendar` (`src/components/vcalendar.rs:4-26`). -/
def vCalendarProperties : List Property :=
  [required c!"PRODID" TextLine Never, required c!"VERSION" TextLine Never, other c!"CALSCALE" TextLine Never,
   other c!"METHOD" TextLine Never]

/-! ## Documents: the (unfolded) text `i` makes reading panic -/

/-- The lines of an alarm: there is no `ACTION`, or the properties of the alarm of that kind panic. -/
def AlarmLinesPanic (ls : List ContentLine) : Prop :=
  firstAction ls = none ∨
  (firstAction ls = some c!"AUDIO" ∧ LinesPanic audioProperties ls) ∨
  (firstAction ls = some c!"DISPLAY" ∧ LinesPanic displayProperties ls) ∨
  (firstAction ls = some c!"EMAIL" ∧ LinesPanic emailProperties ls)

/-- An alarm. -/
def AlarmPanics (i : Str) : Prop := ∃ ls r, LeafText c!"VALARM" i ls r ∧ AlarmLinesPanic ls
/-- A to-do. -/
def TodoPanics (i : Str) : Prop := ∃ ls r, LeafText c!"VTODO" i ls r ∧ LinesPanic vTodoProperties ls
/-- A journal entry. -/
def JournalPanics (i : Str) : Prop := ∃ ls r, LeafText c!"VJOURNAL" i ls r ∧ LinesPanic vJournalProperties ls
/-- A free/busy component. -/
def FreebusyPanics (i : Str) : Prop := ∃ ls r, LeafText c!"VFREEBUSY" i ls r ∧ LinesPanic vFreebusyProperties ls
/-- The standard part of a time zone. -/
def StandardPanics (i : Str) : Prop := ∃ ls r, LeafText c!"STANDARD" i ls r ∧ LinesPanic standardProperties ls
/-- The daylight part of a time zone. -/
def DaylightPanics (i : Str) : Prop := ∃ ls r, LeafText c!"DAYLIGHT" i ls r ∧ LinesPanic daylightProperties ls

/-- A component with parts: after its lines and some well-written parts there is one that panics, or after them it is closed and its
lines panic. -/
def BlockPanics {α : Type} (opening closing : Str) (PartText : Str → α → Str → Prop) (PartPanics : Str → Prop) (props : List Property)
    (i : Str) : Prop :=
  ∃ body ls r1, i = opening ++ body ∧ LinesText body ls r1 ∧
    ((∃ parts r2, SeqText PartText r1 parts r2 ∧ PartPanics r2) ∨
     (∃ parts r, SeqText PartText r1 parts (closing ++ r) ∧ LinesPanic props ls))

/-- An event. -/
def EventPanics : Str → Prop :=
  BlockPanics c!"BEGIN:VEVENT\r\n" c!"END:VEVENT\r\n" AlarmText AlarmPanics vEventProperties
/-- A time zone. -/
def TimezonePanics : Str → Prop :=
  BlockPanics c!"BEGIN:VTIMEZONE\r\n" c!"END:VTIMEZONE\r\n" TzPartText (fun i => StandardPanics i ∨ DaylightPanics i) vTimezoneProperties
/-- A calendar. -/
def CalendarPanics : Str → Prop :=
  BlockPanics c!"BEGIN:VCALENDAR\r\n" c!"END:VCALENDAR" ComponentText
    (fun i => AlarmPanics i ∨ EventPanics i ∨ FreebusyPanics i ∨ JournalPanics i ∨ TimezonePanics i ∨ TodoPanics i) vCalendarProperties

end Ikal.Spec.Full
