import Verif.Components
import Verif.Spec.Fold
import Verif.Spec.Text
import Verif.Spec.DateText
import Verif.Spec.Names

/-!
# Specification: the text that is written

First the text of each kind of value, then what a property is made of it, then each component line by line in the order in which
the properties are declared.  Nothing here refers to the functions that write.
-/

namespace Ikal.Spec

/-- Texts one after the other with a separator between them. -/
def joinWith (sep : Str) : List Str → Str
  | [] => []
  | [s] => s
  | s :: t :: r => s ++ sep ++ joinWith sep (t :: r)

/-! ## Values -/

/-- A number in decimal without superfluous zeros. -/
def NumberText (s : Str) (n : Nat) : Prop := Digits s ∧ decimal s = n ∧ (s.head? = some '0' → s = ['0'])

/-- A number with a minus sign if it is negative. -/
def SignedText (s : Str) (n : Int) : Prop :=
  0 ≤ n ∧ NumberText s n.natAbs ∨ n < 0 ∧ ∃ t, s = '-' :: t ∧ NumberText t n.natAbs

/-- A number with `k` digits. -/
def FixedText (k : Nat) (s : Str) (n : Nat) : Prop := s.length = k ∧ Digits s ∧ decimal s = n

/-- A year: four digits, or for other years a sign and at least four digits. -/
def YearText (s : Str) (y : Int) : Prop :=
  0 ≤ y ∧ y ≤ 9999 ∧ FixedText 4 s y.natAbs ∨
  ∃ sign ds, s = sign :: ds ∧ (sign = '-' ∧ y < 0 ∨ sign = '+' ∧ 9999 < y) ∧
    (y.natAbs ≤ 9999 ∧ FixedText 4 ds y.natAbs ∨ 9999 < y.natAbs ∧ NumberText ds y.natAbs)

/-- A date in any year. -/
def AnyDateText (s : Str) (d : NaiveDate) : Prop :=
  ∃ y m a, s = y ++ m ++ a ∧ YearText y d.year ∧ FixedText 2 m d.month ∧ FixedText 2 a d.day

/-- A date, `T` and a time of the day, without fractions of a second; a leap second is second 60. -/
def AnyTimeText (s : Str) (t : NaiveDateTime) : Prop :=
  ∃ ds h m x, s = ds ++ 'T' :: (h ++ m ++ x) ∧ AnyDateText ds t.date ∧ FixedText 2 h (t.secs / 3600) ∧
    FixedText 2 m (t.secs % 3600 / 60) ∧
    (t.frac < 1000000000 ∧ FixedText 2 x (t.secs % 60) ∨ 1000000000 ≤ t.frac ∧ FixedText 2 x (t.secs % 60 + 1))

/-- A duration: `P0D` for none, otherwise seconds, with as many decimals as there are. -/
def DurationOut (s : Str) (d : TimeDelta) : Prop :=
  d.nanos = 0 ∧ s = c!"P0D" ∨
  d.nanos ≠ 0 ∧ ∃ sign n f, s = sign ++ c!"PT" ++ n ++ f ++ c!"S" ∧ (0 < d.nanos ∧ sign = [] ∨ d.nanos < 0 ∧ sign = ['-']) ∧
    NumberText n (d.nanos.natAbs / 1000000000) ∧
    (d.nanos.natAbs % 1000000000 = 0 ∧ f = [] ∨
     ∃ ds, f = '.' :: ds ∧ Digits ds ∧ ds.length ≤ 9 ∧ ds.getLast? ≠ some '0' ∧
       decimal ds * 10 ^ (9 - ds.length) = d.nanos.natAbs % 1000000000)

/-- An offset: sign, hours, minutes and, if there are, seconds. -/
def OffsetOut (s : Str) (o : FixedOffset) : Prop :=
  ∃ sign h m x, s = sign :: (h ++ m ++ x) ∧ (o.secs < 0 ∧ sign = '-' ∨ 0 ≤ o.secs ∧ sign = '+') ∧
    FixedText 2 h (o.secs.natAbs / 3600) ∧ FixedText 2 m (o.secs.natAbs % 3600 / 60) ∧
    (o.secs.natAbs % 60 = 0 ∧ x = [] ∨ o.secs.natAbs % 60 ≠ 0 ∧ FixedText 2 x (o.secs.natAbs % 60))

/-- A day of the week, after its number if there is one. -/
def WeekdayText (s : Str) (w : WeekdayNum) : Prop :=
  match w.ord with
  | none => s = weekdayName w.weekday
  | some n => ∃ t, SignedText t n ∧ s = t ++ weekdayName w.weekday

section
variable [Platform]

/-- The items of a rule in the order in which they are written: each with its name and, when there is something to write, its text. -/
def ruleItems (r : Recur) : List (Str × Option (Str → Prop)) :=
  let numbers (l : List Int) : Option (Str → Prop) :=
    if l = [] then none else some fun s => ∃ ts, All2 SignedText ts l ∧ s = joinWith c!"," ts
  [(c!"FREQ", some fun s => s = freqName r.freq),
   (c!"UNTIL", r.until_.map fun d s => s = d.toStr),
   (c!"COUNT", r.count.map fun n s => NumberText s n),
   (c!"INTERVAL", some fun s => NumberText s r.interval),
   (c!"BYSECOND", numbers r.bySecond),
   (c!"BYMINUTE", numbers r.byMinute),
   (c!"BYHOUR", numbers r.byHour),
   (c!"BYDAY", if r.byDay = [] then none else some fun s => ∃ ts, All2 WeekdayText ts r.byDay ∧ s = joinWith c!"," ts),
   (c!"BYMONTHDAY", numbers r.byMonthday),
   (c!"BYYEARDAY", numbers r.byYearday),
   (c!"BYWEEKNO", numbers r.byWeekno),
   (c!"BYMONTH", numbers r.byMonth),
   (c!"BYSETPOS", numbers r.bySetpos),
   (c!"WKST", r.wkst.map fun w s => s = weekdayName w)]

/-- `NAME=text` for each item with a text. -/
inductive ItemTexts : List (Str × Option (Str → Prop)) → List Str → Prop
  | nil : ItemTexts [] []
  | skip {name : Str} {items : List (Str × Option (Str → Prop))} {ts : List Str} :
      ItemTexts items ts → ItemTexts ((name, none) :: items) ts
  | item {name t : Str} {R : Str → Prop} {items : List (Str × Option (Str → Prop))} {ts : List Str} :
      R t → ItemTexts items ts → ItemTexts ((name, some R) :: items) ((name ++ c!"=" ++ t) :: ts)

/-- A rule: its items separated by semicolons. -/
def RuleOut (s : Str) (r : Recur) : Prop := ∃ ts, ItemTexts (ruleItems r) ts ∧ s = joinWith c!";" ts

/-! ## Properties -/

/-- The parameters of a value: none, or `NAME=value` separated by semicolons, the values escaped. -/
def ParamsOut (m : SMap Str) (ps : Option Str) : Prop :=
  m = [] ∧ ps = none ∨
  m ≠ [] ∧ ∃ ts, All2 (fun (p : Str × Str) t => ∃ e, EscapedAs p.2 e ∧ t = p.1 ++ c!"=" ++ e) m ts ∧ ps = some (joinWith c!";" ts)

/-- How the values of a type are written: a value, its parameters and its text. -/
abbrev Form (α : Type) := α → Option Str → Str → Prop

/-- No parameters, and the text that `Display` gives. -/
def shown {α : Type} (f : α → Str) : Form α := fun v ps t => ps = none ∧ t = f v

/-- A text with its parameters. -/
def textForm : Form Text := fun v ps t => ParamsOut v.params ps ∧ EscapedAs v.text t

/-- An URI with its parameters. -/
def uriForm : Form Uri := fun v ps t => ParamsOut v.params ps ∧ EscapedAs v.uri t

/-- A number. -/
def numberForm : Form Nat := fun v ps t => ps = none ∧ NumberText t v

/-- A date or date-time: the parameter `VALUE=DATE` tells a date. -/
def dateForm : Form Date := fun v ps t =>
  t = v.toStr ∧
  match v with
  | .date _ => ps = some c!"VALUE=DATE"
  | .dateTime _ => ps = none

/-- A trigger: a parameter tells its kind. -/
def triggerForm : Form Trigger := fun v ps t =>
  match v with
  | .dateTime d => ps = some c!"VALUE=DATE-TIME" ∧ t = d.toStr
  | .duration d => ps = some c!"VALUE=DURATION" ∧ t = d.toStr

/-- A request status: code with one decimal, description and data. -/
def requestStatusForm : Form RequestStatus := fun v ps t =>
  ps = none ∧ ∃ d, EscapedAs v.statdesc d ∧
    match v.extdata with
    | none => t = Platform.floatShow1 v.statcode ++ c!";" ++ d
    | some x => ∃ e, EscapedAs x e ∧ t = Platform.floatShow1 v.statcode ++ c!";" ++ d ++ c!";" ++ e

/-- A rule. -/
def ruleForm : Form Recur := fun v ps t => ps = none ∧ RuleOut t v

/-- A line of at most 75 octets is written as is, a longer one in pieces of 75 octets and a last, possibly shorter, one. -/
def FoldedAs (s out : Str) : Prop :=
  byteLen s ≤ 75 ∧ out = s ∨
  75 < byteLen s ∧ ∃ pieces last, s = pieces.flatten ++ last ∧ (∀ p ∈ pieces, byteLen p = 75) ∧ last ≠ [] ∧ byteLen last ≤ 75 ∧
    out = joinWith c!"\r\n " (pieces ++ [last])

/-- What is written for a text with parameters: nothing if it is empty, otherwise a folded line. -/
def LineOut (name : Str) (ps : Option Str) (text out : Str) : Prop :=
  text = [] ∧ out = [] ∨ text ≠ [] ∧ FoldedAs (propertyLine name ps text) out

/-- One value. -/
def Single {α : Type} (name : Str) (F : Form α) (v : α) (out : Str) : Prop := ∃ ps t, F v ps t ∧ LineOut name ps t out

/-- One value or none. -/
def Optional {α : Type} (name : Str) (F : Form α) (o : Option α) (out : Str) : Prop :=
  match o with
  | none => out = []
  | some v => Single name F v out

/-- Several values: a single one with its parameters, otherwise all of them without parameters in one line, separated by commas. -/
def Repeated {α : Type} (name : Str) (F : Form α) (l : List α) (out : Str) : Prop :=
  match l with
  | [v] => Single name F v out
  | l => ∃ ts, All2 (fun v t => ∃ ps, F v ps t) l ts ∧ LineOut name none (joinWith c!"," ts) out

/-- Components in a component: a single one as such, otherwise all of them in one line, separated by commas. -/
def Inner {α : Type} (name : Str) (W : α → Str → Prop) (l : List α) (out : Str) : Prop :=
  match l with
  | [v] => W v out
  | l => ∃ ts, All2 W l ts ∧ LineOut name none (joinWith c!"," ts) out

/-- Extension properties: one line with `NAME=value` of each, without their parameters, separated by semicolons. -/
def Extensions (name : Str) (m : SMap ContentLine) (out : Str) : Prop :=
  ∃ ts, All2 (fun (p : Str × ContentLine) t => ∃ e, EscapedAs p.2.value e ∧ t = p.1 ++ c!"=" ++ e) m ts ∧
    LineOut name none (joinWith c!";" ts) out

/-- Parts one after the other. -/
inductive Concat : List (Str → Prop) → Str → Prop
  | nil : Concat [] []
  | cons {P : Str → Prop} {Ps : List (Str → Prop)} {a b : Str} : P a → Concat Ps b → Concat (P :: Ps) (a ++ b)

/-- The parts between `BEGIN` and `END`. -/
def Frame (name : Str) (parts : List (Str → Prop)) (out : Str) : Prop :=
  ∃ b, Concat parts b ∧ out = c!"BEGIN:" ++ name ++ c!"\r\n" ++ b ++ c!"END:" ++ name ++ c!"\r\n"

/-! ## Components -/

/-- The lines of a `Audio` (`src/components/valarm.rs:73-84`), in order. -/
def AudioLines (v : Audio) : List (Str → Prop) := [
  Single c!"ACTION" textForm v.action,
  Single c!"TRIGGER" triggerForm v.trigger,
  Optional c!"DURATION" (shown TimeDelta.toStr) v.duration,
  Optional c!"REPEAT" numberForm v.repeat_,
  Repeated c!"ATTACH" textForm v.attach,
  Extensions c!"X-PROP" v.xProp,
  Extensions c!"IANA-PROP" v.ianaProp]

/-- The lines of a `Display` (`src/components/valarm.rs:101-112`), in order. -/
def DisplayLines (v : Display) : List (Str → Prop) := [
  Single c!"ACTION" textForm v.action,
  Single c!"TRIGGER" triggerForm v.trigger,
  Single c!"DESCRIPTION" textForm v.description,
  Optional c!"DURATION" (shown TimeDelta.toStr) v.duration,
  Optional c!"REPEAT" numberForm v.repeat_,
  Extensions c!"X-PROP" v.xProp,
  Extensions c!"IANA-PROP" v.ianaProp]

/-- The lines of a `Email` (`src/components/valarm.rs:129-143`), in order. -/
def EmailLines (v : Email) : List (Str → Prop) := [
  Single c!"ACTION" textForm v.action,
  Single c!"TRIGGER" triggerForm v.trigger,
  Single c!"DESCRIPTION" textForm v.description,
  Single c!"SUMMARY" textForm v.summary,
  Repeated c!"ATTENDEE" uriForm v.attendee,
  Optional c!"DURATION" (shown TimeDelta.toStr) v.duration,
  Optional c!"REPEAT" numberForm v.repeat_,
  Repeated c!"ATTACH" textForm v.attach,
  Extensions c!"X-PROP" v.xProp,
  Extensions c!"IANA-PROP" v.ianaProp]

/-- The text of an audio alarm that is not wrapped as an alarm. -/
def AudioOutput (v : Audio) (out : Str) : Prop := Frame c!"AUDIO" (AudioLines v) out

/-- The text of a display alarm that is not wrapped as an alarm. -/
def DisplayOutput (v : Display) (out : Str) : Prop := Frame c!"DISPLAY" (DisplayLines v) out

/-- The text of an e-mail alarm that is not wrapped as an alarm. -/
def EmailOutput (v : Email) (out : Str) : Prop := Frame c!"EMAIL" (EmailLines v) out

/-- The text of an alarm: `VALARM` around the lines of its kind. -/
def VAlarmOutput : VAlarm → Str → Prop
  | .audio a => Frame c!"VALARM" (AudioLines a)
  | .display a => Frame c!"VALARM" (DisplayLines a)
  | .email a => Frame c!"VALARM" (EmailLines a)

/-- An alarm as the value of a property. -/
def alarmForm : Form VAlarm := fun v ps t => ps = none ∧ VAlarmOutput v t

/-- The lines of a `VEvent` (`src/components/vevent.rs:4-45`), in order. -/
def VEventLines (v : VEvent) : List (Str → Prop) := [
  Single c!"DTSTAMP" (shown DateTime.toStr) v.dtstamp,
  Single c!"UID" textForm v.uid,
  Single c!"DTSTART" dateForm v.dtstart,
  Optional c!"CLASS" (shown Class.toStr) v.class_,
  Optional c!"CREATED" (shown DateTime.toStr) v.created,
  Optional c!"DESCRIPTION" textForm v.description,
  Optional c!"GEO" (shown Geo.toStr) v.geo,
  Optional c!"LAST-MODIFIED" (shown DateTime.toStr) v.lastModified,
  Optional c!"LOCATION" textForm v.location,
  Optional c!"ORGANIZER" uriForm v.organizer,
  Optional c!"PRIORITY" numberForm v.priority,
  Optional c!"SEQUENCE" numberForm v.sequence,
  Optional c!"STATUS" (shown Status.toStr) v.status,
  Optional c!"SUMMARY" textForm v.summary,
  Optional c!"TRANSP" (shown TimeTransparency.toStr) v.transp,
  Optional c!"URL" uriForm v.url,
  Optional c!"RECURID" dateForm v.recurid,
  Optional c!"RRULE" ruleForm v.rrule,
  Optional c!"DTEND" dateForm v.dtend,
  Optional c!"DURATION" (shown TimeDelta.toStr) v.duration,
  Repeated c!"ATTACH" textForm v.attach,
  Repeated c!"ATTENDEE" uriForm v.attendee,
  Repeated c!"CATEGORIES" textForm v.categories,
  Repeated c!"COMMENT" textForm v.comment,
  Repeated c!"CONTACT" textForm v.contact,
  Repeated c!"EXDATE" dateForm v.exdate,
  Repeated c!"RSTATUS" requestStatusForm v.rstatus,
  Repeated c!"RELATED-TO" textForm v.relatedTo,
  Repeated c!"RESOURCES" textForm v.resources,
  Repeated c!"RDATE" (shown RDate.toStr) v.rdate,
  Repeated c!"ALARMS" alarmForm v.alarms,
  Extensions c!"X-PROP" v.xProp,
  Extensions c!"IANA-PROP" v.ianaProp]

/-- The text of a `VEvent`. -/
def VEventOutput (v : VEvent) (out : Str) : Prop := Frame c!"VEVENT" (VEventLines v) out

/-- The lines of a `VFreebusy` (`src/components/vfreebusy.rs:4-22`), in order. -/
def VFreebusyLines (v : VFreebusy) : List (Str → Prop) := [
  Single c!"DTSTAMP" (shown DateTime.toStr) v.dtstamp,
  Single c!"UID" textForm v.uid,
  Optional c!"CONTACT" textForm v.contact,
  Optional c!"DTSTART" dateForm v.dtstart,
  Optional c!"DTEND" dateForm v.dtend,
  Optional c!"ORGANIZER" uriForm v.organizer,
  Optional c!"URL" uriForm v.url,
  Repeated c!"ATTENDEE" uriForm v.attendee,
  Repeated c!"COMMENT" textForm v.comment,
  Repeated c!"FREEBUSY" (shown Period.toStr) v.freebusy,
  Repeated c!"RSTATUS" requestStatusForm v.rstatus,
  Extensions c!"X-PROP" v.xProp,
  Extensions c!"IANA-PROP" v.ianaProp]

/-- The text of a `VFreebusy`. -/
def VFreebusyOutput (v : VFreebusy) (out : Str) : Prop := Frame c!"VFREEBUSY" (VFreebusyLines v) out

/-- The lines of a `VJournal` (`src/components/vjournal.rs:4-35`), in order. -/
def VJournalLines (v : VJournal) : List (Str → Prop) := [
  Single c!"DTSTAMP" (shown DateTime.toStr) v.dtstamp,
  Single c!"UID" textForm v.uid,
  Optional c!"CLASS" (shown Class.toStr) v.class_,
  Optional c!"CREATED" (shown DateTime.toStr) v.created,
  Single c!"DTSTART" dateForm v.dtstart,
  Optional c!"LAST-MODIFIED" (shown DateTime.toStr) v.lastModified,
  Optional c!"ORGANIZER" uriForm v.organizer,
  Optional c!"RECURID" dateForm v.recurid,
  Optional c!"SEQUENCE" numberForm v.sequence,
  Optional c!"STATUS" (shown Status.toStr) v.status,
  Optional c!"SUMMARY" textForm v.summary,
  Optional c!"URL" uriForm v.url,
  Optional c!"RRULE" ruleForm v.rrule,
  Repeated c!"ATTACH" textForm v.attach,
  Repeated c!"ATTENDEE" uriForm v.attendee,
  Repeated c!"CATEGORIES" textForm v.categories,
  Repeated c!"COMMENT" textForm v.comment,
  Repeated c!"CONTACT" textForm v.contact,
  Repeated c!"DESCRIPTION" textForm v.description,
  Repeated c!"EXDATE" dateForm v.exdate,
  Repeated c!"RELATED-TO" textForm v.relatedTo,
  Repeated c!"RDATE" (shown RDate.toStr) v.rdate,
  Repeated c!"RSTATUS" requestStatusForm v.rstatus,
  Extensions c!"X-PROP" v.xProp,
  Extensions c!"IANA-PROP" v.ianaProp]

/-- The text of a `VJournal`. -/
def VJournalOutput (v : VJournal) (out : Str) : Prop := Frame c!"VJOURNAL" (VJournalLines v) out

/-- The lines of a `Standard` (`src/components/vtimezone.rs:34-49,76`), in order. -/
def StandardLines (v : Standard) : List (Str → Prop) := [
  Single c!"DTSTART" dateForm v.dtstart,
  Single c!"TZOFFSETTO" (shown FixedOffset.toStr) v.tzoffsetto,
  Single c!"TZOFFSETFROM" (shown FixedOffset.toStr) v.tzoffsetfrom,
  Optional c!"RRULE" ruleForm v.rrule,
  Repeated c!"COMMENT" textForm v.comment,
  Repeated c!"RDATE" (shown RDate.toStr) v.rdate,
  Repeated c!"TZNAME" textForm v.tzname,
  Extensions c!"X-PROP" v.xProp,
  Extensions c!"IANA-PROP" v.ianaProp]

/-- The text of a `Standard`. -/
def StandardOutput (v : Standard) (out : Str) : Prop := Frame c!"STANDARD" (StandardLines v) out

/-- The lines of a `Daylight` (`src/components/vtimezone.rs:34-49,77`), in order. -/
def DaylightLines (v : Daylight) : List (Str → Prop) := [
  Single c!"DTSTART" dateForm v.dtstart,
  Single c!"TZOFFSETTO" (shown FixedOffset.toStr) v.tzoffsetto,
  Single c!"TZOFFSETFROM" (shown FixedOffset.toStr) v.tzoffsetfrom,
  Optional c!"RRULE" ruleForm v.rrule,
  Repeated c!"COMMENT" textForm v.comment,
  Repeated c!"RDATE" (shown RDate.toStr) v.rdate,
  Repeated c!"TZNAME" textForm v.tzname,
  Extensions c!"X-PROP" v.xProp,
  Extensions c!"IANA-PROP" v.ianaProp]

/-- The text of a `Daylight`. -/
def DaylightOutput (v : Daylight) (out : Str) : Prop := Frame c!"DAYLIGHT" (DaylightLines v) out

/-- The lines of a `VTimezone` (`src/components/vtimezone.rs:6-19`), in order. -/
def VTimezoneLines (v : VTimezone) : List (Str → Prop) := [
  Single c!"TZID" textForm v.tzid,
  Optional c!"LAST-MODIFIED" (shown DateTime.toStr) v.lastModified,
  Optional c!"TZURL" uriForm v.tzurl,
  Inner c!"STANDARD" StandardOutput v.standard,
  Inner c!"DAYLIGHT" DaylightOutput v.daylight,
  Extensions c!"X-PROP" v.xProp,
  Extensions c!"IANA-PROP" v.ianaProp]

/-- The text of a `VTimezone`. -/
def VTimezoneOutput (v : VTimezone) (out : Str) : Prop := Frame c!"VTIMEZONE" (VTimezoneLines v) out

/-- The lines of a `VTodo` (`src/components/vtodo.rs:4-43`), in order. -/
def VTodoLines (v : VTodo) : List (Str → Prop) := [
  Single c!"DTSTAMP" (shown DateTime.toStr) v.dtstamp,
  Single c!"UID" textForm v.uid,
  Optional c!"CLASS" (shown Class.toStr) v.class_,
  Optional c!"COMPLETED" (shown DateTime.toStr) v.completed,
  Optional c!"CREATED" (shown DateTime.toStr) v.created,
  Optional c!"DTSTART" dateForm v.dtstart,
  Optional c!"GEO" (shown Geo.toStr) v.geo,
  Optional c!"LAST-MODIFIED" (shown DateTime.toStr) v.lastModified,
  Optional c!"LOCATION" textForm v.location,
  Optional c!"ORGANIZER" uriForm v.organizer,
  Optional c!"PERCENT-COMPLETE" numberForm v.percentComplete,
  Optional c!"PRIORITY" numberForm v.priority,
  Optional c!"RECURID" dateForm v.recurid,
  Optional c!"SEQUENCE" numberForm v.sequence,
  Optional c!"STATUS" (shown Status.toStr) v.status,
  Optional c!"SUMMARY" textForm v.summary,
  Optional c!"URL" uriForm v.url,
  Optional c!"RRULE" ruleForm v.rrule,
  Optional c!"DUE" dateForm v.due,
  Optional c!"DURATION" (shown TimeDelta.toStr) v.duration,
  Repeated c!"ATTACH" textForm v.attach,
  Repeated c!"ATTENDEE" uriForm v.attendee,
  Repeated c!"CATEGORIES" textForm v.categories,
  Repeated c!"COMMENT" textForm v.comment,
  Repeated c!"CONTACT" textForm v.contact,
  Repeated c!"EXDATE" dateForm v.exdate,
  Repeated c!"RSTATUS" requestStatusForm v.rstatus,
  Repeated c!"RELATED-TO" textForm v.relatedTo,
  Repeated c!"RESOURCES" textForm v.resources,
  Repeated c!"RDATE" (shown RDate.toStr) v.rdate,
  Extensions c!"X-PROP" v.xProp,
  Extensions c!"IANA-PROP" v.ianaProp]

/-- The text of a `VTodo`. -/
def VTodoOutput (v : VTodo) (out : Str) : Prop := Frame c!"VTODO" (VTodoLines v) out

/-- The lines of a `VCalendar` (`src/components/vcalendar.rs:4-26`), in order. -/
def VCalendarLines (v : VCalendar) : List (Str → Prop) := [
  Single c!"PRODID" textForm v.prodid,
  Single c!"VERSION" textForm v.version,
  Optional c!"CALSCALE" textForm v.calscale,
  Optional c!"METHOD" textForm v.method,
  Repeated c!"ALARMS" alarmForm v.alarms,
  Inner c!"EVENTS" VEventOutput v.events,
  Inner c!"FREEBUSY" VFreebusyOutput v.freebusy,
  Inner c!"JOURNALS" VJournalOutput v.journals,
  Inner c!"TODO" VTodoOutput v.todo,
  Inner c!"TIMEZONES" VTimezoneOutput v.timezones,
  Extensions c!"X-PROP" v.xProp,
  Extensions c!"IANA-PROP" v.ianaProp]

/-- The text of a `VCalendar`. -/
def VCalendarOutput (v : VCalendar) (out : Str) : Prop := Frame c!"VCALENDAR" (VCalendarLines v) out

end

end Ikal.Spec
