import Verif.Trace
import Verif.Float
import Verif.Format

/-!
# `Debug` (`{:?}` and `{:#?}`)

Every public type of the crate has a `Debug` implementation: derived, but for `ContentLine` (`src/content_line.rs:14-21`).  Tests compare these texts: those of the
repository compare `{:#?}` with golden files (`src/lib.rs:241-283`).  The model has the calls of the builders of `core::fmt` (`Doc`), and the two texts they make of
them; dates, times, durations and offsets are those of chrono, floats those of `core`.  `Verif/Conformance/*.lean` compare this with the golden files.
-/

namespace Ikal

/-- What the builders of `core::fmt` receive: a text without quotes, a string, a struct, a tuple or variant, a sequence, a map with strings as keys. -/
inductive Doc where
  | word (s : Str)
  | str (s : Str)
  | struct (n : Str) (fs : List (Str × Doc))
  | tuple (n : Str) (fs : List Doc)
  | list (l : List Doc)
  | map (l : List (Str × Doc))

mutual
/-- `{:?}` (`core::fmt::builders`): `debug_struct`, `debug_tuple`, `debug_list` and `debug_map` without the alternate flag. -/
def Doc.compact [DebugChars] : Doc → Str
  | .word s => s
  | .str s => debugStr s
  | .struct n [] => n
  | .struct n (f :: fs) => n ++ c!" { " ++ f.1 ++ c!": " ++ f.2.compact ++ Doc.moreFields fs ++ c!" }"
  | .tuple n [] => n
  | .tuple n (d :: ds) => n ++ c!"(" ++ d.compact ++ Doc.moreItems ds ++ c!")"
  | .list [] => c!"[]"
  | .list (d :: ds) => c!"[" ++ d.compact ++ Doc.moreItems ds ++ c!"]"
  | .map [] => c!"{}"
  | .map (f :: fs) => c!"{" ++ debugStr f.1 ++ c!": " ++ f.2.compact ++ Doc.moreEntries fs ++ c!"}"
/-- The fields of a struct after the first. -/
def Doc.moreFields [DebugChars] : List (Str × Doc) → Str
  | [] => []
  | f :: fs => c!", " ++ f.1 ++ c!": " ++ f.2.compact ++ Doc.moreFields fs
/-- The items of a tuple or a sequence after the first. -/
def Doc.moreItems [DebugChars] : List Doc → Str
  | [] => []
  | d :: ds => c!", " ++ d.compact ++ Doc.moreItems ds
/-- The entries of a map after the first. -/
def Doc.moreEntries [DebugChars] : List (Str × Doc) → Str
  | [] => []
  | f :: fs => c!", " ++ debugStr f.1 ++ c!": " ++ f.2.compact ++ Doc.moreEntries fs
end

/-- `core::fmt::builders::PadAdapter`: four blanks at the beginning of each line; the flag is set at the beginning of a line. -/
def indent : Bool → Str → Str
  | _, [] => []
  | true, c :: r => c!"    " ++ c :: indent (c == '\n') r
  | false, c :: r => c :: indent (c == '\n') r

mutual
/-- `{:#?}` (`core::fmt::builders`): the same with the alternate flag. -/
def Doc.pretty [DebugChars] : Doc → Str
  | .word s => s
  | .str s => debugStr s
  | .struct n [] => n
  | .struct n (f :: fs) => n ++ c!" {\n" ++ Doc.fieldLines (f :: fs) ++ c!"}"
  | .tuple n [] => n
  | .tuple n (d :: ds) => n ++ c!"(\n" ++ Doc.itemLines (d :: ds) ++ c!")"
  | .list [] => c!"[]"
  | .list (d :: ds) => c!"[\n" ++ Doc.itemLines (d :: ds) ++ c!"]"
  | .map [] => c!"{}"
  | .map (f :: fs) => c!"{\n" ++ Doc.entryLines (f :: fs) ++ c!"}"
/-- The fields of a struct. -/
def Doc.fieldLines [DebugChars] : List (Str × Doc) → Str
  | [] => []
  | f :: fs => indent true (f.1 ++ c!": " ++ f.2.pretty ++ c!",\n") ++ Doc.fieldLines fs
/-- The items of a tuple or a sequence. -/
def Doc.itemLines [DebugChars] : List Doc → Str
  | [] => []
  | d :: ds => indent true (d.pretty ++ c!",\n") ++ Doc.itemLines ds
/-- The entries of a map. -/
def Doc.entryLines [DebugChars] : List (Str × Doc) → Str
  | [] => []
  | f :: fs => indent true (debugStr f.1 ++ c!": " ++ f.2.pretty ++ c!",\n") ++ Doc.entryLines fs
end

/-- `Debug`: the calls of the builders. -/
class Dbg (α : Type) where
  dbg : α → Doc
export Dbg (dbg)

/-- `format!("{x:?}")`. -/
def debugText {α : Type} [Dbg α] [DebugChars] (x : α) : Str := (dbg x).compact

/-- `format!("{x:#?}")`. -/
def debugPretty {α : Type} [Dbg α] [DebugChars] (x : α) : Str := (dbg x).pretty

/-! ## chrono and `core` -/

/-- `Debug for NaiveDate` (chrono): `{:04}` for the years 0 to 9999, `{:+05}` for the others. -/
def NaiveDate.debug (d : NaiveDate) : Str :=
  (if 0 ≤ d.year ∧ d.year ≤ 9999 then pad4 d.year.toNat
    else (if d.year < 0 then '-' else '+') :: Format.padTo '0' 4 (natStr d.year.natAbs)) ++ '-' :: (pad2 d.month ++ '-' :: pad2 d.day)

/-- `Debug for NaiveDateTime` (chrono): in a leap second the second is greater by one; the fraction has three, six or nine digits. -/
def NaiveDateTime.debug (t : NaiveDateTime) : Str :=
  let s := if t.frac < 1000000000 then t.secs % 60 else t.secs % 60 + 1
  let n := if t.frac < 1000000000 then t.frac else t.frac - 1000000000
  t.date.debug ++ 'T' :: (pad2 (t.secs / 3600) ++ ':' :: (pad2 (t.secs / 60 % 60) ++ ':' :: (pad2 s ++
    if n = 0 then [] else if n % 1000000 = 0 then '.' :: Format.padTo '0' 3 (natStr (n / 1000000))
    else if n % 1000 = 0 then '.' :: Format.padTo '0' 6 (natStr (n / 1000)) else '.' :: Format.padTo '0' 9 (natStr n))))

/-- `Debug for FixedOffset` (chrono). -/
def offsetDebug (o : Int) : Str :=
  (if o < 0 then '-' else '+') :: (pad2 (o.natAbs / 3600) ++ ':' :: (pad2 (o.natAbs / 60 % 60) ++
    if o.natAbs % 60 = 0 then [] else ':' :: pad2 (o.natAbs % 60)))

/-- `Debug for f32` (`core::fmt::float`). -/
class FloatDebug [Platform] where
  text : Platform.F32 → Str

/-- `c·10^e` in scientific notation (`core::num::flt2dec::digits_to_exp_str`). -/
def F32.scientific (c : Nat) (e : Int) : Str :=
  (natStr c).take 1 ++ (if (natStr c).length = 1 then [] else '.' :: (natStr c).drop 1) ++
    'e' :: intStr (e + ((natStr c).length - 1 : Nat))

/-- `{:?}` of a `f32` (`float_to_general_debug`): scientific notation from `1e16` on and, but for zero, below `1e-4`; otherwise decimal with at least one digit after
the point. -/
def F32.debug : F32 → Str
  | .nan => c!"NaN"
  | .inf neg => F32.minus neg ++ c!"inf"
  | .fin neg b => F32.minus neg ++
    if b.val = 0 then c!"0.0"
    else if F32.nearestDecimal 1 16 ≤ b.val ∨ b.val < F32.nearestDecimal 1 (-4) then F32.scientific (F32.shortest b).1 (F32.shortest b).2
    else F32.decimalText (F32.shortest b).1 (F32.shortest b).2 ++ if 0 ≤ (F32.shortest b).2 then c!".0" else []

/-- The floats of `Verif/Float.lean`. -/
@[reducible] def ieeeDebug (P : Platform) : @FloatDebug (ieee P) := @FloatDebug.mk (ieee P) F32.debug

/-! ## `core` and `alloc` -/

/-- Integers. -/
instance : Dbg Nat := ⟨fun n => .word (natStr n)⟩
/-- Integers. -/
instance : Dbg Int := ⟨fun n => .word (intStr n)⟩
/-- `Debug for String`. -/
instance : Dbg Str := ⟨fun s => .str s⟩
/-- `Debug for Option`. -/
instance {α : Type} [Dbg α] : Dbg (Option α) := ⟨fun | none => .word c!"None" | some a => .tuple c!"Some" [dbg a]⟩
/-- `Debug for Vec`. -/
instance {α : Type} [Dbg α] : Dbg (List α) := ⟨fun l => .list (l.map dbg)⟩
/-- `Debug for BTreeMap`. -/
instance {α : Type} [Dbg α] : Dbg (SMap α) := ⟨fun l => .map (l.map fun p => (p.1, dbg p.2))⟩

/-! ## The types of the crate -/

/-- `Debug for ContentLine` (`src/content_line.rs:14-21`): the name is not shown. -/
instance : Dbg ContentLine := ⟨fun l => .struct c!"ContentLine" [(c!"params", dbg l.params), (c!"value", dbg l.value)]⟩
/-- `derive(Debug)` (`src/properties/text.rs:6`). -/
instance : Dbg Text := ⟨fun l => .struct c!"Text" [(c!"params", dbg l.params), (c!"text", dbg l.text)]⟩
/-- `derive(Debug)` (`src/properties/uri.rs:6`). -/
instance : Dbg Uri := ⟨fun l => .struct c!"Uri" [(c!"params", dbg l.params), (c!"uri", dbg l.uri)]⟩
/-- `chrono::TimeDelta` (derived there): whole seconds, rounded down, and nanoseconds. -/
instance : Dbg TimeDelta := ⟨fun d => .struct c!"TimeDelta" [(c!"secs", dbg (d.nanos / 1000000000)), (c!"nanos", dbg (d.nanos % 1000000000))]⟩
/-- `chrono::FixedOffset`. -/
instance : Dbg FixedOffset := ⟨fun o => .word (offsetDebug o.secs)⟩
section
variable [Platform]

/-- `derive(Debug)` (`src/properties/date.rs:1`). -/
instance : Dbg DateTime := ⟨fun
  | .naive t => .tuple c!"Naive" [.word t.debug]
  | .loc u => .tuple c!"Local" [.word ((localOf u).debug ++ offsetDebug (Platform.tzOffset u.toSecs))]⟩
/-- `derive(Debug)` (`src/properties/date.rs:151`). -/
instance : Dbg Date := ⟨fun
  | .date d => .tuple c!"Date" [.word d.debug]
  | .dateTime t => .tuple c!"DateTime" [dbg t]⟩
/-- `derive(Debug)` (`src/properties/class.rs:4`). -/
instance : Dbg Class := ⟨fun
  | .pub => .word c!"Public" | .priv => .word c!"Private" | .confidential => .word c!"Confidential"
  | .custom s => .tuple c!"Custom" [dbg s]⟩
/-- `derive(Debug)` (`src/properties/status.rs:4`). -/
instance : Dbg Status := ⟨fun
  | .tentative => .word c!"Tentative" | .confirmed => .word c!"Confirmed" | .cancelled => .word c!"Cancelled"
  | .needsAction => .word c!"NeedsAction" | .completed => .word c!"Completed" | .inProcess => .word c!"InProcess"
  | .draft => .word c!"Draft" | .final => .word c!"Final"⟩
/-- `derive(Debug)` (`src/properties/time_transparency.rs:4`). -/
instance : Dbg TimeTransparency := ⟨fun | .opaque => .word c!"Opaque" | .transparent => .word c!"Transparent"⟩
/-- `derive(Debug)` (`src/properties/recur.rs:138`). -/
instance : Dbg Freq := ⟨fun
  | .secondly => .word c!"Secondly" | .minutely => .word c!"Minutely" | .hourly => .word c!"Hourly"
  | .daily => .word c!"Daily" | .weekly => .word c!"Weekly" | .monthly => .word c!"Monthly" | .yearly => .word c!"Yearly"⟩
/-- `derive(Debug)` (`src/properties/recur.rs:248`); the variants are spelled as there. -/
instance : Dbg Weekday := ⟨fun
  | .sunday => .word c!"Sunday" | .monday => .word c!"Monday" | .tuesday => .word c!"Tuesday"
  | .wednesday => .word c!"Wenesday" | .thursday => .word c!"Thurday" | .friday => .word c!"Friday"
  | .saturday => .word c!"Saturday"⟩
/-- `derive(Debug)` (`src/properties/recur.rs:204`). -/
instance : Dbg WeekdayNum := ⟨fun w => .struct c!"WeekdayNum" [(c!"weekday", dbg w.weekday), (c!"ord", dbg w.ord)]⟩
variable [FloatDebug]

/-- `derive(Debug)` (`src/properties/geo.rs:4`). -/
instance : Dbg Geo := ⟨fun g => .struct c!"Geo" [(c!"lat", .word (FloatDebug.text g.lat)), (c!"lon", .word (FloatDebug.text g.lon))]⟩
/-- `derive(Debug)` (`src/properties/request_status.rs:4`). -/
instance : Dbg RequestStatus := ⟨fun r => .struct c!"RequestStatus"
  [(c!"statcode", .word (FloatDebug.text r.statcode)), (c!"statdesc", dbg r.statdesc), (c!"extdata", dbg r.extdata)]⟩
/-- `derive(Debug)` (`src/properties/trigger.rs:5`). -/
instance : Dbg Trigger := ⟨fun
  | .dateTime t => .tuple c!"DateTime" [dbg t]
  | .duration d => .tuple c!"Duration" [dbg d]⟩
/-- `derive(Debug)` (`src/properties/period.rs:4`). -/
instance : Dbg Period := ⟨fun
  | .startEnd a b => .tuple c!"StartEnd" [.struct c!"StartEnd" [(c!"start", dbg a), (c!"end", dbg b)]]
  | .startDur a d => .tuple c!"StartDur" [.struct c!"StartDur" [(c!"start", dbg a), (c!"duration", dbg d)]]⟩
/-- `derive(Debug)` (`src/properties/rdate.rs:1`). -/
instance : Dbg RDate := ⟨fun | .date l => .tuple c!"Date" [dbg l] | .period l => .tuple c!"Period" [dbg l]⟩
/-- `derive(Debug)` (`src/properties/recur.rs:6`). -/
instance : Dbg Recur := ⟨fun r => .struct c!"Recur" [(c!"freq", dbg r.freq), (c!"until", dbg r.until_),
  (c!"count", dbg r.count), (c!"interval", dbg r.interval), (c!"by_second", dbg r.bySecond),
  (c!"by_minute", dbg r.byMinute), (c!"by_hour", dbg r.byHour), (c!"by_day", dbg r.byDay),
  (c!"by_monthday", dbg r.byMonthday), (c!"by_yearday", dbg r.byYearday), (c!"by_weekno", dbg r.byWeekno),
  (c!"by_month", dbg r.byMonth), (c!"by_setpos", dbg r.bySetpos), (c!"wkst", dbg r.wkst)]⟩
/-- `derive(Debug)` (`src/components/valarm.rs:73`). -/
instance : Dbg Audio := ⟨fun v => .struct
  c!"Audio" [(c!"action", dbg v.action), (c!"trigger", dbg v.trigger), (c!"duration", dbg v.duration), (c!"repeat", dbg v.repeat_),
    (c!"attach", dbg v.attach), (c!"x_prop", dbg v.xProp), (c!"iana_prop", dbg v.ianaProp)]⟩
/-- `derive(Debug)` (`src/components/valarm.rs:101`). -/
instance : Dbg Display := ⟨fun v => .struct
  c!"Display" [(c!"action", dbg v.action), (c!"trigger", dbg v.trigger), (c!"description", dbg v.description), (c!"duration", dbg v.duration),
    (c!"repeat", dbg v.repeat_), (c!"x_prop", dbg v.xProp), (c!"iana_prop", dbg v.ianaProp)]⟩
/-- `derive(Debug)` (`src/components/valarm.rs:129`). -/
instance : Dbg Email := ⟨fun v => .struct
  c!"Email" [(c!"action", dbg v.action), (c!"trigger", dbg v.trigger), (c!"description", dbg v.description), (c!"summary", dbg v.summary),
    (c!"attendee", dbg v.attendee), (c!"duration", dbg v.duration), (c!"repeat", dbg v.repeat_), (c!"attach", dbg v.attach),
    (c!"x_prop", dbg v.xProp), (c!"iana_prop", dbg v.ianaProp)]⟩
/-- `derive(Debug)` (`src/components/valarm.rs:4`). -/
instance : Dbg VAlarm := ⟨fun
  | .audio a => .tuple c!"Audio" [dbg a]
  | .display a => .tuple c!"Display" [dbg a]
  | .email a => .tuple c!"Email" [dbg a]⟩
/-- `derive(Debug)` (`src/components/vevent.rs:4`). -/
instance : Dbg VEvent := ⟨fun v => .struct
  c!"VEvent" [(c!"dtstamp", dbg v.dtstamp), (c!"uid", dbg v.uid), (c!"dtstart", dbg v.dtstart), (c!"class", dbg v.class_),
    (c!"created", dbg v.created), (c!"description", dbg v.description), (c!"geo", dbg v.geo), (c!"last_modified", dbg v.lastModified),
    (c!"location", dbg v.location), (c!"organizer", dbg v.organizer), (c!"priority", dbg v.priority), (c!"sequence", dbg v.sequence),
    (c!"status", dbg v.status), (c!"summary", dbg v.summary), (c!"transp", dbg v.transp), (c!"url", dbg v.url), (c!"recurid", dbg v.recurid),
    (c!"rrule", dbg v.rrule), (c!"dtend", dbg v.dtend), (c!"duration", dbg v.duration), (c!"attach", dbg v.attach), (c!"attendee", dbg v.attendee),
    (c!"categories", dbg v.categories), (c!"comment", dbg v.comment), (c!"contact", dbg v.contact), (c!"exdate", dbg v.exdate),
    (c!"rstatus", dbg v.rstatus), (c!"related_to", dbg v.relatedTo), (c!"resources", dbg v.resources), (c!"rdate", dbg v.rdate),
    (c!"alarms", dbg v.alarms), (c!"x_prop", dbg v.xProp), (c!"iana_prop", dbg v.ianaProp)]⟩
/-- `derive(Debug)` (`src/components/vfreebusy.rs:4`). -/
instance : Dbg VFreebusy := ⟨fun v => .struct
  c!"VFreebusy" [(c!"dtstamp", dbg v.dtstamp), (c!"uid", dbg v.uid), (c!"contact", dbg v.contact), (c!"dtstart", dbg v.dtstart),
    (c!"dtend", dbg v.dtend), (c!"organizer", dbg v.organizer), (c!"url", dbg v.url), (c!"attendee", dbg v.attendee), (c!"comment", dbg v.comment),
    (c!"freebusy", dbg v.freebusy), (c!"rstatus", dbg v.rstatus), (c!"x_prop", dbg v.xProp), (c!"iana_prop", dbg v.ianaProp)]⟩
/-- `derive(Debug)` (`src/components/vjournal.rs:4`). -/
instance : Dbg VJournal := ⟨fun v => .struct
  c!"VJournal" [(c!"dtstamp", dbg v.dtstamp), (c!"uid", dbg v.uid), (c!"class", dbg v.class_), (c!"created", dbg v.created),
    (c!"dtstart", dbg v.dtstart), (c!"last_modified", dbg v.lastModified), (c!"organizer", dbg v.organizer), (c!"recurid", dbg v.recurid),
    (c!"sequence", dbg v.sequence), (c!"status", dbg v.status), (c!"summary", dbg v.summary), (c!"url", dbg v.url), (c!"rrule", dbg v.rrule),
    (c!"attach", dbg v.attach), (c!"attendee", dbg v.attendee), (c!"categories", dbg v.categories), (c!"comment", dbg v.comment),
    (c!"contact", dbg v.contact), (c!"description", dbg v.description), (c!"exdate", dbg v.exdate), (c!"related_to", dbg v.relatedTo),
    (c!"rdate", dbg v.rdate), (c!"rstatus", dbg v.rstatus), (c!"x_prop", dbg v.xProp), (c!"iana_prop", dbg v.ianaProp)]⟩
/-- `derive(Debug)` (`src/components/vtimezone.rs:36`). -/
instance : Dbg Standard := ⟨fun v => .struct
  c!"Standard" [(c!"dtstart", dbg v.dtstart), (c!"tzoffsetto", dbg v.tzoffsetto), (c!"tzoffsetfrom", dbg v.tzoffsetfrom), (c!"rrule", dbg v.rrule),
    (c!"comment", dbg v.comment), (c!"rdate", dbg v.rdate), (c!"tzname", dbg v.tzname), (c!"x_prop", dbg v.xProp),
    (c!"iana_prop", dbg v.ianaProp)]⟩
/-- `derive(Debug)` (`src/components/vtimezone.rs:36`). -/
instance : Dbg Daylight := ⟨fun v => .struct
  c!"Daylight" [(c!"dtstart", dbg v.dtstart), (c!"tzoffsetto", dbg v.tzoffsetto), (c!"tzoffsetfrom", dbg v.tzoffsetfrom), (c!"rrule", dbg v.rrule),
    (c!"comment", dbg v.comment), (c!"rdate", dbg v.rdate), (c!"tzname", dbg v.tzname), (c!"x_prop", dbg v.xProp),
    (c!"iana_prop", dbg v.ianaProp)]⟩
/-- `derive(Debug)` (`src/components/vtimezone.rs:6`). -/
instance : Dbg VTimezone := ⟨fun v => .struct
  c!"VTimezone" [(c!"tzid", dbg v.tzid), (c!"last_modified", dbg v.lastModified), (c!"tzurl", dbg v.tzurl), (c!"standard", dbg v.standard),
    (c!"daylight", dbg v.daylight), (c!"x_prop", dbg v.xProp), (c!"iana_prop", dbg v.ianaProp)]⟩
/-- `derive(Debug)` (`src/components/vtodo.rs:4`). -/
instance : Dbg VTodo := ⟨fun v => .struct
  c!"VTodo" [(c!"dtstamp", dbg v.dtstamp), (c!"uid", dbg v.uid), (c!"class", dbg v.class_), (c!"completed", dbg v.completed),
    (c!"created", dbg v.created), (c!"dtstart", dbg v.dtstart), (c!"geo", dbg v.geo), (c!"last_modified", dbg v.lastModified),
    (c!"location", dbg v.location), (c!"organizer", dbg v.organizer), (c!"percent_complete", dbg v.percentComplete), (c!"priority", dbg v.priority),
    (c!"recurid", dbg v.recurid), (c!"sequence", dbg v.sequence), (c!"status", dbg v.status), (c!"summary", dbg v.summary), (c!"url", dbg v.url),
    (c!"rrule", dbg v.rrule), (c!"due", dbg v.due), (c!"duration", dbg v.duration), (c!"attach", dbg v.attach), (c!"attendee", dbg v.attendee),
    (c!"categories", dbg v.categories), (c!"comment", dbg v.comment), (c!"contact", dbg v.contact), (c!"exdate", dbg v.exdate),
    (c!"rstatus", dbg v.rstatus), (c!"related_to", dbg v.relatedTo), (c!"resources", dbg v.resources), (c!"rdate", dbg v.rdate),
    (c!"x_prop", dbg v.xProp), (c!"iana_prop", dbg v.ianaProp)]⟩
/-- `derive(Debug)` (`src/components/vcalendar.rs:4`). -/
instance : Dbg VCalendar := ⟨fun v => .struct
  c!"VCalendar" [(c!"prodid", dbg v.prodid), (c!"version", dbg v.version), (c!"calscale", dbg v.calscale), (c!"method", dbg v.method),
    (c!"alarms", dbg v.alarms), (c!"events", dbg v.events), (c!"freebusy", dbg v.freebusy), (c!"journals", dbg v.journals), (c!"todo", dbg v.todo),
    (c!"timezones", dbg v.timezones), (c!"x_prop", dbg v.xProp), (c!"iana_prop", dbg v.ianaProp)]⟩

end

end Ikal
