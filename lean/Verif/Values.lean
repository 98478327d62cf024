import Verif.Line

/-!
# Property values: types, `Display`/`FromStr`, comparison, and the value parsers

`src/properties/*.rs`, `src/parser/{datatype,alarm,change,datetime,descriptive,misc,properties,
recurrence,relationship,timezone}.rs`, `src/parser/mod.rs:150-183` and `src/lib.rs:126-181`
(`parse_duration`).
-/

namespace Ikal

open Nom

/-! ## Date-times (`src/properties/date.rs:1-149`) -/

/-- `DateTime` (`src/properties/date.rs:1-5`).  `chrono::DateTime<Local>` is modelled by its UTC
instant; chrono also stores the offset, which is the zone's offset at that instant, and compares
(`==`) instants only. -/
inductive DateTime where
  | naive (t : NaiveDateTime)
  | loc (utc : NaiveDateTime)
  deriving DecidableEq, Repr

section
variable [Platform]

/-- The wall-clock time of an instant (`chrono::DateTime::<Local>::overflowing_naive_local`, which formatting and date arithmetic use): it may be
just outside the range of years. -/
def localOf (utc : NaiveDateTime) : NaiveDateTime := utc.shift (Platform.tzOffset utc.toSecs)

/-- The instant at which a zone with a given offset shows a wall-clock time (`NaiveDateTime::checked_sub_offset`); `none` out of range. -/
def utcOf (t : NaiveDateTime) (off : Int) : Option NaiveDateTime :=
  if (t.shift (-off)).date.representable then some (t.shift (-off)) else none

/-- `naive.and_local_timezone(Local).single()` (`unwrap()` at `src/properties/date.rs:120` panics on
`None`, i.e. when the local time is skipped or ambiguous, or the instant is out of range). -/
def localSingle (t : NaiveDateTime) : Option NaiveDateTime :=
  match Platform.tzLocal t.toSecs with
  | .single off => utcOf t off
  | _ => none

/-- `naive.and_local_timezone(Local).earliest()`; an ambiguous time counts only if both instants are in range. -/
def localEarliest (t : NaiveDateTime) : Option NaiveDateTime :=
  match Platform.tzLocal t.toSecs with
  | .single off => utcOf t off
  | .ambiguous a b => do
    let u ← utcOf t a
    let _ ← utcOf t b
    pure u
  | .none => none

namespace DateTime

/-- The wall-clock time of a date-time. -/
def toNaive : DateTime → NaiveDateTime
  | naive t => t
  | loc u => localOf u

/-- Can the wall-clock time be represented?  If not, `chrono::DateTime::<Local>::naive_local` and `date_naive` panic. -/
def shown : DateTime → Bool
  | naive _ => true
  | loc u => (localOf u).date.representable

/-- `DateTime::naive` (`src/properties/date.rs:27-33`) and `From<DateTime> for NaiveDateTime`
(`src/properties/date.rs:62-69`); `none` is a panic. -/
def naive? (d : DateTime) : Option NaiveDateTime := if d.shown then some d.toNaive else none

/-- The day of the wall-clock time. -/
def dateNaive (d : DateTime) : NaiveDate := d.toNaive.date

/-- `DateTime::date_naive` (`src/properties/date.rs:8-14`); `none` is a panic. -/
def dateNaive? (d : DateTime) : Option NaiveDate := if d.shown then some d.dateNaive else none

/-- `Default for DateTime` (`src/properties/date.rs:36-40`). -/
def default : DateTime := naive NaiveDateTime.epoch

/-- `TryFrom<DateTime> for chrono::DateTime<Local>` (`src/properties/date.rs:71-83`), as the UTC
instant. -/
def toLocal : DateTime → Res NaiveDateTime
  | naive t => Res.ofOption .localTime (localEarliest t)
  | loc u => .ok u

/-- `Sub for DateTime` (`src/properties/date.rs:85-91`); `none` is a panic. -/
def since? (a b : DateTime) : Option TimeDelta := do
  let x ← a.naive?
  let y ← b.naive?
  pure (x.since y)

/-- `Sub<Duration> for DateTime` (`src/properties/date.rs:93-99`); `none` is a panic. -/
def subDur (a : DateTime) (d : TimeDelta) : Option NaiveDateTime := do (← a.naive?).sub d

/-- `Display for DateTime` (`src/properties/date.rs:101-108`): the local wall-clock time with a `Z`
for the `Local` variant. -/
def toStr : DateTime → Str
  | naive t => t.toStr
  | loc u => (localOf u).toStr ++ ['Z']

/-- `FromStr for DateTime` (`src/properties/date.rs:110-124`). -/
def ofStr (s : Str) : Res DateTime :=
  match parseNaiveDateTime [] s with
  | some t => .ok (naive t)
  | none =>
    match parseNaiveDateTime ['Z'] s with
    | none => .err .date
    | some t => (Res.unwrap (localSingle t)).map loc

/-- The order of the wall-clock times. -/
def cmp (a b : DateTime) : Ordering := a.toNaive.cmp b.toNaive

/-- `Ord for DateTime` (`src/properties/date.rs:126-136`); `none` is a panic. -/
def cmp? (a b : DateTime) : Option Ordering := do
  let x ← a.naive?
  let y ← b.naive?
  pure (x.cmp y)

/-- `Add<TimeDelta> for DateTime` (`src/properties/date.rs:138-147`); `none` is a panic. -/
def addDur (a : DateTime) (d : TimeDelta) : Option DateTime :=
  match a with
  | naive t => (t.add d).map naive
  | loc u => (u.add d).map loc

end DateTime

/-- `ical_for_tostring!(DateTime)` (`src/properties/date.rs:149`). -/
instance : Ser DateTime where ical d := .ok d.toStr

/-! ## Dates (`src/properties/date.rs:151-282`) -/

/-- `Date` (`src/properties/date.rs:151-155`). -/
inductive Date where
  | date (d : NaiveDate)
  | dateTime (t : DateTime)
  deriving DecidableEq, Repr

namespace Date

/-- The day of a date, by the wall clock. -/
def dateNaive : Date → NaiveDate
  | date d => d
  | dateTime t => t.dateNaive

/-- Can the day be represented? -/
def shown : Date → Bool
  | date _ => true
  | dateTime t => t.shown

/-- `Date::date_naive` (`src/properties/date.rs:158-164`) and `From<Date> for NaiveDate`
(`src/properties/date.rs:234-241`); `none` is a panic. -/
def dateNaive? : Date → Option NaiveDate
  | date d => some d
  | dateTime t => t.dateNaive?

/-- `Date::has_time` (`src/properties/date.rs:177-180`). -/
def hasTime : Date → Bool
  | date _ => false
  | dateTime _ => true

/-- `Default for Date` (`src/properties/date.rs:183-187`). -/
def default : Date := dateTime DateTime.default

/-- `From<Date> for DateTime` (`src/properties/date.rs:42-49`). -/
def toDateTime : Date → DateTime
  | date d => .naive (NaiveDateTime.midnight d)
  | dateTime t => t

/-- `FromStr for Date` (`src/properties/date.rs:189-199`). -/
def ofStr (s : Str) : Res Date :=
  match parseNaiveDate s with
  | some d => .ok (date d)
  | none => (DateTime.ofStr s).map dateTime

/-- `Display for Date` (`src/properties/date.rs:201-208`). -/
def toStr : Date → Str
  | date d => d.toStr
  | dateTime t => t.toStr

/-- The order of dates: by wall-clock time if both have one, otherwise by day. -/
def cmp : Date → Date → Ordering
  | date a, date b => a.cmp b
  | dateTime a, dateTime b => a.cmp b
  | date a, dateTime b => a.cmp b.dateNaive
  | dateTime a, date b => a.dateNaive.cmp b

/-- `Ord for Date` (`src/properties/date.rs:243-258`); `none` is a panic. -/
def cmp? : Date → Date → Option Ordering
  | date a, date b => some (a.cmp b)
  | dateTime a, dateTime b => a.cmp? b
  | date a, dateTime b => do pure (a.cmp (← b.dateNaive?))
  | dateTime a, date b => do pure ((← a.dateNaive?).cmp b)

/-- Is the first date before the second, by the wall clock? -/
def lt (a b : Date) : Bool := a.cmp b = .lt

/-- `<` on dates; `none` is a panic. -/
def lt? (a b : Date) : Option Bool := (a.cmp? b).map fun o => o = .lt

/-- `Add<TimeDelta> for Date` (`src/properties/date.rs:260-269`); `none` is a panic.
`NaiveDate + TimeDelta` adds the whole days of the duration, rounded towards zero. -/
def addDur (a : Date) (d : TimeDelta) : Option Date :=
  match a with
  | date x => (x.addDays (d.numSeconds.tdiv 86400)).map date
  | dateTime t => (t.addDur d).map dateTime

end Date

/-- `impl Serialize for Date` (`src/properties/date.rs:271-282`). -/
instance : Ser Date where
  attr d := match d with
    | .date _ => some c!"VALUE=DATE"
    | .dateTime _ => none
  ical d := .ok d.toStr

/-! ## Names (`status.rs`, `time_transparency.rs`, `recur.rs`, `class.rs`) -/

/-- `Status` (`src/properties/status.rs:5-22`). -/
inductive Status where
  | tentative | confirmed | cancelled | needsAction | completed | inProcess | draft | final
  deriving DecidableEq, Repr

/-- `FromStr for Status` (`src/properties/status.rs:40-59`). -/
def Status.ofStr (s : Str) : Res Status :=
  if s = c!"TENTATIVE" then .ok .tentative
  else if s = c!"CONFIRMED" then .ok .confirmed
  else if s = c!"CANCELLED" then .ok .cancelled
  else if s = c!"NEEDS-ACTION" then .ok .needsAction
  else if s = c!"COMPLETED" then .ok .completed
  else if s = c!"IN-PROCESS" then .ok .inProcess
  else if s = c!"DRAFT" then .ok .draft
  else if s = c!"FINAL" then .ok .final
  else .err (.status s)

/-- `Display for Status` (`src/properties/status.rs:61-76`). -/
def Status.toStr : Status → Str
  | .tentative => c!"TENTATIVE"
  | .confirmed => c!"CONFIRMED"
  | .cancelled => c!"CANCELLED"
  | .needsAction => c!"NEEDS-ACTION"
  | .completed => c!"COMPLETED"
  | .inProcess => c!"IN-PROCESS"
  | .draft => c!"DRAFT"
  | .final => c!"FINAL"

instance : Ser Status where ical v := .ok v.toStr

/-- `TimeTransparency` (`src/properties/time_transparency.rs:5-10`). -/
inductive TimeTransparency where
  | opaque | transparent
  deriving DecidableEq, Repr

/-- `FromStr for TimeTransparency` (`src/properties/time_transparency.rs:28-41`). -/
def TimeTransparency.ofStr (s : Str) : Res TimeTransparency :=
  if s = c!"OPAQUE" then .ok .opaque
  else if s = c!"TRANSPARENT" then .ok .transparent
  else .err (.timeTransparency s)

/-- `Display for TimeTransparency` (`src/properties/time_transparency.rs:43-52`). -/
def TimeTransparency.toStr : TimeTransparency → Str
  | .opaque => c!"OPAQUE"
  | .transparent => c!"TRANSPARENT"

instance : Ser TimeTransparency where ical v := .ok v.toStr

/-- `Freq` (`src/properties/recur.rs:138-148`), in increasing order. -/
inductive Freq where
  | secondly | minutely | hourly | daily | weekly | monthly | yearly
  deriving DecidableEq, Repr

/-- Position in the derived order of `Freq`. -/
def Freq.rank : Freq → Nat
  | .secondly => 0
  | .minutely => 1
  | .hourly => 2
  | .daily => 3
  | .weekly => 4
  | .monthly => 5
  | .yearly => 6

/-- `FromStr for Freq` (`src/properties/recur.rs:166-184`). -/
def Freq.ofStr (s : Str) : Res Freq :=
  if s = c!"SECONDLY" then .ok .secondly
  else if s = c!"MINUTELY" then .ok .minutely
  else if s = c!"HOURLY" then .ok .hourly
  else if s = c!"DAILY" then .ok .daily
  else if s = c!"WEEKLY" then .ok .weekly
  else if s = c!"MONTHLY" then .ok .monthly
  else if s = c!"YEARLY" then .ok .yearly
  else .err (.freq s)

/-- `Display for Freq` (`src/properties/recur.rs:186-200`). -/
def Freq.toStr : Freq → Str
  | .secondly => c!"SECONDLY"
  | .minutely => c!"MINUTELY"
  | .hourly => c!"HOURLY"
  | .daily => c!"DAILY"
  | .weekly => c!"WEEKLY"
  | .monthly => c!"MONTHLY"
  | .yearly => c!"YEARLY"

instance : Ser Freq where ical v := .ok v.toStr

/-- `Weekday` (`src/properties/recur.rs:248-257`). -/
inductive Weekday where
  | sunday | monday | tuesday | wednesday | thursday | friday | saturday
  deriving DecidableEq, Repr

/-- `Display for Weekday` (`src/properties/recur.rs:285-299`). -/
def Weekday.toStr : Weekday → Str
  | .sunday => c!"SU"
  | .monday => c!"MO"
  | .tuesday => c!"TU"
  | .wednesday => c!"WE"
  | .thursday => c!"TH"
  | .friday => c!"FR"
  | .saturday => c!"SA"

instance : Ser Weekday where ical v := .ok v.toStr

/-- The match in `weekday` (`src/parser/mod.rs:156-169`). -/
def Weekday.ofChars (a b : Char) : Res Weekday :=
  if a = 'S' ∧ b = 'U' then .ok .sunday
  else if a = 'M' ∧ b = 'O' then .ok .monday
  else if a = 'T' ∧ b = 'U' then .ok .tuesday
  else if a = 'W' ∧ b = 'E' then .ok .wednesday
  else if a = 'T' ∧ b = 'H' then .ok .thursday
  else if a = 'F' ∧ b = 'R' then .ok .friday
  else if a = 'S' ∧ b = 'A' then .ok .saturday
  else .err (.weekday [a, b])

/-- `weekday` (`src/parser/mod.rs:150-172`): `count(anychar, 2)` is `pair anychar anychar`. -/
def weekday : P Weekday := mapRes (pair anychar anychar) fun (a, b) => Weekday.ofChars a b

/-- `FromStr for Weekday` (`src/properties/recur.rs:275-283`). -/
def Weekday.ofStr (s : Str) : Res Weekday := (weekday s).toRes

/-- `WeekdayNum` (`src/properties/recur.rs:204-208`). -/
structure WeekdayNum where
  weekday : Weekday
  ord : Option Int
  deriving DecidableEq, Repr

/-- `weekdaynum` (`src/parser/mod.rs:174-183`). -/
def weekdaynum : P WeekdayNum := map (pair (opt nomI8) weekday) fun (o, w) => ⟨w, o⟩

/-- `FromStr for WeekdayNum` (`src/properties/recur.rs:226-234`). -/
def WeekdayNum.ofStr (s : Str) : Res WeekdayNum := (weekdaynum s).toRes

/-- `Display for WeekdayNum` (`src/properties/recur.rs:236-244`). -/
def WeekdayNum.toStr (w : WeekdayNum) : Str :=
  (match w.ord with
  | some n => intStr n
  | none => []) ++ w.weekday.toStr

instance : Ser WeekdayNum where ical v := .ok v.toStr

/-- `Class` (`src/properties/class.rs:5-11`). -/
inductive Class where
  | pub | priv | confidential
  | custom (s : Str)
  deriving DecidableEq, Repr

/-- `FromStr for Class` (`src/properties/class.rs:29-42`). -/
def Class.ofStr (s : Str) : Res Class :=
  if s = c!"PUBLIC" then .ok .pub
  else if s = c!"PRIVATE" then .ok .priv
  else if s = c!"CONFIDENTIAL" then .ok .confidential
  else .ok (.custom s)

/-- `Display for Class` (`src/properties/class.rs:44-55`). -/
def Class.toStr : Class → Str
  | .pub => c!"PUBLIC"
  | .priv => c!"PRIVATE"
  | .confidential => c!"CONFIDENTIAL"
  | .custom s => upperStr s

instance : Ser Class where ical v := .ok v.toStr

/-! ## Texts and URIs -/

/-- `Text` (`src/properties/text.rs:7-10`). -/
structure Text where
  params : SMap Str
  text : Str
  deriving DecidableEq, Repr

/-- `Text::from` (`src/properties/text.rs:13-18`). -/
def Text.ofStr (s : Str) : Text := ⟨[], s⟩

/-- `From<ContentLine> for Text` (`src/properties/text.rs:21-28`). -/
def Text.ofLine (l : ContentLine) : Text := ⟨l.params, l.value⟩

/-- `impl Serialize for Text` (`src/properties/text.rs:59-71`). -/
instance : Ser Text where
  ical t := .ok (escape t.text)
  attr t := paramsAttr t.params

/-- `Uri` (`src/properties/uri.rs:7-10`). -/
structure Uri where
  params : SMap Str
  uri : Str
  deriving DecidableEq, Repr

/-- `From<ContentLine> for Uri` (`src/properties/uri.rs:12-19`). -/
def Uri.ofLine (l : ContentLine) : Uri := ⟨l.params, l.value⟩

/-- `impl Serialize for Uri` (`src/properties/uri.rs:53-65`). -/
instance : Ser Uri where
  ical t := .ok (escape t.uri)
  attr t := paramsAttr t.params

/-! ## Geographic position and request status -/

/-- `nom::number::complete::float` through the platform. -/
def float : P Platform.F32 := fun i =>
  match Platform.floatParse i with
  | some (x, r) => .ok r x
  | none => .err

/-- `Geo` (`src/properties/geo.rs:5-8`). -/
structure Geo where
  lat : Platform.F32
  lon : Platform.F32

/-- `geo` (`src/parser/descriptive.rs:43-56`). -/
def geo (l : ContentLine) : Res Geo :=
  (map (separatedPair float (char ';') float) (fun (a, b) => (⟨a, b⟩ : Geo)) l.value).toRes

/-- `Display for Geo` (`src/properties/geo.rs:34-38`). -/
def Geo.toStr (g : Geo) : Str := Platform.floatShow g.lat ++ ';' :: Platform.floatShow g.lon

instance : Ser Geo where ical g := .ok g.toStr

/-- `RequestStatus` (`src/properties/request_status.rs:5-9`). -/
structure RequestStatus where
  statcode : Platform.F32
  statdesc : Str
  extdata : Option Str

/-- `rstatus` (`src/parser/misc.rs:8-44`). -/
def rstatus (l : ContentLine) : Res RequestStatus :=
  (map (pair float (pair (char ';') (pair (takeTill fun c => c = ';')
      (opt (preceded (char ';') (takeWhile fun _ => true))))))
    (fun (c, _, d, e) => (⟨c, d, e⟩ : RequestStatus)) l.value).toRes

/-- `impl Serialize for RequestStatus` (`src/properties/request_status.rs:35-50`). -/
instance : Ser RequestStatus where
  ical r := .ok (Platform.floatShow1 r.statcode ++ ';' :: (escape r.statdesc ++ (match r.extdata with
    | some e => ';' :: escape e
    | none => [])))

/-! ## Date and duration parsers (`src/parser/datatype.rs`) -/

/-- `date` (`src/parser/datatype.rs:21-31`). -/
def date : P NaiveDate := fun i =>
  match parseNaiveDate i with
  | some d => .ok [] d
  | none => .err

/-- `str::trim_end_matches('Z')`. -/
def trimEndZ (s : Str) : Str := (s.reverse.dropWhile (· = 'Z')).reverse

/-- `date_time` (`src/parser/datatype.rs:36-56`): all trailing `Z`s are dropped; with at least one the
time is UTC. -/
def dateTime : P DateTime := fun i =>
  match parseNaiveDateTime [] (trimEndZ i) with
  | some t => if i.getLast? = some 'Z' then .ok [] (.loc t) else .ok [] (.naive t)
  | none => .err

/-- `date_or_dt` (`src/parser/datatype.rs:58-67`). -/
def dateOrDt : P Date := alt (map date .date) (map dateTime .dateTime)

/-- `week`, `day`, `hour`, `minute`, `seconde` (`src/parser/datatype.rs:73-128`): digits and a letter,
the digits parsed as `i64`. -/
def durUnit (u : Char) : P Int :=
  mapRes (terminated digits (tag [u])) fun s => Res.ofOption .parseInt (parseI64 s)

/-- `time` (`src/parser/datatype.rs:89-104`). -/
def durTime : P (Int × Int × Int) :=
  map (preceded (tag ['T']) (pair (opt (durUnit 'H')) (pair (opt (durUnit 'M')) (opt (durUnit 'S')))))
    fun (h, i, s) => (h.getD 0, i.getD 0, s.getD 0)

/-- The arithmetic of `duration` (`src/parser/datatype.rs:137-149`); `none` is a panic of
`Duration::weeks` etc. or of `+`. -/
def durSum (neg : Bool) (w d : Int) (t : Option (Int × Int × Int)) : Option TimeDelta := do
  let w ← TimeDelta.weeks w
  let d ← TimeDelta.days d
  let a ← w.add d
  let b ← match t with
    | some (h, i, s) => do
      let h ← TimeDelta.hours h
      let a ← a.add h
      let i ← TimeDelta.minutes i
      let a ← a.add i
      let s ← TimeDelta.seconds s
      a.add s
    | none => some a
  pure (if neg then b.neg else b)

/-- `duration` (`src/parser/datatype.rs:72-153`). -/
def durationP : P TimeDelta :=
  mapRes (pair (opt (tag ['-'])) (preceded (tag ['P'])
      (pair (opt (durUnit 'W')) (pair (opt (durUnit 'D')) (opt durTime)))))
    fun (neg, w, d, t) => Res.unwrap (durSum neg.isSome (w.getD 0) (d.getD 0) t)

/-- `duration` (`src/parser/datetime.rs:44-48`). -/
def duration (l : ContentLine) : Res TimeDelta := (durationP l.value).toRes

/-! ## Triggers -/

/-- `Trigger` (`src/properties/trigger.rs:6-9`). -/
inductive Trigger where
  | dateTime (t : DateTime)
  | duration (d : TimeDelta)
  deriving DecidableEq, Repr

/-- `Default for Trigger` (`src/properties/trigger.rs:11-15`). -/
def Trigger.default : Trigger := .duration TimeDelta.zero

/-- `trigger` (`src/parser/alarm.rs:22-34`). -/
def trigger (l : ContentLine) : Res Trigger :=
  (alt (map durationP .duration) (map Ikal.dateTime .dateTime) l.value).toRes

/-- `impl Serialize for Trigger` (`src/properties/trigger.rs:36-52`). -/
instance : Ser Trigger where
  ical t := match t with
    | .dateTime d => .ok d.toStr
    | .duration d => .ok d.toStr
  attr t := match t with
    | .dateTime _ => some c!"VALUE=DATE-TIME"
    | .duration _ => some c!"VALUE=DURATION"

/-- Two's complement wrapping to 64 bits (integer overflow without overflow checks). -/
def wrapI64 (n : Int) : Int := (n + (i64Max + 1)) % (2 * (i64Max + 1)) - (i64Max + 1)

/-- `k * interval.parse::<i64>()?` of `parse_duration` (`src/lib.rs:160-161`): on overflow the
multiplication panics or wraps according to the build. -/
def mulI64 (k n : Int) : Res Int :=
  if -i64Max - 1 ≤ k * n ∧ k * n ≤ i64Max then .ok (k * n)
  else if Platform.overflowChecks then .panic
  else .ok (wrapI64 (k * n))

/-- One unit of `parse_duration` (`src/lib.rs:159-171`). -/
def macroUnit (time : Bool) (ty : Char) (interval : Str) : Res TimeDelta :=
  let n : Res Int := Res.ofOption .parseInt (parseI64 interval)
  if time = false ∧ ty = 'Y' then do
    let n ← n
    let n ← mulI64 365 n
    Res.unwrap (TimeDelta.days n)
  else if time = false ∧ ty = 'M' then do
    let n ← n
    let n ← mulI64 30 n
    Res.unwrap (TimeDelta.days n)
  else if time = false ∧ ty = 'D' then do Res.unwrap (TimeDelta.days (← n))
  else if time = true ∧ ty = 'H' then do Res.unwrap (TimeDelta.hours (← n))
  else if time = true ∧ ty = 'M' then do Res.unwrap (TimeDelta.minutes (← n))
  else if time = true ∧ ty = 'S' then do Res.unwrap (TimeDelta.seconds (← n))
  else .err .parseDuration

/-- The loop of `parse_duration` (`src/lib.rs:144-174`).  `interval` is never cleared. -/
def macroDurLoop (time : Bool) (interval : Str) (acc : TimeDelta) : Str → Res TimeDelta
  | [] => .ok acc
  | c :: r =>
    if c = 'T' then macroDurLoop true interval acc r
    else if c.isDigit then macroDurLoop time (interval ++ [c]) acc r
    else do
      let part ← macroUnit time c interval
      let acc ← Res.unwrap (acc.add part)
      macroDurLoop time interval acc r

/-- `parse_duration` (`src/lib.rs:126-181`). -/
def parseDuration (s : Str) : Res TimeDelta :=
  let (neg, r) := match s with
    | '-' :: r => (true, r)
    | _ => (false, s)
  match r with
  | 'P' :: r => (macroDurLoop false [] TimeDelta.zero r).map fun d => if neg then d.neg else d
  | _ => .err .parseDuration

/-- `FromStr for Trigger` (`src/properties/trigger.rs:24-34`). -/
def Trigger.ofStr (s : Str) : Res Trigger :=
  match DateTime.ofStr s with
  | .ok t => .ok (.dateTime t)
  | .err _ => (parseDuration s).map .duration
  | .panic => .panic

/-! ## Periods -/

/-- `Period` (`src/properties/period.rs:5-8`, with `StartEnd` and `StartDur`). -/
inductive Period where
  | startEnd (start end_ : DateTime)
  | startDur (start : DateTime) (duration : TimeDelta)
  deriving DecidableEq, Repr

/-- `str::splitn(2, '/')` as the part before the first `/` and, if there is one, the part after. -/
def splitSlash (s : Str) : Str × Option Str :=
  match s.dropWhile (· ≠ '/') with
  | [] => (s, none)
  | _ :: r => (s.takeWhile (· ≠ '/'), some r)

/-- `period` (`src/parser/datatype.rs:158-176`); indexing `tokens[1]` panics without a `/`. -/
def period (s : Str) : Res Period := do
  let (a, b) := splitSlash s
  let start ← (dateTime a).toRes
  match b with
  | none => .panic
  | some b =>
    if b.head? = some 'P' then do
      let d ← duration (ContentLine.ofValue b)
      pure (.startDur start d)
    else do
      let e ← (dateTime b).toRes
      pure (.startEnd start e)

namespace Period

/-- `Period::duration` (`src/properties/period.rs:12-17`); `none` is a panic. -/
def length? : Period → Option TimeDelta
  | startEnd s e => e.since? s
  | startDur _ d => some d

/-- `Ord for Period` (`src/properties/period.rs:50-54`); `none` is a panic. -/
def cmp? (a b : Period) : Option Ordering := do
  let x ← a.length?
  let y ← b.length?
  pure (x.cmp y)

/-- `Display for Period` (`src/properties/period.rs:56-65,90-94,119-123`). -/
def toStr : Period → Str
  | startEnd s e => s.toStr ++ '/' :: e.toStr
  | startDur s d => s.toStr ++ '/' :: d.toStr

end Period

/-- `Ord for StartEnd` (`src/properties/period.rs:81-88`); `none` is a panic. -/
def startEndCmp (a b : DateTime × DateTime) : Option Ordering := do
  let x ← a.2.since? a.1
  let y ← b.2.since? b.1
  pure (x.cmp y)

/-- `Ord for StartDur` (`src/properties/period.rs:110-117`); `none` is a panic. -/
def startDurCmp (a b : DateTime × TimeDelta) : Option Ordering := do
  let x ← a.1.subDur a.2
  let y ← b.1.subDur b.2
  pure (x.cmp y)

instance : Ser Period where ical p := .ok p.toStr

/-! ## Recurrence dates -/

/-- `RDate` (`src/properties/rdate.rs:2-5`). -/
inductive RDate where
  | date (l : List Date)
  | period (l : List Period)
  deriving DecidableEq, Repr

/-- `Display for RDate` (`src/properties/rdate.rs:20-42`). -/
def RDate.toStr : RDate → Str
  | .date l => c!"VALUE=DATE:" ++ join [','] (l.map Date.toStr)
  | .period l => c!"VALUE=PERIOD:" ++ join [','] (l.map Period.toStr)

instance : Ser RDate where ical r := .ok r.toStr

/-- `exdate` (`src/parser/recurrence.rs:8-18`). -/
def exdate (l : ContentLine) : Res (List Date) :=
  Res.mapM' (fun s => (dateOrDt s).toRes) (splitOn ',' l.value)

/-- `rdate` (`src/parser/recurrence.rs:23-43`). -/
def rdate (l : ContentLine) : Res RDate :=
  if SMap.get? l.params c!"VALUE" = some c!"PERIOD" then
    (Res.mapM' period (splitOn ',' l.value)).map .period
  else
    (Res.mapM' (fun s => (dateOrDt s).toRes) (splitOn ',' l.value)).map .date

/-- `freebusy` (`src/parser/datetime.rs:53-59`). -/
def freebusy (l : ContentLine) : Res (List Period) := Res.mapM' period (splitOn ',' l.value)

/-! ## Recurrence rules -/

/-- `Recur` (`src/properties/recur.rs:7-31`). -/
structure Recur where
  freq : Freq
  until_ : Option Date
  count : Option Nat
  interval : Nat
  bySecond : List Int
  byMinute : List Int
  byHour : List Int
  byDay : List WeekdayNum
  byMonthday : List Int
  byYearday : List Int
  byWeekno : List Int
  byMonth : List Int
  bySetpos : List Int
  wkst : Option Weekday
  deriving DecidableEq, Repr

/-- `Default for Recur` (derived, `src/properties/recur.rs:6`): interval 0. -/
def Recur.default : Recur :=
  ⟨.daily, none, none, 0, [], [], [], [], [], [], [], [], [], none⟩

/-- One field of the derived `Serialize` (`derive/src/serialize.rs:45-50`). -/
def recurItem {α : Type} [Ser α] (name : Str) (v : α) : Res Str :=
  (Ser.ical v).map fun s => if s.isEmpty then [] else name ++ '=' :: (s ++ [';'])

/-- `#[derive(Serialize)]` on `Recur` (`derive/src/serialize.rs:58-65`, names from
`src/properties/recur.rs:7-31`); the last `;` is popped. -/
instance : Ser Recur where
  ical r := do
    let a ← recurItem c!"FREQ" r.freq
    let b ← recurItem c!"UNTIL" r.until_
    let c ← recurItem c!"COUNT" r.count
    let d ← recurItem c!"INTERVAL" r.interval
    let e ← recurItem c!"BYSECOND" r.bySecond
    let f ← recurItem c!"BYMINUTE" r.byMinute
    let g ← recurItem c!"BYHOUR" r.byHour
    let h ← recurItem c!"BYDAY" r.byDay
    let i ← recurItem c!"BYMONTHDAY" r.byMonthday
    let j ← recurItem c!"BYYEARDAY" r.byYearday
    let k ← recurItem c!"BYWEEKNO" r.byWeekno
    let l ← recurItem c!"BYMONTH" r.byMonth
    let m ← recurItem c!"BYSETPOS" r.bySetpos
    let n ← recurItem c!"WKST" r.wkst
    pure (a ++ b ++ c ++ d ++ e ++ f ++ g ++ h ++ i ++ j ++ k ++ l ++ m ++ n).dropLast

/-- `item` (`src/parser/recurrence.rs:57-66`). -/
def rruleItem : P (Str × Str) :=
  terminated (separatedPair key (char '=') (takeTill fun c => c = ';')) (opt (char ';'))

/-- `by` (`src/parser/recurrence.rs:68-74`). -/
def byList (s : Str) : Res (List Int) :=
  Res.mapM' (fun x => Res.ofOption .parseInt (parseI8 x)) (splitOn ',' s)

/-- `bywdaylist` (`src/parser/recurrence.rs:76-78`). -/
def bywdaylist (s : Str) : Res (List WeekdayNum) := Res.mapM' WeekdayNum.ofStr (splitOn ',' s)

/-- `map.get(name).map(f).transpose()?`. -/
def optItem {α : Type} (m : SMap Str) (name : Str) (f : Str → Res α) : Res (Option α) :=
  match SMap.get? m name with
  | some v => (f v).map some
  | none => .ok none

/-- The closure of `rrule` (`src/parser/recurrence.rs:82-129`); `map["FREQ"]` panics when absent. -/
def recurOfItems (items : List (Str × Str)) : Res Recur := do
  let m := SMap.ofPairs items
  let freq ← match SMap.get? m c!"FREQ" with
    | some v => Freq.ofStr v
    | none => .panic
  let until_ ← optItem m c!"UNTIL" fun s => (dateOrDt s).toRes
  let count ← optItem m c!"COUNT" fun s => Res.ofOption .parseInt (parseU8 s)
  let interval ← optItem m c!"INTERVAL" fun s => Res.ofOption .parseInt (parseU8 s)
  let bySecond ← optItem m c!"BYSECOND" byList
  let byMinute ← optItem m c!"BYMINUTE" byList
  let byHour ← optItem m c!"BYHOUR" byList
  let byDay ← optItem m c!"BYDAY" bywdaylist
  let byMonthday ← optItem m c!"BYMONTHDAY" byList
  let byYearday ← optItem m c!"BYYEARDAY" byList
  let byWeekno ← optItem m c!"BYWEEKNO" byList
  let byMonth ← optItem m c!"BYMONTH" byList
  let bySetpos ← optItem m c!"BYSETPOS" byList
  let wkst ← optItem m c!"WKST" Weekday.ofStr
  pure ⟨freq, until_, count, interval.getD 1, bySecond.getD [], byMinute.getD [], byHour.getD [],
    byDay.getD [], byMonthday.getD [], byYearday.getD [], byWeekno.getD [], byMonth.getD [],
    bySetpos.getD [], wkst⟩

/-- `rrule` (`src/parser/recurrence.rs:48-134`). -/
def rrule (l : ContentLine) : Res Recur := (mapRes (many1 rruleItem) recurOfItems l.value).toRes

/-- `FromStr for Recur` (`src/properties/recur.rs:49-55`). -/
def Recur.ofStr (s : Str) : Res Recur := rrule (ContentLine.ofValue s)

namespace Recur

/-- The `TimeDelta` of a rule with a fixed-length frequency (`src/properties/recur.rs:106-111`). -/
def fixedStep (r : Recur) : Option TimeDelta :=
  match r.freq with
  | .secondly => TimeDelta.seconds r.interval
  | .minutely => TimeDelta.minutes r.interval
  | .hourly => TimeDelta.hours r.interval
  | .daily => TimeDelta.days r.interval
  | .weekly => TimeDelta.weeks r.interval
  | _ => none

/-- `Add<NaiveDate> for Recur` (`src/properties/recur.rs:73-89`); `none` is a panic. -/
def addDate (r : Recur) (d : NaiveDate) : Option NaiveDate :=
  match r.freq with
  | .secondly | .minutely | .hourly => some d
  | .daily => d.addDays r.interval
  | .weekly => d.addDays (r.interval * 7)
  | .monthly => d.addMonths r.interval
  | .yearly => d.withYear (d.year + r.interval)

/-- `Add<NaiveDateTime> for Recur` (`src/properties/recur.rs:120-136`); `none` is a panic. -/
def addNaive (r : Recur) (t : NaiveDateTime) : Option NaiveDateTime :=
  match r.freq with
  | .monthly => t.addMonths r.interval
  | .yearly => t.withYear (t.date.year + r.interval)
  | _ => do t.add (← r.fixedStep)

/-- `Add<DateTime<Local>> for Recur` (`src/properties/recur.rs:102-118`), on the UTC instant; adding
months and changing the year work on the local wall-clock time and fail when the result is not a
single local time or its instant is out of range; chrono does not check the year of the wall clock if it does not change, and checks after
changing the year that the instant is between `DateTime::MIN_UTC` and `MAX_UTC` (which a leap second in the very last second is not).  `none` is a panic. -/
def addLocal (r : Recur) (u : NaiveDateTime) : Option NaiveDateTime :=
  match r.freq with
  | .monthly => do localSingle (← (localOf u).addMonths r.interval)
  | .yearly => do
    let t ← if r.interval = 0 then some (localOf u) else (localOf u).withYear ((localOf u).date.year + r.interval)
    let v ← localSingle t
    if v.cmp .MIN ≠ .lt ∧ v.cmp .MAX ≠ .gt then some v else none
  | _ => do u.add (← r.fixedStep)

/-- `Add<DateTime> for Recur` (`src/properties/recur.rs:91-100`). -/
def addDateTime (r : Recur) : DateTime → Option DateTime
  | .naive t => (r.addNaive t).map .naive
  | .loc u => (r.addLocal u).map .loc

/-- `Add<Date> for Recur` (`src/properties/recur.rs:57-72`); `none` is a panic. -/
def add (r : Recur) : Date → Option Date
  | .date d =>
    if Freq.daily.rank ≤ r.freq.rank then (r.addDate d).map .date
    else (r.addNaive (NaiveDateTime.midnight d)).map fun t => .dateTime (.naive t)
  | .dateTime t => (r.addDateTime t).map .dateTime

end Recur

/-! ## The remaining property parsers -/

/-- `created`, `dtstamp`, `last_modified` (`src/parser/change.rs:8-30`) and `completed`
(`src/parser/datetime.rs:8-12`). -/
def dateTimeProp (l : ContentLine) : Res DateTime := (dateTime l.value).toRes

/-- `dtend`, `due`, `dtstart` (`src/parser/datetime.rs:17-39`) and `recurid`
(`src/parser/relationship.rs:35-39`). -/
def dateProp (l : ContentLine) : Res Date := (dateOrDt l.value).toRes

/-- `sequence` (`src/parser/change.rs:35-37`), `repeat` (`src/parser/alarm.rs:15-17`). -/
def u32Prop (l : ContentLine) : Res Nat := Res.ofOption .parseInt (parseU32 l.value)

/-- `percent_complete` (`src/parser/descriptive.rs:68-70`). -/
def percentComplete (l : ContentLine) : Res Nat := Res.ofOption .parseInt (parseU8 l.value)

/-- `priority` (`src/parser/descriptive.rs:75-83`). -/
def priority (l : ContentLine) : Res Nat :=
  match parseU8 l.value with
  | none => .err .parseInt
  | some n => if n > 9 then .err (.priority n) else .ok n

/-- `status` (`src/parser/descriptive.rs:95-97`). -/
def status (l : ContentLine) : Res Status := Status.ofStr l.value

/-- `transp` (`src/parser/datetime.rs:64-66`). -/
def transp (l : ContentLine) : Res TimeTransparency := TimeTransparency.ofStr l.value

/-- `class` (`src/parser/descriptive.rs:22-24`). -/
def classProp (l : ContentLine) : Res Class := Class.ofStr l.value

/-- `attach`, `comment`, `description` (through `datatype::text`), `location`, `summary`
(`src/parser/descriptive.rs`), `action` (`src/parser/alarm.rs:8-10`), `contact`, `related_to`, `uid`
(`src/parser/relationship.rs`), `calscale`, `method`, `prodid`, `version`
(`src/parser/properties.rs`), `tzid`, `tzname` (`src/parser/timezone.rs`): all `Ok(input.into())`. -/
def textProp (l : ContentLine) : Res Text := .ok (Text.ofLine l)

/-- `url` (`src/parser/relationship.rs:51-53`), `tzurl` (`src/parser/timezone.rs:38-40`), and `attendee`,
`organizer` (`src/parser/relationship.rs:8-30`) whose `cal_address` is the identity
(`src/parser/datatype.rs:14-16,188-190`). -/
def uriProp (l : ContentLine) : Res Uri := .ok (Uri.ofLine l)

/-- `categories` (`src/parser/descriptive.rs:15-17`) and `resources`
(`src/parser/descriptive.rs:88-90`). -/
def textListProp (l : ContentLine) : Res (List Text) := .ok ((splitOn ',' l.value).map Text.ofStr)

/-- `tzoffsetfrom`, `tzoffsetto` (`src/parser/timezone.rs:22-33`). -/
def offsetProp (l : ContentLine) : Res FixedOffset := Res.ofOption .date (FixedOffset.parse l.value)

end

end Ikal
