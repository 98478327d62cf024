import Verif.Values

/-!
# `DateTime::format` and `Date::format` (`src/properties/date.rs:16-25,166-175`)

Both hand the format over to chrono: `NaiveDate::format`, `NaiveDateTime::format` and `chrono::DateTime::<Local>::format`, which make a `DelayedFormat`
out of a date, a time (not for dates) and an offset (only for `Local`) and of the items of the format (`StrftimeItems`).  Writing the result fails,
so that `to_string` panics, when an item is an error or asks for what is not there.

The directives are those of chrono 0.4.40 and later (`%q` is newer than the others).  What `%C` writes for a year outside 0 to 9999 is a parameter, it differs
between versions.  `%#z` is only for reading: writing it fails, or panics, in every version.
-/

namespace Ikal

/-- What a `DelayedFormat` is made of: a date, a time (second of the day, nanosecond) and an offset from UTC. -/
structure FormatArgs where
  date : NaiveDate
  time : Option (Nat × Nat)
  off : Option Int

/-- `chrono::format::Pad`. -/
inductive Pad where
  | none
  | zero
  | space
  deriving DecidableEq, Repr

/-- What `%C` writes for a year outside 0 to 9999. -/
class Centuries where
  text : Int → Pad → Str

/-- `chrono::format::Numeric`, those a format can ask for. -/
inductive NumItem where
  | year | yearDiv100 | isoYear | isoYearMod100 | quarter | weekFromSun | weekFromMon | isoWeek | yearMod100 | month | day | ordinal | weekdayFromMon | daysFromSun | hour | hour12 | minute | second | nanosecond | timestamp
  deriving DecidableEq, Repr

/-- `chrono::format::Fixed`, those a format can ask for, without RFC 3339, which is the same as a sequence of others; `fraction n dot`: `%.3f` and the like (`n = 0`: `%.f`). -/
inductive FixedItem where
  | shortMonth | longMonth | shortWeekday | longWeekday | lowerAmPm | upperAmPm | fraction (n : Nat) (dot : Bool) | zoneName | offset | offsetColon
  | offsetDoubleColon | offsetTripleColon
  deriving DecidableEq, Repr

/-- `chrono::format::Item`; literals and spaces are one character each (they are written as they are). -/
inductive FormatItem where
  | char (c : Char)
  | num (n : NumItem) (pad : Pad)
  | fixed (f : FixedItem)
  | error
  deriving DecidableEq, Repr

namespace Format

/-- The items of a directive of one character, after `%` (chrono: `StrftimeItems::parse_next_item`).  `%+` is one item of chrono, RFC 3339, which
`write_rfc3339` writes as these items do. -/
def letter : Char → List FormatItem
  | 'A' => [.fixed .longWeekday]
  | 'B' => [.fixed .longMonth]
  | 'C' => [.num .yearDiv100 .zero]
  | 'D' => [.num .month .zero, .char '/', .num .day .zero, .char '/', .num .yearMod100 .zero]
  | 'F' => [.num .year .zero, .char '-', .num .month .zero, .char '-', .num .day .zero]
  | 'G' => [.num .isoYear .zero]
  | 'H' => [.num .hour .zero]
  | 'I' => [.num .hour12 .zero]
  | 'M' => [.num .minute .zero]
  | 'P' => [.fixed .lowerAmPm]
  | 'R' => [.num .hour .zero, .char ':', .num .minute .zero]
  | 'S' => [.num .second .zero]
  | 'T' => [.num .hour .zero, .char ':', .num .minute .zero, .char ':', .num .second .zero]
  | 'U' => [.num .weekFromSun .zero]
  | 'V' => [.num .isoWeek .zero]
  | 'W' => [.num .weekFromMon .zero]
  | 'X' => [.num .hour .zero, .char ':', .num .minute .zero, .char ':', .num .second .zero]
  | 'Y' => [.num .year .zero]
  | 'Z' => [.fixed .zoneName]
  | 'a' => [.fixed .shortWeekday]
  | 'b' => [.fixed .shortMonth]
  | 'c' => [.fixed .shortWeekday, .char ' ', .fixed .shortMonth, .char ' ', .num .day .space, .char ' ', .num .hour .zero, .char ':',
      .num .minute .zero, .char ':', .num .second .zero, .char ' ', .num .year .zero]
  | 'd' => [.num .day .zero]
  | 'e' => [.num .day .space]
  | 'f' => [.num .nanosecond .zero]
  | 'g' => [.num .isoYearMod100 .zero]
  | 'h' => [.fixed .shortMonth]
  | 'j' => [.num .ordinal .zero]
  | 'k' => [.num .hour .space]
  | 'l' => [.num .hour12 .space]
  | 'm' => [.num .month .zero]
  | 'n' => [.char '\n']
  | 'p' => [.fixed .upperAmPm]
  | 'q' => [.num .quarter .zero]
  | 'r' => [.num .hour12 .zero, .char ':', .num .minute .zero, .char ':', .num .second .zero, .char ' ', .fixed .upperAmPm]
  | 's' => [.num .timestamp .none]
  | 't' => [.char '\t']
  | 'u' => [.num .weekdayFromMon .none]
  | 'v' => [.num .day .space, .char '-', .fixed .shortMonth, .char '-', .num .year .zero]
  | 'w' => [.num .daysFromSun .none]
  | 'x' => [.num .month .zero, .char '/', .num .day .zero, .char '/', .num .yearMod100 .zero]
  | 'y' => [.num .yearMod100 .zero]
  | 'z' => [.fixed .offset]
  | '+' => [.num .year .zero, .char '-', .num .month .zero, .char '-', .num .day .zero, .char 'T', .num .hour .zero, .char ':', .num .minute .zero,
      .char ':', .num .second .zero, .fixed (.fraction 0 true), .fixed .offsetColon]
  | '%' => [.char '%']
  | _ => [.error]

/-- The item with a padding modifier: only single numeric items can have one. -/
def repad (p : Pad) : List FormatItem → List FormatItem
  | [.num n _] => [.num n p]
  | _ => [.error]

/-- The items of the directive after a `%`, and the rest of the format.  (After an error chrono goes on elsewhere, but an error makes the whole fail.) -/
def directive : Str → List FormatItem × Str
  | [] => ([.error], [])
  | '-' :: c :: r => (repad .none (letter c), r)
  | '0' :: c :: r => (repad .zero (letter c), r)
  | '_' :: c :: r => (repad .space (letter c), r)
  | '#' :: r => ([.error], r)
  | ':' :: r =>
    match r with
    | ':' :: ':' :: 'z' :: r => ([.fixed .offsetTripleColon], r)
    | ':' :: 'z' :: r => ([.fixed .offsetDoubleColon], r)
    | 'z' :: r => ([.fixed .offsetColon], r)
    | r => ([.error], r)
  | '.' :: r =>
    match r with
    | 'f' :: r => ([.fixed (.fraction 0 true)], r)
    | '3' :: 'f' :: r => ([.fixed (.fraction 3 true)], r)
    | '6' :: 'f' :: r => ([.fixed (.fraction 6 true)], r)
    | '9' :: 'f' :: r => ([.fixed (.fraction 9 true)], r)
    | r => ([.error], r)
  | '3' :: r =>
    match r with
    | 'f' :: r => ([.fixed (.fraction 3 false)], r)
    | r => ([.error], r)
  | '6' :: r =>
    match r with
    | 'f' :: r => ([.fixed (.fraction 6 false)], r)
    | r => ([.error], r)
  | '9' :: r =>
    match r with
    | 'f' :: r => ([.fixed (.fraction 9 false)], r)
    | r => ([.error], r)
  | c :: r => (letter c, r)

/-- The items of a format (`StrftimeItems`); the fuel bounds the number of steps, the length of the format is enough. -/
def itemsN : Nat → Str → List FormatItem
  | 0, _ => []
  | _ + 1, [] => []
  | n + 1, '%' :: r => (directive r).1 ++ itemsN n (directive r).2
  | n + 1, c :: r => .char c :: itemsN n r

def items (s : Str) : List FormatItem := itemsN s.length s

/-- A number padded on the left to a width. -/
def padTo (c : Char) (n : Nat) (s : Str) : Str := List.replicate (n - s.length) c ++ s

/-- Two places (chrono: `write_two`), for numbers below 100. -/
def two (n : Nat) : Pad → Str
  | .none => natStr n
  | .zero => padTo '0' 2 (natStr n)
  | .space => padTo ' ' 2 (natStr n)

/-- `n` places (chrono: `write_n`), with a sign if it is negative or if that is asked for. -/
def places (n : Nat) (v : Int) (sign : Bool) (p : Pad) : Str :=
  let s : Str := if v < 0 then ['-'] else if sign then ['+'] else []
  let w := if sign then n + 1 else n
  match p with
  | .none => s ++ natStr v.natAbs
  | .zero => s ++ padTo '0' (w - s.length) (natStr v.natAbs)
  | .space => padTo ' ' w (s ++ natStr v.natAbs)

/-- The day of the week of a number of days since 1 January of year 0 (which is a Saturday), counted from Monday (0). -/
def weekday (d : NaiveDate) : Nat := ((d.toDays + 5) % 7).toNat

/-- The day of the year, from 1 (chrono: `Datelike::ordinal`). -/
def ordinal (d : NaiveDate) : Nat := NaiveDate.daysBeforeMonth d.year d.month + d.day

/-- The number of the week of the year if weeks start with the given day (counted from Monday); before the first such day it is 0 (chrono:
`NaiveDate::weeks_from`). -/
def weeksFrom (d : NaiveDate) (first : Nat) : Nat := (ordinal d + 6 - (weekday d + 7 - first) % 7) / 7

/-- The day of the week of 1 January. -/
def newYear (y : Int) : Nat := weekday ⟨y, 1, 1⟩

/-- What is added to the day of the year before it is divided by 7 to get the number of the week (chrono: `YearFlags::isoweek_delta`). -/
def isoDelta (y : Int) : Nat := if newYear y < 4 then newYear y + 6 else newYear y - 1

/-- The number of weeks of a year (chrono: `YearFlags::nisoweeks`). -/
def isoWeeks (y : Int) : Nat := if newYear y = 3 ∨ (newYear y = 2 ∧ isLeap y = true) then 53 else 52

/-- Year and week after ISO 8601 (chrono: `IsoWeek::from_yof`). -/
def isoWeek (d : NaiveDate) : Int × Nat :=
  let raw := (ordinal d + isoDelta d.year) / 7
  if raw < 1 then (d.year - 1, isoWeeks (d.year - 1))
  else if raw > isoWeeks d.year then (d.year + 1, 1)
  else (d.year, raw)

def monthNames : List Str := [c!"January", c!"February", c!"March", c!"April", c!"May", c!"June", c!"July", c!"August", c!"September", c!"October",
  c!"November", c!"December"]

def weekdayNames : List Str := [c!"Monday", c!"Tuesday", c!"Wednesday", c!"Thursday", c!"Friday", c!"Saturday", c!"Sunday"]

/-- What a numeric item writes (chrono: `DelayedFormat::format_numeric`); `none` is an error. -/
def writeNum [Centuries] (a : FormatArgs) (n : NumItem) (p : Pad) : Option Str :=
  match n, a.time with
  | .year, _ => some (places 4 a.date.year (¬ (0 ≤ a.date.year ∧ a.date.year < 10000)) p)
  | .yearMod100, _ => some (two (a.date.year % 100).toNat p)
  | .yearDiv100, _ => some (if 0 ≤ a.date.year ∧ a.date.year < 10000 then two (a.date.year / 100).toNat p else Centuries.text a.date.year p)
  | .isoYear, _ => some (places 4 (isoWeek a.date).1 (¬ (0 ≤ (isoWeek a.date).1 ∧ (isoWeek a.date).1 < 10000)) p)
  | .isoYearMod100, _ => some (two ((isoWeek a.date).1 % 100).toNat p)
  | .quarter, _ => some (natStr ((a.date.month - 1) / 3 + 1))
  | .weekFromSun, _ => some (two (weeksFrom a.date 6) p)
  | .weekFromMon, _ => some (two (weeksFrom a.date 0) p)
  | .isoWeek, _ => some (two (isoWeek a.date).2 p)
  | .month, _ => some (two a.date.month p)
  | .day, _ => some (two a.date.day p)
  | .ordinal, _ => some (places 3 (ordinal a.date) false p)
  | .weekdayFromMon, _ => some (natStr (weekday a.date + 1))
  | .daysFromSun, _ => some (natStr ((weekday a.date + 1) % 7))
  | .hour, some (s, _) => some (two (s / 3600) p)
  | .hour12, some (s, _) => some (two (if s / 3600 % 12 = 0 then 12 else s / 3600 % 12) p)
  | .minute, some (s, _) => some (two (s / 60 % 60) p)
  | .second, some (s, f) => some (two (s % 60 + f / 1000000000) p)
  | .nanosecond, some (_, f) => some (places 9 (f % 1000000000 : Nat) false p)
  | .timestamp, some (s, f) => some (places 9 ((⟨a.date, s, f⟩ : NaiveDateTime).toSecs - NaiveDateTime.epoch.toSecs - a.off.getD 0) false p)
  | _, none => none

/-- An offset in hours, minutes and maybe seconds, with a sign; without seconds it is rounded to minutes (chrono: `OffsetFormat::format`). -/
def writeOffset (o : Int) (colon seconds : Bool) : Str :=
  let c : Str := if colon then [':'] else []
  let s : Str := if o < 0 then ['-'] else ['+']
  let n := o.natAbs
  if seconds then s ++ pad2 (n / 3600) ++ c ++ pad2 (n / 60 % 60) ++ c ++ pad2 (n % 60)
  else
    let m := (n + 30) / 60
    s ++ pad2 (m / 60) ++ c ++ pad2 (m % 60)

/-- An offset in hours, the rest is cut off. -/
def writeHours (o : Int) : Str := (if o < 0 then '-' else '+') :: pad2 (o.natAbs / 3600)

/-- `Display for FixedOffset`: the seconds are written if they are not zero. -/
def zoneName (o : Int) : Str :=
  let s : Str := if o < 0 then ['-'] else ['+']
  let n := o.natAbs
  s ++ pad2 (n / 3600) ++ [':'] ++ pad2 (n / 60 % 60) ++ (if n % 60 = 0 then [] else [':'] ++ pad2 (n % 60))

/-- What a fixed item writes (chrono: `DelayedFormat::format_fixed`). -/
def writeFixed (a : FormatArgs) (f : FixedItem) : Option Str :=
  match f, a.time, a.off with
  | .shortMonth, _, _ => (monthNames[a.date.month - 1]?).map (List.take 3)
  | .longMonth, _, _ => monthNames[a.date.month - 1]?
  | .shortWeekday, _, _ => (weekdayNames[weekday a.date]?).map (List.take 3)
  | .longWeekday, _, _ => weekdayNames[weekday a.date]?
  | .lowerAmPm, some (s, _), _ => some (if s / 3600 < 12 then c!"am" else c!"pm")
  | .upperAmPm, some (s, _), _ => some (if s / 3600 < 12 then c!"AM" else c!"PM")
  | .fraction n dot, some (_, f), _ =>
    let ns := f % 1000000000
    let dt : Str := if dot then ['.'] else []
    if n = 0 then
      if ns = 0 then some []
      else if ns % 1000000 = 0 then some (dt ++ padTo '0' 3 (natStr (ns / 1000000)))
      else if ns % 1000 = 0 then some (dt ++ padTo '0' 6 (natStr (ns / 1000)))
      else some (dt ++ padTo '0' 9 (natStr ns))
    else if n = 3 then some (dt ++ padTo '0' 3 (natStr (ns / 1000000)))
    else if n = 6 then some (dt ++ padTo '0' 6 (natStr (ns / 1000)))
    else some (dt ++ padTo '0' 9 (natStr ns))
  | .zoneName, _, some o => some (zoneName o)
  | .offset, _, some o => some (writeOffset o false false)
  | .offsetColon, _, some o => some (writeOffset o true false)
  | .offsetDoubleColon, _, some o => some (writeOffset o true true)
  | .offsetTripleColon, _, some o => some (writeHours o)
  | _, _, _ => none

/-- What an item writes (chrono: `DelayedFormat::format`); `none` is an error. -/
def writeItem [Centuries] (a : FormatArgs) : FormatItem → Option Str
  | .char c => some [c]
  | .num n p => writeNum a n p
  | .fixed f => writeFixed a f
  | .error => none

/-- What items write one after the other. -/
def writeItems [Centuries] (a : FormatArgs) : List FormatItem → Option Str
  | [] => some []
  | i :: is => do
    let x ← writeItem a i
    let xs ← writeItems a is
    pure (x ++ xs)

end Format

variable [Platform] [Centuries]

/-- What chrono is given by `DateTime::format` (`src/properties/date.rs:16-25`). -/
def DateTime.formatArgs : DateTime → FormatArgs
  | .naive t => ⟨t.date, some (t.secs, t.frac), none⟩
  | .loc u => ⟨(localOf u).date, some ((localOf u).secs, (localOf u).frac), some (Platform.tzOffset u.toSecs)⟩

/-- What chrono is given by `Date::format` (`src/properties/date.rs:166-175`). -/
def Date.formatArgs : Date → FormatArgs
  | .date d => ⟨d, none, none⟩
  | .dateTime t => t.formatArgs

/-- `DateTime::format(..).to_string()` (`src/properties/date.rs:16-25`); `none` is a panic. -/
def DateTime.format (t : DateTime) (f : Str) : Option Str := Format.writeItems t.formatArgs (Format.items f)

/-- `Date::format(..).to_string()` (`src/properties/date.rs:166-175`); `none` is a panic. -/
def Date.format (d : Date) (f : Str) : Option Str := Format.writeItems d.formatArgs (Format.items f)

end Ikal
