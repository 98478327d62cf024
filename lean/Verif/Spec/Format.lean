import Verif.Format
import Verif.Spec.DateText

/-!
# Specification: formats

A format is a sequence of pieces: characters other than `%`, which stand for themselves, and directives.
-/

namespace Ikal.Spec

/-- The decimal numeral of a number: no leading zeros. -/
def Numeral (v : Nat) (s : Str) : Prop := Digits s ∧ decimal s = v ∧ (s.head? = some '0' → s = ['0'])

/-- The numeral of a number, padded on the left with a character to a width. -/
def Padded (c : Char) (w v : Nat) (s : Str) : Prop := ∃ k ds, Numeral v ds ∧ s = List.replicate k c ++ ds ∧ s.length = w

/-- Directives that any date can write. -/
def dateDirectives : List Str :=
  [c!"%A", c!"%B", c!"%C", c!"%D", c!"%F", c!"%G", c!"%U", c!"%V", c!"%W", c!"%Y", c!"%g", c!"%q",
   c!"%-C", c!"%-G", c!"%-U", c!"%-V", c!"%-W", c!"%-g", c!"%-q", c!"%0C", c!"%0G", c!"%0U", c!"%0V", c!"%0W", c!"%0g", c!"%0q",
   c!"%_C", c!"%_G", c!"%_U", c!"%_V", c!"%_W", c!"%_g", c!"%_q", c!"%a", c!"%b", c!"%d", c!"%e", c!"%h", c!"%j", c!"%m", c!"%n", c!"%t", c!"%u", c!"%v", c!"%w", c!"%x",
   c!"%y", c!"%%",
   c!"%-Y", c!"%-d", c!"%-e", c!"%-j", c!"%-m", c!"%-u", c!"%-w", c!"%-y", c!"%0Y", c!"%0d", c!"%0e", c!"%0j", c!"%0m", c!"%0u", c!"%0w", c!"%0y",
   c!"%_Y", c!"%_d", c!"%_e", c!"%_j", c!"%_m", c!"%_u", c!"%_w", c!"%_y"]

/-- Directives that need a time of the day. -/
def timeDirectives : List Str :=
  [c!"%H", c!"%I", c!"%M", c!"%P", c!"%R", c!"%S", c!"%T", c!"%X", c!"%c", c!"%f", c!"%k", c!"%l", c!"%p", c!"%r", c!"%s",
   c!"%.f", c!"%.3f", c!"%.6f", c!"%.9f", c!"%3f", c!"%6f", c!"%9f",
   c!"%-H", c!"%-I", c!"%-M", c!"%-S", c!"%-f", c!"%-k", c!"%-l", c!"%-s", c!"%0H", c!"%0I", c!"%0M", c!"%0S", c!"%0f", c!"%0k", c!"%0l", c!"%0s",
   c!"%_H", c!"%_I", c!"%_M", c!"%_S", c!"%_f", c!"%_k", c!"%_l", c!"%_s"]

/-- Directives that need a time zone. -/
def zoneDirectives : List Str := [c!"%Z", c!"%z", c!"%:z", c!"%::z", c!"%:::z", c!"%+"]

/-- The date is a date-time with a zone. -/
def HasZone : Date → Prop
  | .dateTime (.loc _) => True
  | _ => False

/-- The date is a date-time. -/
def HasTime : Date → Prop
  | .dateTime _ => True
  | .date _ => False

/-- A piece of a format is a character other than `%`, or a directive. -/
def Piece (p : Str) : Prop :=
  (∃ c, c ≠ '%' ∧ p = [c]) ∨ p ∈ dateDirectives ∨ p ∈ timeDirectives ∨ p ∈ zoneDirectives

/-- The pieces of a format. -/
def Pieces (f : Str) (ps : List Str) : Prop := f = ps.flatten ∧ ∀ p ∈ ps, Piece p

/-- The date has what the piece writes. -/
def Suits (x : Date) (p : Str) : Prop := (p ∈ timeDirectives → HasTime x) ∧ (p ∈ zoneDirectives → HasZone x)

/-- The day on the calendar of the date: the one the local clocks show. -/
def shownDay [Platform] : Date → NaiveDate
  | .date d => d
  | .dateTime (.naive t) => t.date
  | .dateTime (.loc u) => (localOf u).date

/-- The time on the clock of the date-time, the one the local clocks show. -/
def shownTime [Platform] : Date → Option NaiveDateTime
  | .date _ => none
  | .dateTime (.naive t) => some t
  | .dateTime (.loc u) => some (localOf u)

/-- Day `k` of the week, counted from Monday (0): 1 January 2024 was a Monday. -/
def DayOfWeek (d : NaiveDate) (k : Nat) : Prop :=
  k < 7 ∧ ∃ n, (daysLater n ⟨2024, 1, 1⟩ = d ∧ n % 7 = k) ∨ (daysLater n d = ⟨2024, 1, 1⟩ ∧ (n + k) % 7 = 0)

/-- The number of the week of the year, if weeks begin with day `k`: the days before the first such day of the year are in week 0. -/
def WeekFrom (k : Nat) (d : NaiveDate) (v : Nat) : Prop :=
  ∃ f i, i < 7 ∧ f = daysLater i ⟨d.year, 1, 1⟩ ∧ DayOfWeek f k ∧
    ((v = 0 ∧ ∃ n, 0 < n ∧ daysLater n d = f) ∨ ∃ n, daysLater n f = d ∧ v = n / 7 + 1)

/-- Year and week after ISO 8601: the Thursday of the week of `d`, which runs from Monday to Sunday, is in year `y`, and it is the `v`-th Thursday of it. -/
def IsoWeek (d : NaiveDate) (y : Int) (v : Nat) : Prop :=
  ∃ k t, DayOfWeek d k ∧ RealDate t ∧ (k ≤ 3 ∧ daysLater (3 - k) d = t ∨ 3 < k ∧ daysLater (k - 3) t = d) ∧ t.year = y ∧
    ∃ n, daysLater n ⟨y, 1, 1⟩ = t ∧ v = n / 7 + 1

/-- The number a numeric directive writes, and the places it has. -/
def NumberFor [Platform] (x : Date) (c : Char) (w v : Nat) : Prop :=
  (c = 'm' ∧ w = 2 ∧ v = (shownDay x).month) ∨
  (c = 'd' ∧ w = 2 ∧ v = (shownDay x).day) ∨
  (c = 'y' ∧ w = 2 ∧ v < 100 ∧ (100 : Int) ∣ (shownDay x).year - v) ∨
  (c = 'C' ∧ w = 2 ∧ v < 100 ∧ (v * 100 : Int) ≤ (shownDay x).year ∧ (shownDay x).year < v * 100 + 100) ∨
  (c = 'q' ∧ w = 1 ∧ 3 * v ≤ (shownDay x).month + 2 ∧ (shownDay x).month ≤ 3 * v) ∨
  (c = 'U' ∧ w = 2 ∧ WeekFrom 6 (shownDay x) v) ∨
  (c = 'W' ∧ w = 2 ∧ WeekFrom 0 (shownDay x) v) ∨
  (c = 'V' ∧ w = 2 ∧ ∃ y, IsoWeek (shownDay x) y v) ∨
  (c = 'g' ∧ w = 2 ∧ v < 100 ∧ ∃ y k, IsoWeek (shownDay x) y k ∧ (100 : Int) ∣ y - v) ∨
  (c = 'j' ∧ w = 3 ∧ ∃ n, daysLater n ⟨(shownDay x).year, 1, 1⟩ = shownDay x ∧ v = n + 1) ∨
  (c = 'H' ∧ w = 2 ∧ ∃ t, shownTime x = some t ∧ v = t.secs / 3600) ∨
  (c = 'I' ∧ w = 2 ∧ ∃ t, shownTime x = some t ∧ 1 ≤ v ∧ v ≤ 12 ∧ v % 12 = t.secs / 3600 % 12) ∨
  (c = 'M' ∧ w = 2 ∧ ∃ t, shownTime x = some t ∧ v = t.secs / 60 % 60) ∨
  (c = 'S' ∧ w = 2 ∧ ∃ t, shownTime x = some t ∧ v = t.secs % 60 + if t.frac < 1000000000 then 0 else 1) ∨
  (c = 'f' ∧ w = 9 ∧ ∃ t, shownTime x = some t ∧ v = t.frac % 1000000000)

/-- The date is a date of the calendar, its time one of the day. -/
def Genuine : Date → Prop
  | .date d => RealDate d
  | .dateTime (.naive t) => RealDate t.date ∧ t.secs < 86400 ∧ t.frac < 2000000000
  | .dateTime (.loc u) => RealDate u.date ∧ u.secs < 86400 ∧ u.frac < 2000000000

/-- Directives whose text depends on the zone: those of the zone, and the number of seconds since 1970. -/
def zoneDependent : List Str := zoneDirectives ++ [c!"%s", c!"%-s", c!"%0s", c!"%_s"]

/-- Directives that are short for others. -/
def shorthands : List (Str × Str) :=
  [(c!"%D", c!"%m/%d/%y"), (c!"%F", c!"%Y-%m-%d"), (c!"%R", c!"%H:%M"), (c!"%T", c!"%H:%M:%S"), (c!"%X", c!"%H:%M:%S"), (c!"%x", c!"%m/%d/%y"),
   (c!"%+", c!"%Y-%m-%dT%H:%M:%S%.f%:z"), (c!"%c", c!"%a %b %e %H:%M:%S %Y"), (c!"%r", c!"%I:%M:%S %p"), (c!"%v", c!"%e-%b-%Y"), (c!"%h", c!"%b"), (c!"%e", c!"%_d"), (c!"%k", c!"%_H"),
   (c!"%l", c!"%_I"), (c!"%0e", c!"%d"), (c!"%0Y", c!"%Y"), (c!"%n", c!"\n"), (c!"%t", c!"\t")]

/-- The months of the year. -/
def monthName : Nat → Option Str
  | 1 => c!"January"
  | 2 => c!"February"
  | 3 => c!"March"
  | 4 => c!"April"
  | 5 => c!"May"
  | 6 => c!"June"
  | 7 => c!"July"
  | 8 => c!"August"
  | 9 => c!"September"
  | 10 => c!"October"
  | 11 => c!"November"
  | 12 => c!"December"
  | _ => none

/-- The days of the week, from Monday (0). -/
def dayName : Nat → Option Str
  | 0 => c!"Monday"
  | 1 => c!"Tuesday"
  | 2 => c!"Wednesday"
  | 3 => c!"Thursday"
  | 4 => c!"Friday"
  | 5 => c!"Saturday"
  | 6 => c!"Sunday"
  | _ => none

/-- Hours, minutes and seconds of two digits each with a sign before and a separator between, for a number of seconds of either sign. -/
def LongOffsetText (sep : Str) (o : Int) (s : Str) : Prop :=
  ∃ g h m x hs ms xs, s = g :: (hs ++ sep ++ ms ++ sep ++ xs) ∧ Padded '0' 2 h hs ∧ Padded '0' 2 m ms ∧ Padded '0' 2 x xs ∧ m < 60 ∧ x < 60 ∧
    (0 ≤ o ∧ g = '+' ∧ o = h * 3600 + m * 60 + x ∨ o < 0 ∧ g = '-' ∧ -o = h * 3600 + m * 60 + x)

/-- Hours and minutes of two digits each, rounded to minutes. -/
def ShortOffsetText (sep : Str) (o : Int) (s : Str) : Prop :=
  ∃ g h m hs ms, s = g :: (hs ++ sep ++ ms) ∧ Padded '0' 2 h hs ∧ Padded '0' 2 m ms ∧ m < 60 ∧
    (0 ≤ o ∧ g = '+' ∧ -30 ≤ (h * 3600 + m * 60 : Int) - o ∧ (h * 3600 + m * 60 : Int) - o ≤ 30 ∨
     o < 0 ∧ g = '-' ∧ -30 ≤ (h * 3600 + m * 60 : Int) + o ∧ (h * 3600 + m * 60 : Int) + o ≤ 30)

/-- Hours of two digits, the rest is cut off. -/
def HoursOffsetText (o : Int) (s : Str) : Prop :=
  ∃ g h hs, s = g :: hs ∧ Padded '0' 2 h hs ∧
    (0 ≤ o ∧ g = '+' ∧ (h * 3600 : Int) ≤ o ∧ o < h * 3600 + 3600 ∨ o < 0 ∧ g = '-' ∧ (h * 3600 : Int) ≤ -o ∧ -o < h * 3600 + 3600)

end Ikal.Spec
