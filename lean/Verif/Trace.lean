import Verif.Messages

/-!
# What a parser error says (`src/errors.rs:33-37`, the `context`s of `src/parser`)

`Error::Parser` of a failed `parse()` holds the pretty `Debug` rendering of nom's `VerboseError`: the list of what went wrong, from the
inside out, each with the input at which it did.  The model of the parsers in `Verif/{Nom,Line,Values,Components}.lean` forgets this list.
Here the parsers are modelled again, with it; `Verif/Lemmas/Trace.lean` proves that forgetting the list gives the other model, so both are
about the same program.

The behaviour of the combinators on errors is that of nom 8.0 and nom-language 0.1: `tag`, `char`, `anychar`, `line_ending` and `not` report
the input they were given; `alt`, `many1` and `count` add an entry to the last error; `map_res` *replaces* the error of its function by an
entry of its own; `context` adds an entry; `opt`, `many0` and `not` discard errors.
-/

namespace Ikal

/-- `nom::error::ErrorKind`, as far as it occurs. -/
inductive NomKind where
  | tag | mapRes | alt | many0 | many1 | count | not | crLf | eof | digit | float | fail
  deriving DecidableEq, Repr

/-- `nom_language::error::VerboseErrorKind`. -/
inductive TraceKind where
  | context (s : Str)
  | chr (c : Char)
  | nom (k : NomKind)
  deriving DecidableEq, Repr

/-- `nom_language::error::VerboseError<&str>`: the entries, innermost first. -/
abbrev Trace := List (Str × TraceKind)

/-- The result of a nom parser, with the error. -/
inductive TRes (α : Type u) where
  | ok (rest : Str) (a : α)
  | err (t : Trace)
  | panic
  deriving DecidableEq, Repr

/-- A nom parser on `&str`, with its errors. -/
abbrev TP (α : Type u) := Str → TRes α

/-- The entries of nom's `float` when it fails; they differ between versions of nom. -/
class FloatTrace where
  trace : Str → Trace

namespace Traced

/-! ## Combinators -/

/-- `nom::bytes::complete::tag`. -/
def tag (t : Str) : TP Str := fun i =>
  match stripPrefix t i with
  | some r => .ok r t
  | none => .err [(i, .nom .tag)]

/-- `nom::bytes::complete::take_while`. -/
def takeWhile (p : Char → Bool) : TP Str := fun i => .ok (i.dropWhile p) (i.takeWhile p)

/-- `nom::bytes::complete::take_till`. -/
def takeTill (p : Char → Bool) : TP Str := takeWhile (fun c => !p c)

/-- `nom::character::complete::char`. -/
def char (c : Char) : TP Char := fun i =>
  match i with
  | [] => .err [(i, .chr c)]
  | d :: r => if d = c then .ok r c else .err [(i, .chr c)]

/-- `nom::character::complete::anychar`. -/
def anychar : TP Char := fun i =>
  match i with
  | [] => .err [(i, .nom .eof)]
  | d :: r => .ok r d

/-- `nom::character::complete::line_ending`. -/
def lineEnding : TP Str := fun i =>
  match i with
  | '\n' :: r => .ok r ['\n']
  | '\r' :: '\n' :: r => .ok r ['\r', '\n']
  | _ => .err [(i, .nom .crLf)]

/-- `nom::combinator::map`. -/
def map (p : TP α) (f : α → β) : TP β := fun i =>
  match p i with
  | .ok r a => .ok r (f a)
  | .err t => .err t
  | .panic => .panic

/-- `nom::combinator::map_res`: whatever the error of the function is, it is replaced by one entry with the input of the whole. -/
def mapRes (p : TP α) (f : α → Res β) : TP β := fun i =>
  match p i with
  | .ok r a => (match f a with
    | .ok b => .ok r b
    | .err _ => .err [(i, .nom .mapRes)]
    | .panic => .panic)
  | .err t => .err t
  | .panic => .panic

/-- `nom::combinator::not`. -/
def not (p : TP α) : TP Unit := fun i =>
  match p i with
  | .ok _ _ => .err [(i, .nom .not)]
  | .err _ => .ok i ()
  | .panic => .panic

/-- `nom::combinator::opt`. -/
def opt (p : TP α) : TP (Option α) := fun i =>
  match p i with
  | .ok r a => .ok r (some a)
  | .err _ => .ok i none
  | .panic => .panic

/-- Tuples of parsers and `nom::sequence::pair`. -/
def pair (p : TP α) (q : TP β) : TP (α × β) := fun i =>
  match p i with
  | .ok r a => (match q r with
    | .ok r' b => .ok r' (a, b)
    | .err t => .err t
    | .panic => .panic)
  | .err t => .err t
  | .panic => .panic

/-- `nom::sequence::preceded`. -/
def preceded (p : TP α) (q : TP β) : TP β := map (pair p q) Prod.snd

/-- `nom::sequence::terminated`. -/
def terminated (p : TP α) (q : TP β) : TP α := map (pair p q) Prod.fst

/-- `nom::sequence::delimited`. -/
def delimited (p : TP α) (q : TP β) (r : TP γ) : TP β := preceded p (terminated q r)

/-- `nom::sequence::separated_pair`. -/
def separatedPair (p : TP α) (s : TP γ) (q : TP β) : TP (α × β) := pair p (preceded s q)

/-- The alternatives of `nom::branch::alt` one after the other: the error is that of the last. -/
def orElse (p q : TP α) : TP α := fun i =>
  match p i with
  | .ok r a => .ok r a
  | .err _ => q i
  | .panic => .panic

/-- An entry added to an error: `append` of nom-language. -/
def adding (k : TraceKind) (p : TP α) : TP α := fun i =>
  match p i with
  | .ok r a => .ok r a
  | .err t => .err (t ++ [(i, k)])
  | .panic => .panic

/-- `nom::error::context`. -/
def context (s : Str) (p : TP α) : TP α := adding (.context s) p

/-- `nom::branch::alt` of two alternatives. -/
def alt (p q : TP α) : TP α := adding (.nom .alt) (orElse p q)

/-- `nom::multi::many0` (and `fold_many0`) with explicit fuel. -/
def many0Go (p : TP α) : Nat → TP (List α)
  | 0, i => .err [(i, .nom .many0)]
  | n + 1, i =>
    match p i with
    | .err _ => .ok i []
    | .panic => .panic
    | .ok r a =>
      if r.length < i.length then
        match many0Go p n r with
        | .ok r' as => .ok r' (a :: as)
        | .err t => .err t
        | .panic => .panic
      else .err [(i, .nom .many0)]

/-- `nom::multi::many0`, `nom::multi::fold_many0`. -/
def many0 (p : TP α) : TP (List α) := fun i => many0Go p (i.length + 1) i

/-- `nom::multi::many1`: an error of the first application gets an entry. -/
def many1 (p : TP α) : TP (List α) := fun i =>
  match p i with
  | .err t => .err (t ++ [(i, .nom .many1)])
  | .panic => .panic
  | .ok r a =>
    match many0 p r with
    | .ok r' as => .ok r' (a :: as)
    | .err t => .err t
    | .panic => .panic

/-! ## Content lines (`src/parser/mod.rs:56-148`) -/

/-- `digits` (`src/parser/mod.rs:56-58`). -/
def digits : TP Str := context c!"digits" (takeWhile Char.isDigit)

/-- `key` (`src/parser/mod.rs:60-62`). -/
def key : TP Str := context c!"key" (takeWhile isNameChar)

/-- `attr` (`src/parser/mod.rs:64-70`). -/
def attrValue : TP Str :=
  context c!"attr" (preceded (opt (tag c!"\r\n ")) (takeTill fun c => c = ';' || c = ':'))

/-- `value` (`src/parser/mod.rs:72-74`). -/
def value : TP Str := context c!"value" (takeTill isLineEnding)

/-- `quoted_param` (`src/parser/mod.rs:80-86`). -/
def quotedParam : TP (Str × Str) :=
  context c!"quoted_param" (separatedPair key (tag c!"=\"") (takeTill fun c => c = '"'))

/-- `param` (`src/parser/mod.rs:88-100`). -/
def param : TP (Str × Str) :=
  context c!"param" (alt (delimited (char ';') quotedParam (char '"'))
    (preceded (char ';') (separatedPair key (char '=') attrValue)))

/-- `params` (`src/parser/mod.rs:102-111`). -/
def params : TP (SMap Str) := context c!"params" (map (many0 param) SMap.ofPairs)

/-- `content_line` (`src/parser/mod.rs:116-137`). -/
def contentLine : TP ContentLine :=
  context c!"content_line"
    (map (pair (not (tag c!"BEGIN:")) (pair (not (tag c!"END:")) (pair key (pair params
        (pair (char ':') (pair (opt value) lineEnding))))))
      fun (_, _, k, ps, _, v, _) => ⟨k, ps, v.getD []⟩)

/-- `content_lines` (`src/parser/mod.rs:139-148`). -/
def contentLines : TP (List ContentLine) := context c!"content_lines" (many0 contentLine)

/-! ## Values -/

/-- `count(anychar, 2)`: a failure gets an entry with the input of the whole. -/
def twoChars : TP (Char × Char) := adding (.nom .count) (pair anychar anychar)

/-- `weekday` (`src/parser/mod.rs:150-172`). -/
def weekday : TP Weekday := context c!"weekday" (mapRes twoChars fun (a, b) => Weekday.ofChars a b)

/-- `nom::character::complete::i8`; only its success is used (`src/parser/mod.rs:178`). -/
def nomI8 : TP Int := fun i =>
  match Ikal.nomI8 i with
  | .ok r a => .ok r a
  | .err => .err [(i, .nom .digit)]
  | .panic => .panic

/-- `weekdaynum` (`src/parser/mod.rs:174-183`). -/
def weekdaynum : TP WeekdayNum :=
  context c!"weekdaynum" (map (pair (opt nomI8) weekday) fun (o, w) => ⟨w, o⟩)

section
variable [Platform]

/-- `date` (`src/parser/datatype.rs:21-31`). -/
def date : TP NaiveDate := fun i =>
  match parseNaiveDate i with
  | some d => .ok [] d
  | none => .err [(i, .nom .fail)]

/-- `date_time` (`src/parser/datatype.rs:36-56`). -/
def dateTime : TP DateTime := fun i =>
  match parseNaiveDateTime [] (trimEndZ i) with
  | some t => if i.getLast? = some 'Z' then .ok [] (.loc t) else .ok [] (.naive t)
  | none => .err [(i, .nom .fail)]

/-- `date_or_dt` (`src/parser/datatype.rs:58-67`). -/
def dateOrDt : TP Date := context c!"date_or_dt" (alt (map date .date) (map dateTime .dateTime))

/-- `week`, `day`, `hour`, `minute`, `seconde` (`src/parser/datatype.rs:73-128`). -/
def durUnit (name : Str) (u : Char) : TP Int :=
  context name (mapRes (terminated digits (tag [u])) fun s => Res.ofOption .parseInt (parseI64 s))

/-- `time` (`src/parser/datatype.rs:89-104`). -/
def durTime : TP (Int × Int × Int) :=
  map (context c!"time" (preceded (tag ['T'])
      (pair (opt (durUnit c!"hour" 'H')) (pair (opt (durUnit c!"minute" 'M')) (opt (durUnit c!"seconde" 'S'))))))
    fun (h, i, s) => (h.getD 0, i.getD 0, s.getD 0)

/-- `duration` (`src/parser/datatype.rs:72-153`); its function panics or succeeds. -/
def durationP : TP TimeDelta :=
  context c!"duration" (mapRes (pair (opt (tag ['-'])) (preceded (tag ['P'])
      (pair (opt (durUnit c!"week" 'W')) (pair (opt (durUnit c!"day" 'D')) (opt durTime)))))
    fun (neg, w, d, t) => Res.unwrap (durSum neg.isSome (w.getD 0) (d.getD 0) t))

/-- `trigger` (`src/parser/alarm.rs:22-34`). -/
def trigger : TP Trigger := alt (map durationP .duration) (map dateTime .dateTime)

/-- `period` (`src/parser/datatype.rs:158-176`): the error of the part that fails; `tokens[1]` panics without a `/`. -/
def period : TP Period := fun s =>
  let (a, b) := splitSlash s
  match dateTime a with
  | .err t => .err t
  | .panic => .panic
  | .ok _ start =>
    match b with
    | none => .panic
    | some b =>
      if b.head? = some 'P' then map durationP (.startDur start) b else map dateTime (.startEnd start) b

/-- `nom::number::complete::float`. -/
def float [FloatTrace] : TP Platform.F32 := fun i =>
  match Platform.floatParse i with
  | some (x, r) => .ok r x
  | none => .err (FloatTrace.trace i)

/-- `geo` (`src/parser/descriptive.rs:43-56`). -/
def geo [FloatTrace] : TP Geo := map (separatedPair float (char ';') float) fun (a, b) => ⟨a, b⟩

/-- `rstatus` (`src/parser/misc.rs:8-44`). -/
def rstatus [FloatTrace] : TP RequestStatus :=
  context c!"rstatus" (map (pair float (pair (char ';') (pair (context c!"text" (takeTill fun c => c = ';'))
      (opt (preceded (char ';') (context c!"end" (takeWhile fun _ => true)))))))
    fun (c, _, d, e) => ⟨c, d, e⟩)

/-- `item` (`src/parser/recurrence.rs:57-66`). -/
def rruleItem : TP (Str × Str) :=
  context c!"item" (terminated (separatedPair key (char '=') (takeTill fun c => c = ';')) (opt (char ';')))

/-- `rrule` (`src/parser/recurrence.rs:48-134`). -/
def rrule : TP Recur := context c!"rrule" (mapRes (many1 rruleItem) recurOfItems)

/-! ## Components (`src/parser/components.rs`) -/

/-- The macro `component!` (`src/parser/components.rs:9-25`): no context. -/
def componentP {α : Type} (name : Str) (conv : List ContentLine → Res α) : TP α :=
  mapRes (delimited (tag (c!"BEGIN:" ++ name ++ c!"\r\n")) contentLines
    (tag (c!"END:" ++ name ++ c!"\r\n"))) conv

/-- `valarm` (`src/parser/components.rs:27`). -/
def valarm : TP VAlarm := componentP c!"VALARM" VAlarm.tryFrom
/-- `vfreebusy` (`src/parser/components.rs:28`). -/
def vfreebusy : TP VFreebusy := componentP c!"VFREEBUSY" VFreebusy.tryFrom
/-- `vtodo` (`src/parser/components.rs:29`). -/
def vtodo : TP VTodo := componentP c!"VTODO" VTodo.tryFrom
/-- `vjournal` (`src/parser/components.rs:30`). -/
def vjournal : TP VJournal := componentP c!"VJOURNAL" VJournal.tryFrom
/-- `standard` (`src/parser/components.rs:31`). -/
def standard : TP Standard := componentP c!"STANDARD" Standard.tryFrom
/-- `daylight` (`src/parser/components.rs:32`). -/
def daylight : TP Daylight := componentP c!"DAYLIGHT" Daylight.tryFrom

/-- `vevent` (`src/parser/components.rs:46-64`). -/
def vevent : TP VEvent :=
  context c!"vevent" (mapRes (delimited (tag c!"BEGIN:VEVENT\r\n") (pair contentLines (many0 valarm))
    (tag c!"END:VEVENT\r\n")) fun (ls, alarms) =>
    (VEvent.tryFrom ls).map fun e => { e with alarms := alarms })

/-- `vtimezone` (`src/parser/components.rs:66-100`). -/
def vtimezone : TP VTimezone :=
  context c!"vtimezone" (mapRes (delimited (tag c!"BEGIN:VTIMEZONE\r\n")
    (pair contentLines (many0 (alt (map standard .standard) (map daylight .daylight))))
    (tag c!"END:VTIMEZONE\r\n")) fun (ls, parts) =>
    (VTimezone.tryFrom ls).map fun z => parts.foldl VTimezone.file z)

/-- `component` (`src/parser/components.rs:102-115`): one `alt` of six. -/
def component : TP Component :=
  context c!"component" (adding (.nom .alt) (orElse (map valarm .alarm) (orElse (map vevent .event)
    (orElse (map vfreebusy .freebusy) (orElse (map vjournal .journal) (orElse (map vtimezone .timezone) (map vtodo .todo)))))))

/-- `components` (`src/parser/components.rs:117-119`). -/
def components : TP (List Component) := context c!"components" (many0 component)

/-- `vcalendar` (`src/parser/components.rs:121-155`). -/
def vcalendar : TP VCalendar :=
  context c!"vcalendar" (mapRes (delimited (tag c!"BEGIN:VCALENDAR\r\n") (pair contentLines components)
    (tag c!"END:VCALENDAR")) fun (ls, cs) =>
    (VCalendar.tryFrom ls).map fun v => cs.foldl VCalendar.file v)

end

end Traced

/-! ## Rendering -/

/-- Which characters outside ASCII `Debug` writes as they are (a table of Unicode in `core`: printable and not combining). -/
class DebugChars where
  printable : Char → Bool

/-- A lower case hexadecimal digit. -/
def hexDigit (n : Nat) : Char := if n < 10 then Char.ofNat (48 + n) else Char.ofNat (87 + n)

/-- A number in hexadecimal, without leading zeros; at most `fuel + 1` digits. -/
def hexStr : Nat → Nat → Str
  | 0, n => [hexDigit (n % 16)]
  | fuel + 1, n => if n < 16 then [hexDigit n] else hexStr fuel (n / 16) ++ [hexDigit (n % 16)]

/-- `char::escape_unicode` (`core`); a character has at most six digits. -/
def unicodeEscape (c : Char) : Str := c!"\\u{" ++ hexStr 5 c.toNat ++ c!"}"

/-- `char::escape_debug_ext` but for the quotes (`core`). -/
def debugChar [DebugChars] (c : Char) : Str :=
  if c = '\x00' then c!"\\0" else if c = '\t' then c!"\\t" else if c = '\r' then c!"\\r" else if c = '\n' then c!"\\n"
  else if c = '\\' then c!"\\\\"
  else if 32 ≤ c.toNat ∧ c.toNat < 127 ∨ 127 < c.toNat ∧ DebugChars.printable c then [c]
  else unicodeEscape c

/-- `Debug for str`. -/
def debugStr [DebugChars] (s : Str) : Str :=
  '"' :: (s.flatMap fun c => if c = '"' then c!"\\\"" else debugChar c) ++ ['"']

/-- `Debug for ErrorKind` (derived in nom). -/
def NomKind.debug : NomKind → Str
  | .tag => c!"Tag" | .mapRes => c!"MapRes" | .alt => c!"Alt" | .many0 => c!"Many0" | .many1 => c!"Many1" | .count => c!"Count"
  | .not => c!"Not" | .crLf => c!"CrLf" | .eof => c!"Eof" | .digit => c!"Digit" | .float => c!"Float" | .fail => c!"Fail"

/-- A line of the pretty `Debug` rendering: indentation by four blanks per level. -/
def debugLine (depth : Nat) (s : Str) : Str := List.replicate (4 * depth) ' ' ++ s ++ ['\n']

/-- `{:#?}` of a `VerboseErrorKind` as the last part of a pair in the list of entries (derived in nom-language). -/
def TraceKind.debug [DebugChars] (k : TraceKind) : Str :=
  let (name, arg) := match k with
    | .context s => (c!"Context(", debugStr s)
    | .chr c => (c!"Char(", '\'' :: (if c = '\'' then c!"\\'" else debugChar c) ++ ['\''])
    | .nom k => (c!"Nom(", k.debug)
  debugLine 4 name ++ debugLine 5 (arg ++ c!",") ++ debugLine 4 c!"),"

/-- `{:#?}` of an entry. -/
def debugEntry [DebugChars] (e : Str × TraceKind) : Str :=
  debugLine 3 c!"(" ++ debugLine 4 (debugStr e.1 ++ c!",") ++ e.2.debug ++ debugLine 3 c!"),"

/-- `format!("{value:#?}")` of a `nom::Err::Error` (`src/errors.rs:35`). -/
def Trace.message [DebugChars] (t : Trace) : Str :=
  c!"Error(\n" ++ debugLine 1 c!"VerboseError {" ++
    (if t.isEmpty then debugLine 2 c!"errors: [],"
    else debugLine 2 c!"errors: [" ++ t.flatMap debugEntry ++ debugLine 2 c!"],") ++
    debugLine 1 c!"}," ++ c!")"

/-- What `from_str` returns, with the message of the error (`src/errors.rs:33-37`): none unless there is one. -/
def TRes.said [DebugChars] {α : Type u} : TRes α → Option Str
  | .err t => some t.message
  | _ => none

/-- `FromStr` of a component with its error (`derive/src/component.rs:147-155`, `src/components/valarm.rs:45-53`). -/
def Traced.ofStr {α : Type} (p : TP α) (s : Str) : TRes α := p (unfold s)

/-- Forgetting the error. -/
def TRes.forget {α : Type u} : TRes α → NRes α
  | .ok r a => .ok r a
  | .err _ => .err
  | .panic => .panic

end Ikal
