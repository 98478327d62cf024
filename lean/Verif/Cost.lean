import Verif.Components

/-!
# The parsers of components, counting the characters they look at

The parsers of `Verif/Line.lean` and `Verif/Components.lean` once more, each with the number of times it looks at a character of the input.
(Simplifications: characters are counted, where the implementation looks at bytes; the removal of folded line breaks before parsing and the
conversion of the values after it are not counted.)
-/

namespace Ikal.Cost

/-- A parser with the number of characters looked at. -/
abbrev CP (α : Type) := Str → NRes α × Nat

/-- How many characters of a text are compared with those of a tag: up to the first that differs, or the end of either. -/
def compared : Str → Str → Nat
  | t :: ts, c :: cs => if t = c then 1 + compared ts cs else 1
  | _, _ => 0

/-- `nom::bytes::complete::tag`. -/
def tag (t : Str) : CP Str := fun i => (Nom.tag t i, compared t i)

/-- `nom::bytes::complete::take_while`: the characters taken and the one after them, if there is one. -/
def takeWhile (p : Char → Bool) : CP Str := fun i => (Nom.takeWhile p i, min ((i.takeWhile p).length + 1) i.length)

/-- `nom::bytes::complete::take_till`. -/
def takeTill (p : Char → Bool) : CP Str := takeWhile fun c => !p c

/-- `nom::character::complete::char`. -/
def char (c : Char) : CP Char := fun i => (Nom.char c i, min 1 i.length)

/-- `nom::character::complete::line_ending`: compares with `"\n"` and then with `"\r\n"`. -/
def lineEnding : CP Str := fun i =>
  (Nom.lineEnding i, compared ['\n'] i + (if i.head? = some '\n' then 0 else compared ['\r', '\n'] i))

/-- `nom::combinator::map`. -/
def map {α β : Type} (p : CP α) (f : α → β) : CP β := fun i =>
  match p i with
  | (.ok r a, n) => (.ok r (f a), n)
  | (.err, n) => (.err, n)
  | (.panic, n) => (.panic, n)

/-- `nom::combinator::map_res`; what the function does is not counted. -/
def mapRes {α β : Type} (p : CP α) (f : α → Res β) : CP β := fun i =>
  match p i with
  | (.ok r a, n) => (match f a with
    | .ok b => (.ok r b, n)
    | .err _ => (.err, n)
    | .panic => (.panic, n))
  | (.err, n) => (.err, n)
  | (.panic, n) => (.panic, n)

/-- `nom::combinator::not`. -/
def not {α : Type} (p : CP α) : CP Unit := fun i =>
  match p i with
  | (.ok _ _, n) => (.err, n)
  | (.err, n) => (.ok i (), n)
  | (.panic, n) => (.panic, n)

/-- `nom::combinator::opt`. -/
def opt {α : Type} (p : CP α) : CP (Option α) := fun i =>
  match p i with
  | (.ok r a, n) => (.ok r (some a), n)
  | (.err, n) => (.ok i none, n)
  | (.panic, n) => (.panic, n)

/-- Sequencing. -/
def pair {α β : Type} (p : CP α) (q : CP β) : CP (α × β) := fun i =>
  match p i with
  | (.ok r a, n) => (match q r with
    | (.ok r' b, m) => (.ok r' (a, b), n + m)
    | (.err, m) => (.err, n + m)
    | (.panic, m) => (.panic, n + m))
  | (.err, n) => (.err, n)
  | (.panic, n) => (.panic, n)

/-- `nom::sequence::preceded`. -/
def preceded {α β : Type} (p : CP α) (q : CP β) : CP β := map (pair p q) Prod.snd

/-- `nom::sequence::terminated`. -/
def terminated {α β : Type} (p : CP α) (q : CP β) : CP α := map (pair p q) Prod.fst

/-- `nom::sequence::delimited`. -/
def delimited {α β γ : Type} (p : CP α) (q : CP β) (r : CP γ) : CP β := preceded p (terminated q r)

/-- `nom::sequence::separated_pair`. -/
def separatedPair {α β γ : Type} (p : CP α) (s : CP γ) (q : CP β) : CP (α × β) := pair p (preceded s q)

/-- `nom::branch::alt`: what a failed alternative has looked at counts, too. -/
def alt {α : Type} (p q : CP α) : CP α := fun i =>
  match p i with
  | (.ok r a, n) => (.ok r a, n)
  | (.err, n) => ((q i).1, n + (q i).2)
  | (.panic, n) => (.panic, n)

/-- `nom::multi::many0` with explicit fuel (see `Nom.many0Go`); what the last, failed attempt has looked at counts, too. -/
def many0Go {α : Type} (p : CP α) : Nat → CP (List α)
  | 0, _ => (.err, 0)
  | k + 1, i =>
    match p i with
    | (.err, n) => (.ok i [], n)
    | (.panic, n) => (.panic, n)
    | (.ok r a, n) =>
      if r.length < i.length then
        match many0Go p k r with
        | (.ok r' as, m) => (.ok r' (a :: as), n + m)
        | (.err, m) => (.err, n + m)
        | (.panic, m) => (.panic, n + m)
      else (.err, n)

/-- `nom::multi::many0` and `fold_many0`. -/
def many0 {α : Type} (p : CP α) : CP (List α) := fun i => many0Go p (i.length + 1) i

/-! ## Content lines (`src/parser/mod.rs:60-148`) -/

/-- `key` (`src/parser/mod.rs:60-62`). -/
def key : CP Str := takeWhile isNameChar

/-- `attr` (`src/parser/mod.rs:64-70`). -/
def attrValue : CP Str := preceded (opt (tag c!"\r\n ")) (takeTill fun c => c = ';' || c = ':')

/-- `value` (`src/parser/mod.rs:72-74`). -/
def value : CP Str := takeTill isLineEnding

/-- `quoted_param` (`src/parser/mod.rs:80-86`). -/
def quotedParam : CP (Str × Str) := separatedPair key (tag c!"=\"") (takeTill fun c => c = '"')

/-- `param` (`src/parser/mod.rs:88-100`). -/
def param : CP (Str × Str) :=
  alt (delimited (char ';') quotedParam (char '"'))
    (preceded (char ';') (separatedPair key (char '=') attrValue))

/-- `params` (`src/parser/mod.rs:102-111`). -/
def params : CP (SMap Str) := map (many0 param) SMap.ofPairs

/-- `content_line` (`src/parser/mod.rs:116-137`). -/
def contentLine : CP ContentLine :=
  map (pair (not (tag c!"BEGIN:")) (pair (not (tag c!"END:")) (pair key (pair params
      (pair (char ':') (pair (opt value) lineEnding))))))
    fun (_, _, k, ps, _, v, _) => ⟨k, ps, v.getD []⟩

/-- `content_lines` (`src/parser/mod.rs:139-148`). -/
def contentLines : CP (List ContentLine) := many0 contentLine

/-! ## Components (`src/parser/components.rs`) -/

/-- The macro `component!` (`src/parser/components.rs:9-25`). -/
def componentP {α : Type} (name : Str) (conv : List ContentLine → Res α) : CP α :=
  mapRes (delimited (tag (c!"BEGIN:" ++ name ++ c!"\r\n")) contentLines
    (tag (c!"END:" ++ name ++ c!"\r\n"))) conv

section
variable [Platform]

/-- `valarm` (`src/parser/components.rs:27`). -/
def valarm : CP VAlarm := componentP c!"VALARM" VAlarm.tryFrom

/-- `vfreebusy` (`src/parser/components.rs:28`). -/
def vfreebusy : CP VFreebusy := componentP c!"VFREEBUSY" VFreebusy.tryFrom

/-- `vtodo` (`src/parser/components.rs:29`). -/
def vtodo : CP VTodo := componentP c!"VTODO" VTodo.tryFrom

/-- `vjournal` (`src/parser/components.rs:30`). -/
def vjournal : CP VJournal := componentP c!"VJOURNAL" VJournal.tryFrom

/-- `standard` (`src/parser/components.rs:31`). -/
def standard : CP Standard := componentP c!"STANDARD" Standard.tryFrom

/-- `daylight` (`src/parser/components.rs:32`). -/
def daylight : CP Daylight := componentP c!"DAYLIGHT" Daylight.tryFrom

/-- `vevent` (`src/parser/components.rs:46-64`). -/
def vevent : CP VEvent :=
  mapRes (delimited (tag c!"BEGIN:VEVENT\r\n") (pair contentLines (many0 valarm))
    (tag c!"END:VEVENT\r\n")) fun (ls, alarms) =>
    (VEvent.tryFrom ls).map fun e => { e with alarms := alarms }

/-- `vtimezone` (`src/parser/components.rs:66-100`). -/
def vtimezone : CP VTimezone :=
  mapRes (delimited (tag c!"BEGIN:VTIMEZONE\r\n")
    (pair contentLines (many0 (alt (map standard .standard) (map daylight .daylight))))
    (tag c!"END:VTIMEZONE\r\n")) fun (ls, parts) =>
    (VTimezone.tryFrom ls).map fun z => parts.foldl VTimezone.file z

/-- `component` (`src/parser/components.rs:102-115`). -/
def component : CP Component :=
  alt (map valarm .alarm) (alt (map vevent .event) (alt (map vfreebusy .freebusy)
    (alt (map vjournal .journal) (alt (map vtimezone .timezone) (map vtodo .todo)))))

/-- `components` (`src/parser/components.rs:117-119`). -/
def components : CP (List Component) := many0 component

/-- `vcalendar` (`src/parser/components.rs:121-155`). -/
def vcalendar : CP VCalendar :=
  mapRes (delimited (tag c!"BEGIN:VCALENDAR\r\n") (pair contentLines components)
    (tag c!"END:VCALENDAR")) fun (ls, cs) =>
    (VCalendar.tryFrom ls).map fun v => cs.foldl VCalendar.file v

end

end Ikal.Cost
