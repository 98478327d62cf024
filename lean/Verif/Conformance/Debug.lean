import Verif.Debug

/-!
# The `{:#?}` rendering of the components, for the conformance check

The repository tests its parser against golden files: `tests/*/*.ics` holds an input and the `.out` file
of the same name the text of `format!("{component:#?}\n")`; an input without `.out` file must be rejected
(`test_files`, `src/lib.rs:241-283`).  This module gives the lines of the text that the model of
`Debug` makes (`Verif/Debug.lean`), so that `Verif/Conformance/*.lean` can compare the model with these files.  The recorded
outputs were made with `TZ: CET` (`.github/workflows/ci.yml:5`), so this module also has a platform for it.

Nothing here is used in a theorem: it is evidence that the model is the program.
-/

namespace Ikal.Conformance

/-- The lines of a text: depth of indentation and text. -/
abbrev Lines := List (Nat × Str)

/-- The lines of an indented text. -/
def linesOf (s : Str) : Lines :=
  (splitOn '\n' s).map fun l => ((l.takeWhile (· = ' ')).length / 4, l.dropWhile (· = ' '))

/-- The last Sunday on or before a day, as a day number (day 0, the 1st of January 0000, was a Saturday). -/
def lastSunday (d : NaiveDate) : Int := d.toDays - (d.toDays + 6) % 7

/-- The offset of CET at a UTC time, from 1977 on (the last Sundays of March and, until 1995, September or, since 1996, October). -/
def cetOffset (u : Int) : Int :=
  let y := (NaiveDate.ofDays (u / 86400)).year
  let s := lastSunday ⟨y, 3, 31⟩ * 86400 + 3600
  let e := lastSunday (if y < 1996 then ⟨y, 9, 30⟩ else ⟨y, 10, 31⟩) * 86400 + 3600
  if 1977 ≤ y ∧ s ≤ u ∧ u < e then 7200 else 3600

/-- Two decimal numerals denote the same float if they agree but for the zeros at the end. -/
def trimZeros (s : Str) : Str :=
  if s.any (· = '.') then
    let r := (s.reverse.dropWhile (· = '0')).reverse
    if r.getLast? = some '.' then r ++ ['0'] else r
  else s ++ c!".0"

/-- The platform of the recorded outputs; floats are their decimal text. -/
@[reducible] def cet : Platform where
  F32 := Str
  f32Default := c!"0.0"
  floatParse s :=
    let sign := s.takeWhile (· = '-')
    let r := s.dropWhile (· = '-')
    let d := r.takeWhile fun c => c.isDigit || c = '.'
    if d.isEmpty then none else some (trimZeros (sign ++ d), r.dropWhile fun c => c.isDigit || c = '.')
  floatShow s := s
  floatShow1 s := s
  tzOffset := cetOffset
  tzLocal w :=
    let a := cetOffset (w - 7200)
    let b := cetOffset (w - 3600)
    if a = 7200 ∧ b = 3600 then .ambiguous 7200 3600
    else if a = 7200 then .single 7200
    else if b = 3600 then .single 3600 else .none
  upperNonAscii c := [c]
  overflowChecks := true

attribute [local instance] cet

/-- All characters outside ASCII that the files contain are printable. -/
@[reducible] def allPrintable : DebugChars := ⟨fun _ => true⟩
attribute [local instance] allPrintable

/-- Floats are their decimal text. -/
@[reducible] def cetFloat : FloatDebug := ⟨fun s => s⟩
attribute [local instance] cetFloat

/-- A text whose lines end with CR LF (nothing after the last). -/
def crlf (l : List Str) : Str := join c!"\r\n" l

/-- A text whose lines end with LF. -/
def lf (l : List Str) : Str := join c!"\n" l

/-- The lines of `format!("{component:#?}")` when the text is accepted, nothing when it is rejected. -/
def shown {α : Type} [Dbg α] (f : Str → Res α) (s : Str) : Option Lines :=
  match f s with
  | .ok a => some (linesOf (Doc.tuple c!"Ok" [dbg a]).pretty)
  | .err _ => none
  | .panic => some []

end Ikal.Conformance
