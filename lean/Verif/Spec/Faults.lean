import Verif.Spec.Struct
import Verif.Spec.Num
import Verif.Spec.Document

/-!
# Specification: how the conversion of lines into a struct with `#[derive(Component)]` fails

`ds` is the declaration as it is written.
-/

namespace Ikal.Spec

variable [Platform]

/-- An error is returned, or there is a panic. -/
inductive Failure where
  | error (e : Error)
  | panic
  deriving DecidableEq

/-- The outcome of a call that fails. -/
def Failure.res {α : Type} : Failure → Res α
  | .error e => .err e
  | .panic => .panic

/-- The line can be read as the property of the field. -/
def Readable (d : FieldDecl) (l : ContentLine) : Prop := ∃ t p, parserOf d.ident = some ⟨t, p⟩ ∧ ∃ a, p l = .ok a

/-- Reading the line as the property of the field fails. -/
def LineFails (d : FieldDecl) (l : ContentLine) (f : Failure) : Prop := ∃ t p, parserOf d.ident = some ⟨t, p⟩ ∧ p l = f.res

/-- A field that must be given. -/
def Needed (d : FieldDecl) : Prop := d.ignore = false ∧ kind d = .required

/-- A field that need not be given. -/
def Spare (d : FieldDecl) : Prop := d.ignore = false ∧ kind d ≠ .required

/-- The property of the field is there, and its last line can be read. -/
def Given (d : FieldDecl) (ls : List ContentLine) : Prop := ∃ l, lastNamed (kebab d.ident) ls = some l ∧ Readable d l

/-- The property of the field is missing, or its last line cannot be read. -/
def GivenFails (d : FieldDecl) (ls : List ContentLine) (f : Failure) : Prop :=
  (lastNamed (kebab d.ident) ls = none ∧ f = .error .parser) ∨ ∃ l, lastNamed (kebab d.ident) ls = some l ∧ LineFails d l f

/-- The line is not one of a field that need not be given, or it can be read. -/
def LineFine (ds : List FieldDecl) (l : ContentLine) : Prop := ∀ d ∈ ds, Spare d → l.key = kebab d.ident → Readable d l

/-- The first fault: that of the first field, in the order of declaration, that must be given and is not; or, all of these being given, that of the first line, in the order of the
lines, that is not fine. -/
def FirstFault (ds : List FieldDecl) (ls : List ContentLine) (f : Failure) : Prop :=
  (∃ before d after, ds = before ++ d :: after ∧ (∀ q ∈ before, Needed q → Given q ls) ∧ Needed d ∧ GivenFails d ls f) ∨
  ((∀ q ∈ ds, Needed q → Given q ls) ∧
    ∃ before l after, ls = before ++ l :: after ∧ (∀ l' ∈ before, LineFine ds l') ∧ ∃ d ∈ ds, Spare d ∧ l.key = kebab d.ident ∧ LineFails d l f)

/-- The error that the value `v` of the property of the field with this name gives, if it gives one: numbers that of an integer, a priority that is a number up to 255 one that says the number, a status and a
transparency one that says the value, an offset that of a date, dates, durations, rules, positions and statuses of requests that of the parser; texts, addresses and classes none. -/
def ErrorOf (ident v : Str) (e : Error) : Prop :=
  (ident ∈ [c!"repeat", c!"sequence", c!"percent_complete"] ∧ e = .parseInt) ∨
  (ident = c!"priority" ∧ (∀ n, IsUnsigned v n → 255 < n) ∧ e = .parseInt) ∨
  (ident = c!"priority" ∧ ∃ n, IsUnsigned v n ∧ 9 < n ∧ n ≤ 255 ∧ e = .priority n) ∨
  (ident = c!"status" ∧ e = .status v) ∨
  (ident = c!"transp" ∧ e = .timeTransparency v) ∨
  (ident ∈ [c!"tzoffsetfrom", c!"tzoffsetto"] ∧ e = .date) ∨
  (ident ∈ [c!"trigger", c!"created", c!"dtstamp", c!"last_modified", c!"completed", c!"dtend", c!"due", c!"dtstart", c!"recurid", c!"duration", c!"freebusy", c!"geo", c!"rstatus",
    c!"exdate", c!"rdate", c!"rrule"] ∧ e = .parser)

/-- The fault of an alarm: a panic without `ACTION`; an error that says the action if it is none of the three; otherwise that of the kind of alarm the first `ACTION` line says. -/
def AlarmFault (ls : List ContentLine) (f : Failure) : Prop :=
  (firstAction ls = none ∧ f = .panic) ∨
  (∃ a, firstAction ls = some a ∧ a ≠ c!"AUDIO" ∧ a ≠ c!"DISPLAY" ∧ a ≠ c!"EMAIL" ∧ f = .error (.alarm a)) ∨
  (firstAction ls = some c!"AUDIO" ∧ FirstFault Audio.declaration ls f) ∨
  (firstAction ls = some c!"DISPLAY" ∧ FirstFault Display.declaration ls f) ∨
  (firstAction ls = some c!"EMAIL" ∧ FirstFault Email.declaration ls f)

end Ikal.Spec
