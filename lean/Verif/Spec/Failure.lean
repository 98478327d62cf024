import Verif.Failure
import Verif.Spec.Debug

/-!
# Specification: errors as values
-/

namespace Ikal.Spec

/-- Two errors of the same kind: made with the same variant. -/
inductive SameKind : CrateError → CrateError → Prop
  | alarm (a b) : SameKind (.alarm a) (.alarm b)
  | date (a b) : SameKind (.date a) (.date b)
  | freq (a b) : SameKind (.freq a) (.freq b)
  | key (a b) : SameKind (.key a) (.key b)
  | localTime (a b) : SameKind (.localTime a) (.localTime b)
  | parseDuration (a b) : SameKind (.parseDuration a) (.parseDuration b)
  | parseInt (a b) : SameKind (.parseInt a) (.parseInt b)
  | parser (a b) : SameKind (.parser a) (.parser b)
  | priority (a b) : SameKind (.priority a) (.priority b)
  | serialize (a b) : SameKind (.serialize a) (.serialize b)
  | status (a b) : SameKind (.status a) (.status b)
  | timeTransparency (a b) : SameKind (.timeTransparency a) (.timeTransparency b)
  | weekday (a b) : SameKind (.weekday a) (.weekday b)

section
variable [Platform]

/-- The date-time in the error, if there is one, is one that can be read, and its clock is clear. -/
def ReadFailure : CrateError → Prop
  | .localTime t => ReadDateTime t ∧ ClearClock t
  | _ => True

variable [DebugChars]

/-- `{:?}` of an error: the name of its kind and, in parentheses, the `{:?}` of what it carries. -/
inductive Shown : CrateError → Str → Prop
  | alarm (s : Str) : Shown (.alarm s) (c!"Alarm(" ++ debugText s ++ c!")")
  | tooShort : Shown (.date .tooShort) c!"Date(ParseError(TooShort))"
  | tooLong : Shown (.date .tooLong) c!"Date(ParseError(TooLong))"
  | invalid : Shown (.date .invalid) c!"Date(ParseError(Invalid))"
  | outOfRange : Shown (.date .outOfRange) c!"Date(ParseError(OutOfRange))"
  | freq (s : Str) : Shown (.freq s) (c!"Freq(" ++ debugText s ++ c!")")
  | key (s : Str) : Shown (.key s) (c!"Key(" ++ debugText s ++ c!")")
  | localTime (t : DateTime) : Shown (.localTime t) (c!"Local(" ++ debugText t ++ c!")")
  | parseDuration (s : Str) : Shown (.parseDuration s) (c!"ParseDuration(" ++ debugText s ++ c!")")
  | empty : Shown (.parseInt .empty) c!"ParseIntError(ParseIntError { kind: Empty })"
  | invalidDigit : Shown (.parseInt .invalidDigit) c!"ParseIntError(ParseIntError { kind: InvalidDigit })"
  | posOverflow : Shown (.parseInt .posOverflow) c!"ParseIntError(ParseIntError { kind: PosOverflow })"
  | negOverflow : Shown (.parseInt .negOverflow) c!"ParseIntError(ParseIntError { kind: NegOverflow })"
  | parser (s : Str) : Shown (.parser s) (c!"Parser(" ++ debugText s ++ c!")")
  | priority (n : Nat) : Shown (.priority n) (c!"Priority(" ++ natStr n ++ c!")")
  | serialize (s : Str) : Shown (.serialize s) (c!"Serialize(" ++ debugText s ++ c!")")
  | status (s : Str) : Shown (.status s) (c!"Status(" ++ debugText s ++ c!")")
  | timeTransparency (s : Str) : Shown (.timeTransparency s) (c!"TimeTransparency(" ++ debugText s ++ c!")")
  | weekday (s : Str) : Shown (.weekday s) (c!"Weekday(" ++ debugText s ++ c!")")

/-! ## nom's error as `Debug` sees it -/

/-- The calls of `Debug` for an entry: a pair of the rest of the input and the kind (`nom_language::error::VerboseErrorKind`, derived). -/
def entryDoc (e : Str × TraceKind) : Doc := .tuple [] [.str e.1, match e.2 with
  | .context s => .tuple c!"Context" [.str s]
  | .chr c => .tuple c!"Char" [.word ('\'' :: (if c = '\'' then c!"\\'" else debugChar c) ++ ['\''])]
  | .nom k => .tuple c!"Nom" [.word k.debug]]

/-- The calls of `Debug` for `nom::Err::Error(VerboseError { errors })` (derived). -/
def traceDoc (t : Trace) : Doc := .tuple c!"Error" [.struct c!"VerboseError" [(c!"errors", .list (t.map entryDoc))]]

end

end Ikal.Spec
