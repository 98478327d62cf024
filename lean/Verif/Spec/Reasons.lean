import Verif.Spec.Grammar
import Verif.Spec.MacroDuration

/-! # Specification: what is said about a text that is not a number, a date, an offset or a duration -/

namespace Ikal.Spec

/-! ## Integers -/

/-- What follows the sign, and whether that is a minus.  An unsigned number has no minus sign. -/
inductive AfterSign (signed : Bool) : Str → Bool → Str → Prop
  | plus {s : Str} : AfterSign signed ('+' :: s) false s
  | minus {s : Str} : signed = true → AfterSign signed ('-' :: s) true s
  | none {s : Str} : s.head? ≠ some '+' → (signed = true → s.head? ≠ some '-') → AfterSign signed s false s

/-- The number of the digits, which may be none. -/
def signedValue (neg : Bool) (ds : Str) : Int := if neg then -(decimal ds : Int) else decimal ds

/-- What is said of a text that is not an integer from `lo` to `hi`: the first fault from the left counts. -/
inductive NoInteger (signed : Bool) (lo hi : Int) : Str → Str → Prop
  | empty : NoInteger signed lo hi [] c!"cannot parse integer from empty string"
  | sign {c : Char} : c = '+' ∨ c = '-' → NoInteger signed lo hi [c] c!"invalid digit found in string"
  | digit {s ds r : Str} {neg : Bool} {c : Char} : AfterSign signed s neg (ds ++ c :: r) → (∀ d ∈ ds, '0' ≤ d ∧ d ≤ '9') →
      lo ≤ signedValue neg ds → signedValue neg ds ≤ hi → ¬ ('0' ≤ c ∧ c ≤ '9') → NoInteger signed lo hi s c!"invalid digit found in string"
  | large {s ds r : Str} : AfterSign signed s false (ds ++ r) → (∀ d ∈ ds, '0' ≤ d ∧ d ≤ '9') → hi < decimal ds →
      NoInteger signed lo hi s c!"number too large to fit in target type"
  | small {s ds r : Str} : AfterSign signed s true (ds ++ r) → (∀ d ∈ ds, '0' ≤ d ∧ d ≤ '9') → -(decimal ds : Int) < lo →
      NoInteger signed lo hi s c!"number too small to fit in target type"

/-! ## Dates -/

/-- The parts of a date-time: the year, numbers of at most two digits from `lo` to `hi`, and letters. -/
inductive DatePart where
  | year
  | number (lo hi : Nat)
  | letter (c : Char)

/-- The part is at the beginning of the text, and the rest is `r`. -/
def PartThen : DatePart → Str → Str → Prop
  | .year, s, r => ∃ y, YearThen s y r ∧ -2147483648 ≤ y ∧ y ≤ 2147483647
  | .number lo hi, s, r => ∃ n, NumberThen 2 s n r ∧ lo ≤ n ∧ n ≤ hi
  | .letter c, s, r => s = c :: r

/-- All the parts, one after the other. -/
inductive PartsThen : List DatePart → Str → Str → Prop
  | nil {s : Str} : PartsThen [] s s
  | cons {p : DatePart} {ps : List DatePart} {s r t : Str} : PartThen p s r → PartsThen ps r t → PartsThen (p :: ps) s t

def Blanks (s : Str) : Prop := ∀ c ∈ s, isWhitespace c = true

/-- The part is not at the beginning of the text, and what is said about that. -/
inductive PartMissing : DatePart → Str → Str → Prop
  | yearEnd {s : Str} : Blanks s → PartMissing .year s c!"premature end of input"
  | signEnd {s : Str} {c : Char} : Blanks s → c = '+' ∨ c = '-' → PartMissing .year (s ++ [c]) c!"premature end of input"
  | yearChar {s r : Str} {c : Char} : Blanks s → isWhitespace c = false → ¬ ('0' ≤ c ∧ c ≤ '9') → c ≠ '+' → c ≠ '-' →
      PartMissing .year (s ++ c :: r) c!"input contains invalid characters"
  | signChar {s r : Str} {c d : Char} : Blanks s → c = '+' ∨ c = '-' → ¬ ('0' ≤ d ∧ d ≤ '9') →
      PartMissing .year (s ++ c :: d :: r) c!"input contains invalid characters"
  | yearRange {s r : Str} {y : Int} : YearThen s y r → ¬ (-2147483648 ≤ y ∧ y ≤ 2147483647) → PartMissing .year s c!"input is out of range"
  | numberEnd {lo hi : Nat} {s : Str} : Blanks s → PartMissing (.number lo hi) s c!"premature end of input"
  | numberChar {lo hi : Nat} {s r : Str} {c : Char} : Blanks s → isWhitespace c = false → ¬ ('0' ≤ c ∧ c ≤ '9') →
      PartMissing (.number lo hi) (s ++ c :: r) c!"input contains invalid characters"
  | numberRange {lo hi n : Nat} {s r : Str} : NumberThen 2 s n r → ¬ (lo ≤ n ∧ n ≤ hi) → PartMissing (.number lo hi) s c!"input is out of range"
  | letterEnd {c : Char} : PartMissing (.letter c) [] c!"premature end of input"
  | letterOther {c d : Char} {r : Str} : d ≠ c → PartMissing (.letter c) (d :: r) c!"input contains invalid characters"

/-- The parts of a date-time that ends with a `Z`. -/
def zuluParts : List DatePart :=
  [.year, .number 1 12, .number 1 31, .letter 'T', .number 0 23, .number 0 59, .number 0 60, .letter 'Z']

/-- What is said of a text that is not a date-time with a `Z`: the first part that is missing, or something after the last one, or a date
that does not exist. -/
inductive NoZulu (s : Str) : Str → Prop
  | part {ps qs : List DatePart} {p : DatePart} {r m : Str} : zuluParts = ps ++ p :: qs → PartsThen ps s r → PartMissing p r m → NoZulu s m
  | more {c : Char} {r : Str} : PartsThen zuluParts s (c :: r) → NoZulu s c!"trailing input"
  | noDate : PartsThen zuluParts s [] → (∀ t, ¬ DateTimeThen s t ['Z']) → NoZulu s c!"input is out of range"

/-! ## Offsets -/

def Colons (s : Str) : Prop := ∀ c ∈ s, c = ':' ∨ isWhitespace c = true

/-- The text begins with two digits. -/
def TwoDigits (s : Str) : Prop := ∃ a b r, s = a :: b :: r ∧ ('0' ≤ a ∧ a ≤ '9') ∧ ('0' ≤ b ∧ b ≤ '9')

/-- There is no room for two digits: nothing, or one character of one octet. -/
def NoRoom (s : Str) : Prop := s = [] ∨ ∃ c, s = [c] ∧ c.toNat < 128

/-- What is said of a text that does not begin with two digits. -/
inductive NoTwoDigits (s : Str) : Str → Prop
  | short : NoRoom s → NoTwoDigits s c!"premature end of input"
  | char : ¬ NoRoom s → ¬ TwoDigits s → NoTwoDigits s c!"input contains invalid characters"

def IsSign (c : Char) : Prop := c = '+' ∨ c = '-' ∨ c = '\u2212'

/-- What is said of a text that is not an offset. -/
inductive NoOffset : Str → Str → Prop
  | empty : NoOffset [] c!"premature end of input"
  | sign {c : Char} {r : Str} : ¬ IsSign c → NoOffset (c :: r) c!"input contains invalid characters"
  | hours {c : Char} {r m : Str} : IsSign c → NoTwoDigits r m → NoOffset (c :: r) m
  | minutes {c a b : Char} {ws r m : Str} : IsSign c → TwoDigits [a, b] → Colons ws → (∀ d, r.head? = some d → ¬ (d = ':' ∨ isWhitespace d = true)) →
      NoTwoDigits r m → NoOffset (c :: a :: b :: (ws ++ r)) m
  | range {c a b x y : Char} {ws r : Str} : IsSign c → TwoDigits [a, b] → Colons ws → TwoDigits [x, y] → 24 ≤ decimal [a, b] ∨ 60 ≤ decimal [x, y] →
      NoOffset (c :: a :: b :: (ws ++ x :: y :: r)) c!"input is out of range"

/-! ## Durations in the syntax of the macros -/

/-- What is said of a unit that is unknown (the digits before it, not the letter), or that has no number or one of more than 63 bits. -/
inductive NoUnitWorth (u : MacroUnit) : Str → Prop
  | unknown : unitDays u = none → unitSeconds u = none → NoUnitWorth u (c!"Invalid duration: " ++ u.number)
  | empty : unitDays u ≠ none ∨ unitSeconds u ≠ none → u.number = [] → NoUnitWorth u c!"cannot parse integer from empty string"
  | large : unitDays u ≠ none ∨ unitSeconds u ≠ none → 9223372036854775807 < decimal u.number → NoUnitWorth u c!"number too large to fit in target type"

/-- What is said of a text that is not a duration: that it has no `P`, or what the first bad unit says. -/
inductive NoDuration [Platform] (s : Str) : Str → Prop
  | noP : (∀ body, s ≠ 'P' :: body ∧ s ≠ '-' :: 'P' :: body) → NoDuration s (c!"Invalid duration: " ++ s)
  | unit {body m : Str} {us vs : List MacroUnit} {u : MacroUnit} {n : Int} : s = 'P' :: body ∨ s = '-' :: 'P' :: body →
      macroUnits body = us ++ u :: vs → UnitSum 0 us (.ok n) → NoUnitWorth u m → NoDuration s m

end Ikal.Spec
