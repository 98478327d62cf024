import Verif.Nom

/-!
# Integers: Rust's `Display` and `FromStr`, nom's `i8`

Used through `to_string()` in `src/ser.rs:40-42` (`ical_for_tostring!(i8)`, `u8`, `u32`) and
`str::parse` in `src/parser/{alarm,change,descriptive,recurrence,datatype}.rs`.
-/

namespace Ikal

/-- The decimal digit `d < 10`. -/
def digitChar (d : Nat) : Char := Char.ofNat (48 + d)

/-- The value of a decimal digit. -/
def digitVal (c : Char) : Nat := c.toNat - 48

/-- Decimal digits of `n`, most significant first; the fuel bounds the number of digits. -/
def natStrGo : Nat → Nat → Str
  | 0, _ => []
  | f + 1, n => if n < 10 then [digitChar n] else natStrGo f (n / 10) ++ [digitChar (n % 10)]

/-- `Display` of the unsigned integers. -/
def natStr (n : Nat) : Str := natStrGo (n + 1) n

/-- `Display` of the signed integers. -/
def intStr (n : Int) : Str := if n < 0 then '-' :: natStr n.natAbs else natStr n.natAbs

/-- The value of a digit string. -/
def digitsVal (s : Str) : Nat := s.foldl (fun v c => v * 10 + digitVal c) 0

/-- The digits part common to all `from_str_radix(10)`: non-empty, ASCII digits only. -/
def parseDigits (s : Str) : Option Nat :=
  if s.isEmpty then none else if s.all Char.isDigit then some (digitsVal s) else none

/-- Rust `str::parse::<uN>()` with maximal value `hi`: an optional `+`, then digits.  A leading
`-` is an invalid digit for unsigned types. -/
def parseUnsigned (hi : Nat) (s : Str) : Option Nat :=
  let ds := match s with
    | '+' :: r => r
    | _ => s
  match parseDigits ds with
  | some n => if n ≤ hi then some n else none
  | none => none

/-- Rust `str::parse::<iN>()` for the range `lo..=hi`. -/
def parseSigned (lo hi : Int) (s : Str) : Option Int :=
  let (neg, ds) := match s with
    | '+' :: r => (false, r)
    | '-' :: r => (true, r)
    | _ => (false, s)
  match parseDigits ds with
  | some n =>
    let v : Int := if neg then -(n : Int) else n
    if lo ≤ v ∧ v ≤ hi then some v else none
  | none => none

def u8Max : Nat := 255
def u32Max : Nat := 4294967295
def i64Max : Int := 9223372036854775807

/-- `str::parse::<u8>`, e.g. `src/parser/descriptive.rs:69`. -/
def parseU8 (s : Str) : Option Nat := parseUnsigned u8Max s
/-- `str::parse::<u32>`, e.g. `src/parser/change.rs:36`. -/
def parseU32 (s : Str) : Option Nat := parseUnsigned u32Max s
/-- `str::parse::<i8>`, `src/parser/recurrence.rs:71`. -/
def parseI8 (s : Str) : Option Int := parseSigned (-128) 127 s
/-- `str::parse::<i64>`, `src/parser/datatype.rs:76-126`, `src/lib.rs:160-165`. -/
def parseI64 (s : Str) : Option Int := parseSigned (-i64Max - 1) i64Max s

/-- The digit loop of nom's integer parsers: checked multiplication and addition (or
subtraction after a `-`). -/
def nomIntLoop (lo hi : Int) (neg : Bool) : Int → Str → Option (Int × Str)
  | v, [] => some (v, [])
  | v, c :: cs =>
    if c.isDigit then
      let v10 := v * 10
      let v' := if neg then v10 - digitVal c else v10 + digitVal c
      if lo ≤ v10 ∧ v10 ≤ hi ∧ lo ≤ v' ∧ v' ≤ hi then nomIntLoop lo hi neg v' cs else none
    else some (v, c :: cs)

/-- `nom::character::complete::i8` (`src/parser/mod.rs:178`): optional sign, at least one digit;
overflow is an error. -/
def nomI8 : P Int := fun i =>
  let (neg, r) := match i with
    | '-' :: r => (true, r)
    | '+' :: r => (false, r)
    | _ => (false, i)
  match r with
  | [] => .err
  | c :: _ =>
    if c.isDigit then
      match nomIntLoop (-128) 127 neg 0 r with
      | some (v, r') => .ok r' v
      | none => .err
    else .err

/-- Two digits, as `{:02}` for numbers below 100. -/
def pad2 (n : Nat) : Str := [digitChar (n / 10 % 10), digitChar (n % 10)]

/-- Four digits, as `{:04}` for numbers below 10000. -/
def pad4 (n : Nat) : Str :=
  [digitChar (n / 1000 % 10), digitChar (n / 100 % 10), digitChar (n / 10 % 10), digitChar (n % 10)]

end Ikal
