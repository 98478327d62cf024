import Verif.Num
import Verif.Chrono

/-!
# 32-bit floats: nom's `float`, `str::parse::<f32>`, `{}` and `{:.1}`

Positions and request statuses hold `f32`s (`src/properties/geo.rs:6-7`, `src/properties/request_status.rs:6`).  They are read with `nom::number::complete::float`
(`src/parser/descriptive.rs:50`, `src/parser/misc.rs:29`) and written with `{}` (`src/properties/geo.rs:36`) and `{:.1}` (`src/properties/request_status.rs:35`).
The rest of the model is parametric in them (`Platform`); this is what they are: IEEE 754 binary32.

Simplifications: there is one NaN; the exponent of a number that is read is not limited (Rust stops counting above 65536, which makes a difference only for numbers
with more than 65000 digits).
-/

namespace Ikal

/-- The bits of infinity, `0x7f800000`: greater than those of all finite numbers. -/
def f32Inf : Nat := 255 * 2 ^ 23

/-- `f32`: not a number, infinity, or a finite number with its sign and its other bits. -/
inductive F32 where
  | nan
  | inf (neg : Bool)
  | fin (neg : Bool) (bits : Fin f32Inf)
deriving DecidableEq

namespace F32

/-- The number with these bits (without sign), in multiples of 2^-149: the lower 23 bits are the fraction, the upper 8 bits the exponent. -/
def scaled (b : Nat) : Nat := if b < 2 ^ 23 then b else (2 ^ 23 + b % 2 ^ 23) * 2 ^ (b / 2 ^ 23 - 1)

/-- The quotient rounded to the nearest integer, to an even one if there are two. -/
def halfEven (a w : Nat) : Nat := if w < 2 * (a % w) ∨ w = 2 * (a % w) ∧ a / w % 2 = 1 then a / w + 1 else a / w

/-- The bits of the float nearest to `a/b` (in multiples of 2^-149), those that are even if there are two.  Those of infinity come after those of the greatest finite number. -/
def nearest (a b : Nat) : Nat := (Nat.log2 (a / b) - 23) * 2 ^ 23 + halfEven a (b * 2 ^ (Nat.log2 (a / b) - 23))

/-- The bits of the float nearest to `c·10^e`. -/
def nearestDecimal (c : Nat) (e : Int) : Nat := nearest (c * 2 ^ 149 * 10 ^ e.toNat) (10 ^ (-e).toNat)

/-- The float with these bits; from those of infinity on, infinity. -/
def ofBits (neg : Bool) (n : Nat) : F32 := if h : n < f32Inf then .fin neg ⟨n, h⟩ else .inf neg

/-! ## Reading -/

/-- `opt(alt((char('+'), char('-'))))`. -/
def sign : Str → Bool × Str
  | '+' :: r => (false, r)
  | '-' :: r => (true, r)
  | r => (false, r)

/-- `alt(((digit1, opt(pair(char('.'), opt(digit1)))), (char('.'), digit1)))`: the digits before and after the point, and the rest. -/
def mantissa (s : Str) : Option (Str × Str × Str) :=
  let i := s.takeWhile Char.isDigit
  match s.dropWhile Char.isDigit with
  | '.' :: r =>
    let f := r.takeWhile Char.isDigit
    if i.isEmpty && f.isEmpty then none else some (i, f, r.dropWhile Char.isDigit)
  | r => if i.isEmpty then none else some (i, [], r)

/-- `opt((alt((char('e'), char('E'))), opt(alt((char('+'), char('-')))), cut(digit1)))`; `none` is a failure. -/
def exponent : Str → Option (Int × Str)
  | c :: r =>
    if c = 'e' ∨ c = 'E' then
      let (neg, r') := sign r
      let d := r'.takeWhile Char.isDigit
      if d.isEmpty then none
      else some (if neg then -(digitsVal d : Int) else digitsVal d, r'.dropWhile Char.isDigit)
    else some (0, c :: r)
  | [] => some (0, [])

/-- `tag_no_case`, for a tag of ASCII letters in lower case: what follows it. -/
def tagNoCase : Str → Str → Option Str
  | [], s => some s
  | t :: ts, c :: s => if c.toLower = t then tagNoCase ts s else none
  | _ :: _, [] => none

/-- `nom::number::complete::float`: `recognize_float_or_exceptions`, then `str::parse::<f32>`. -/
def parse (s : Str) : Option (F32 × Str) :=
  let (neg, r) := sign s
  match mantissa r with
  | some (i, f, r) =>
    match exponent r with
    | some (e, r) => some (ofBits neg (nearestDecimal (digitsVal (i ++ f)) (e - f.length)), r)
    | none => none
  | none =>
    match tagNoCase c!"nan" s with
    | some r => some (.nan, r)
    | none =>
      match tagNoCase c!"infinity" s with
      | some r => some (.inf false, r)
      | none => (tagNoCase c!"inf" s).map fun r => (.inf false, r)

/-! ## Writing -/

/-- The multiple of `10^e` nearest to the float with the bits `b` among those that are read as this float (the greater one if there are two). -/
def shortestAt (b : Nat) (e : Int) : Option Nat :=
  let num := scaled b * 10 ^ (-e).toNat
  let den := 2 ^ 149 * 10 ^ e.toNat
  let lo := num / den
  if nearestDecimal (lo + 1) e = b ∧ (nearestDecimal lo e ≠ b ∨ den ≤ 2 * (num % den)) then some (lo + 1)
  else if nearestDecimal lo e = b then some lo
  else none

/-- `core::num::flt2dec::strategy::dragon::format_shortest`: the coarsest power of ten with such a multiple. -/
def shortest (b : Nat) : Nat × Int :=
  ((List.range 188).findSome? fun (i : Nat) => (shortestAt b (38 - (i : Int))).map fun c => (c, 38 - (i : Int))).getD (0, 0)

/-- `c·10^e` without exponent, with at least one digit before the point (`core::num::flt2dec::digits_to_dec_str`). -/
def decimalText (c : Nat) (e : Int) : Str :=
  if 0 ≤ e then natStr c ++ List.replicate e.toNat '0'
  else
    let n := (-e).toNat
    let s := List.replicate (n + 1 - (natStr c).length) '0' ++ natStr c
    s.take (s.length - n) ++ '.' :: s.drop (s.length - n)

/-- `-` for a negative number. -/
def minus (neg : Bool) : Str := if neg then ['-'] else []

/-- `{}` (`src/properties/geo.rs:36`). -/
def display : F32 → Str
  | .nan => c!"NaN"
  | .inf neg => minus neg ++ c!"inf"
  | .fin neg b => minus neg ++ if b.val = 0 then ['0'] else decimalText (shortest b).1 (shortest b).2

/-- `{:.1}` (`src/properties/request_status.rs:35`): the tenths nearest to the number, even ones if there are two. -/
def display1 : F32 → Str
  | .nan => c!"NaN"
  | .inf neg => minus neg ++ c!"inf"
  | .fin neg b => minus neg ++ decimalText (halfEven (scaled b * 10) (2 ^ 149)) (-1)

/-- `f32: PartialEq`: no NaN is equal to anything, and zero is equal to minus zero. -/
def eq : F32 → F32 → Bool
  | .inf a, .inf b => a == b
  | .fin a x, .fin b y => x.val == y.val && (a == b || x.val == 0)
  | _, _ => false

end F32

/-- A platform with these floats. -/
@[reducible] def ieee (P : Platform) : Platform :=
  { P with F32 := F32, f32Default := .fin false ⟨0, by decide⟩, floatParse := F32.parse, floatShow := F32.display, floatShow1 := F32.display1 }

end Ikal
