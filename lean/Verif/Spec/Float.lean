import Verif.Spec.Num
import Verif.Float

/-!
# Specification: 32-bit floats

What the numbers are (IEEE 754), what it means for one to be the nearest to a decimal number, which texts are numbers, and how they are shown.
-/

namespace Ikal.Spec

/-- The number with the given bits, in multiples of the smallest positive one, 2^-149: with the exponent field `E` (the bits above the lower 23) and the fraction field `F` it is
`F` if `E` is 0, and `(2^23 + F)·2^(E-1)` otherwise. -/
def units (b : Nat) : Nat := if b / 2 ^ 23 = 0 then b % 2 ^ 23 else (2 ^ 23 + b % 2 ^ 23) * 2 ^ (b / 2 ^ 23 - 1)

/-- How far the number with the bits `j` is from `a/b` of these units, times `b`. -/
def Off (j a b : Nat) : Nat := (units j * b - a : Int).natAbs

/-- Among all numbers the one with the bits `n` is the nearest to `a/b` units; if two are the nearest, it is the one with even bits.  (The bits of infinity come after those of the
greatest finite number; they count as the number that would come next.) -/
def Nearest (n a b : Nat) : Prop := (∀ j, Off n a b ≤ Off j a b) ∧ ∀ j, j ≠ n → Off j a b = Off n a b → n % 2 = 0

/-- The decimal number `c·10^e` is rounded to the number with the bits `n`. -/
def RoundsTo (c : Nat) (e : Int) (n : Nat) : Prop := Nearest n (c * 2 ^ 149 * 10 ^ e.toNat) (10 ^ (-e).toNat)

/-- The float with the sign `neg` that is the nearest to `c·10^e`: infinity, if that is too great. -/
def Rounded (x : F32) (neg : Bool) (c : Nat) (e : Int) : Prop :=
  ∃ n, RoundsTo c e n ∧ ((∃ h : n < f32Inf, x = .fin neg ⟨n, h⟩) ∨ f32Inf ≤ n ∧ x = .inf neg)

/-! ## Reading -/

/-- A sign or none, and whether it is a minus. -/
def SignText (t : Str) (neg : Bool) : Prop := t = [] ∧ neg = false ∨ t = ['+'] ∧ neg = false ∨ t = ['-'] ∧ neg = true

/-- Only digits, perhaps none. -/
def OnlyDigits (t : Str) : Prop := ∀ c ∈ t, c.isDigit = true

/-- The text does not begin with a digit. -/
def NoDigit (t : Str) : Prop := ∀ c, t.head? = some c → c.isDigit = false

/-- An exponent, `e` or `E`, a sign and digits, or none, before the rest of a text. -/
def ExponentText (t : Str) (e : Int) (rest : Str) : Prop :=
  t = [] ∧ e = 0 ∧ rest.head? ≠ some 'e' ∧ rest.head? ≠ some 'E' ∨
  ∃ c sg d neg, t = c :: (sg ++ d) ∧ (c = 'e' ∨ c = 'E') ∧ SignText sg neg ∧ Digits d ∧ NoDigit rest ∧ e = if neg then -(decimal d : Int) else decimal d

/-- A decimal number at the beginning of a text, as long as possible: a sign, digits with or without a point, an exponent. -/
def RealText (s : Str) (x : F32) (rest : Str) : Prop :=
  ∃ sg i pt f ex neg e, s = sg ++ (i ++ (pt ++ (f ++ (ex ++ rest)))) ∧ SignText sg neg ∧ OnlyDigits i ∧ OnlyDigits f ∧ (i ≠ [] ∨ f ≠ []) ∧
    (pt = ['.'] ∨ pt = [] ∧ f = [] ∧ (ex ++ rest).head? ≠ some '.') ∧ NoDigit (ex ++ rest) ∧ ExponentText ex e rest ∧
    Rounded x neg (decimal (i ++ f)) (e - f.length)

/-- The text begins with the word, in small or capital letters. -/
def BeginsWith (word : Str) (s rest : Str) : Prop := ∃ w, s = w ++ rest ∧ w.map Char.toLower = word

/-- What is read as a float at the beginning of a text, and what is left. -/
def FloatText (s : Str) (x : F32) (rest : Str) : Prop :=
  RealText s x rest ∨ x = .nan ∧ BeginsWith c!"nan" s rest ∨
  x = .inf false ∧ (BeginsWith c!"infinity" s rest ∨ BeginsWith c!"inf" s rest ∧ ∀ r, ¬ BeginsWith c!"infinity" s r)

/-! ## Writing -/

/-- The text is `c·10^e` without exponent: digits, and a point with `-e` digits behind it if `e` is negative; without zeros before the first digit other than one before the point. -/
def PlainDecimal (t : Str) (c : Nat) (e : Int) : Prop :=
  (0 ≤ e ∧ Digits t ∧ decimal t = c * 10 ^ e.toNat ∧ (t.head? = some '0' → t = ['0'])) ∨
  (e < 0 ∧ ∃ i f, t = i ++ '.' :: f ∧ Digits i ∧ Digits f ∧ f.length = (-e).toNat ∧ decimal (i ++ f) = c ∧ (i.head? = some '0' → i = ['0']))

/-- How far the number with the bits `b` is from `t` tenths, in tenths of a unit. -/
def TenthsOff (b t : Nat) : Nat := ((10 * units b : Nat) - (t * 2 ^ 149 : Nat) : Int).natAbs

/-- `t` tenths are the nearest to the number with the bits `b`; if two are, `t` is even. -/
def Tenths (b t : Nat) : Prop := (∀ j, TenthsOff b t ≤ TenthsOff b j) ∧ ∀ j, j ≠ t → TenthsOff b j = TenthsOff b t → t % 2 = 0

end Ikal.Spec
