import Verif.Trace

/-! # Specification: texts and characters in quotes, as `Debug` shows them -/

namespace Ikal.Spec

/-- The number that hexadecimal digits (lower case) stand for. -/
def HexNumber : Str → Nat → Prop
  | [], n => n = 0
  | c :: r, n => ∃ d m, HexNumber r m ∧ n = d * 16 ^ r.length + m ∧ c!"0123456789abcdef"[d]? = some c

/-- A character between quotes `q`. -/
inductive Quoted [DebugChars] (q : Char) : Char → Str → Prop
  | quote : Quoted q q ['\\', q]
  | nul : Quoted q '\x00' c!"\\0"
  | tab : Quoted q '\t' c!"\\t"
  | cr : Quoted q '\r' c!"\\r"
  | lf : Quoted q '\n' c!"\\n"
  | backslash : Quoted q '\\' c!"\\\\"
  /-- Printable characters other than these are shown as they are: in ASCII, those from the blank to the tilde. -/
  | plain {c : Char} : c ≠ q → c ≠ '\\' → ' ' ≤ c ∧ c ≤ '~' ∨ '\x7f' < c ∧ DebugChars.printable c = true → Quoted q c [c]
  /-- The others are shown by their number, without leading zeros. -/
  | code {c : Char} {h : Str} : ¬ (' ' ≤ c ∧ c ≤ '~') → (c ≤ '\x7f' ∨ DebugChars.printable c = false) →
      c ≠ '\x00' → c ≠ '\t' → c ≠ '\r' → c ≠ '\n' →
      h ≠ [] → HexNumber h c.toNat → (∀ r, h ≠ '0' :: r) → Quoted q c (c!"\\u{" ++ h ++ c!"}")

/-- Each character of the text, one after the other. -/
inductive QuotedAll [DebugChars] (q : Char) : Str → Str → Prop
  | nil : QuotedAll q [] []
  | cons {c : Char} {s t u : Str} : Quoted q c t → QuotedAll q s u → QuotedAll q (c :: s) (t ++ u)

/-- A text in double quotes. -/
def QuotedText [DebugChars] (s t : Str) : Prop := ∃ u, QuotedAll '"' s u ∧ t = c!"\"" ++ u ++ c!"\""

end Ikal.Spec
