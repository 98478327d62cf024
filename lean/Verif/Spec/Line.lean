import Verif.Line

/-!
# Specification of content lines

RFC 5545, section 3.1, as ikal reads it: a property is `name *(;param) : value EOL`.
-/

namespace Ikal.Spec

/-- Characters of property and parameter names: ASCII letters and digits, `-` and `/`. -/
def NameChar (c : Char) : Prop :=
  ('a' ≤ c ∧ c ≤ 'z') ∨ ('A' ≤ c ∧ c ≤ 'Z') ∨ ('0' ≤ c ∧ c ≤ '9') ∨ c = '-' ∨ c = '/'

/-- A (possibly empty) name. -/
def IsName (s : Str) : Prop := ∀ c ∈ s, NameChar c

/-- `ParamText t k v rest`: followed by `rest`, the text `t` is the parameter `k` with value `v`. -/
inductive ParamText : Str → Str → Str → Str → Prop
  /-- `;NAME="value"`. -/
  | quoted {k v rest : Str} : IsName k → '"' ∉ v →
      ParamText (c!";" ++ k ++ c!"=\"" ++ v ++ c!"\"") k v rest
  /-- `;NAME=value`, up to the next `;` or `:`; a value that begins with a double quote is only
  read this way when no other double quote follows. -/
  | plain {k v rest : Str} : IsName k → ';' ∉ v → ':' ∉ v →
      (∀ c, rest.head? = some c → c = ';' ∨ c = ':') →
      (∀ w, v = '"' :: w → '"' ∉ w ++ rest) → ¬ c!"\r\n " <+: v →
      ParamText (c!";" ++ k ++ c!"=" ++ v) k v rest
  /-- A fold right after the `=` is dropped. -/
  | folded {k v rest : Str} : IsName k → ';' ∉ v → ':' ∉ v →
      (∀ c, rest.head? = some c → c = ';' ∨ c = ':') →
      ParamText (c!";" ++ k ++ c!"=\r\n " ++ v) k v rest

/-- A sequence of parameters followed by `rest`. -/
inductive ParamsText : Str → List (Str × Str) → Str → Prop
  | nil {rest : Str} : ParamsText [] [] rest
  | cons {t ts k v rest : Str} {ps : List (Str × Str)} :
      ParamText t k v (ts ++ rest) → ParamsText ts ps rest → ParamsText (t ++ ts) ((k, v) :: ps) rest

/-- The value of the last parameter with a name. -/
def lastValue (ps : List (Str × Str)) (k : Str) : Option Str :=
  ((ps.filter fun p => p.1 = k).getLast?).map Prod.snd

/-- `LineText i r l`: the input `i` begins with the content line `l`, and `r` follows it. -/
def LineText (i r : Str) (l : ContentLine) : Prop :=
  ¬ c!"BEGIN:" <+: i ∧ ¬ c!"END:" <+: i ∧
  ∃ (ptext : Str) (ps : List (Str × Str)) (eol : Str),
    i = l.key ++ ptext ++ c!":" ++ l.value ++ eol ++ r ∧
    IsName l.key ∧
    ParamsText ptext ps (c!":" ++ l.value ++ eol ++ r) ∧
    '\n' ∉ l.value ∧ '\r' ∉ l.value ∧
    (eol = c!"\n" ∨ eol = c!"\r\n") ∧
    l.params.Wf ∧ ∀ k, l.params.get? k = lastValue ps k

/-- Consecutive content lines with the text each was read from: the concatenation of the texts and the rest is the
input, and no content line can be read from the rest. -/
inductive LinesText : Str → List ContentLine → Str → Prop
  | nil {i : Str} : (∀ r l, ¬ LineText i r l) → LinesText i [] i
  | cons {i r r' : Str} {l : ContentLine} {ls : List ContentLine} :
      LineText i r l → LinesText r ls r' → LinesText i (l :: ls) r'

end Ikal.Spec
