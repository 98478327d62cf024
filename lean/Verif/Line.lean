import Verif.Ser

/-!
# Content lines (`src/content_line.rs`, `src/parser/mod.rs:36-148`)
-/

namespace Ikal

open Nom

/-- `ContentLine` (`src/content_line.rs:7-12`). -/
structure ContentLine where
  key : Str
  params : SMap Str
  value : Str
  deriving DecidableEq, Repr

/-- `From<&str> for ContentLine` (`src/content_line.rs:34-48`). -/
def ContentLine.ofValue (v : Str) : ContentLine := ⟨[], [], v⟩

/-- The `attr` of `ContentLine`, `Text` and `Uri` (`src/content_line.rs:61-67`,
`src/properties/text.rs:64-70`, `src/properties/uri.rs:58-64`). -/
def paramsAttr (params : SMap Str) : Option Str :=
  if params.isEmpty then none
  else match SMap.ical params with
    | .ok s => some s
    | _ => none

/-- `impl Serialize for ContentLine` (`src/content_line.rs:56-68`). -/
instance : Ser ContentLine where
  ical l := .ok (escape l.value)
  attr l := paramsAttr l.params

/-- `is_alphanumeric` (`src/parser/mod.rs:36-50`): ASCII letters and digits, `-` and `/`. -/
def isNameChar (c : Char) : Bool := c.isAlpha || c.isDigit || c = '-' || c = '/'

/-- `is_line_ending` (`src/parser/mod.rs:52-54`). -/
def isLineEnding (c : Char) : Bool := c = '\n' || c = '\r'

/-- `digits` (`src/parser/mod.rs:56-58`). -/
def digits : P Str := takeWhile Char.isDigit

/-- `key` (`src/parser/mod.rs:60-62`). -/
def key : P Str := takeWhile isNameChar

/-- `attr` (`src/parser/mod.rs:64-70`). -/
def attrValue : P Str := preceded (opt (tag c!"\r\n ")) (takeTill fun c => c = ';' || c = ':')

/-- `value` (`src/parser/mod.rs:72-74`). -/
def value : P Str := takeTill isLineEnding

/-- `quoted_param` (`src/parser/mod.rs:80-86`). -/
def quotedParam : P (Str × Str) := separatedPair key (tag c!"=\"") (takeTill fun c => c = '"')

/-- `param` (`src/parser/mod.rs:88-100`). -/
def param : P (Str × Str) :=
  alt (delimited (char ';') quotedParam (char '"'))
    (preceded (char ';') (separatedPair key (char '=') attrValue))

/-- `params` (`src/parser/mod.rs:102-111`). -/
def params : P (SMap Str) := map (many0 param) SMap.ofPairs

/-- `content_line` (`src/parser/mod.rs:116-137`). -/
def contentLine : P ContentLine :=
  map (pair (not (tag c!"BEGIN:")) (pair (not (tag c!"END:")) (pair key (pair params
      (pair (char ':') (pair (opt value) lineEnding))))))
    fun (_, _, k, ps, _, v, _) => ⟨k, ps, v.getD []⟩

/-- `content_lines` (`src/parser/mod.rs:139-148`). -/
def contentLines : P (List ContentLine) := many0 contentLine

/-- `s.replace("\r\n ", "")`, the unfolding done by every `FromStr` of a component
(`derive/src/component.rs:151`, `src/components/valarm.rs:49`). -/
def unfold : Str → Str
  | [] => []
  | '\r' :: '\n' :: ' ' :: r => unfold r
  | c :: r => c :: unfold r

/-- `From<nom::Err<..>> for Error` (`src/errors.rs:33-37`) and dropping the unread rest, as in
`parser(..).map_err(Error::from).map(|(_, x)| x)`. -/
def NRes.toRes {α : Type u} : NRes α → Res α
  | .ok _ a => .ok a
  | .err => .err .parser
  | .panic => .panic

end Ikal
