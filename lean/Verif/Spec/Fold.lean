import Verif.Basic

/-! # Specification of property lines and folding (RFC 5545, section 3.1) -/

namespace Ikal.Spec

/-- The unfolded text of a property: name, parameters, value, CR LF. -/
def propertyLine (name : Str) (params : Option Str) (value : Str) : Str :=
  match params with
  | some ps => name ++ c!";" ++ ps ++ c!":" ++ value ++ c!"\r\n"
  | none => name ++ c!":" ++ value ++ c!"\r\n"

/-- The physical lines of a text: what is between consecutive CR LF. -/
def physicalLines : Str → List Str
  | [] => [[]]
  | '\r' :: '\n' :: r => [] :: physicalLines r
  | c :: r =>
    match physicalLines r with
    | [] => [[c]]
    | l :: ls => (c :: l) :: ls

/-- Position `n` (in octets) of a text is not inside a character. -/
def CharBoundary (s : Str) (n : Nat) : Prop := ∃ p, p <+: s ∧ byteLen p = n

/-- The text contains CR LF SPACE. -/
def HasFold (s : Str) : Prop := c!"\r\n " <:+: s

end Ikal.Spec
