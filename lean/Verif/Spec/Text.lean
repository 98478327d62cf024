import Verif.Spec.Line

/-! # Specification of text escaping (RFC 5545, section 3.3.11) -/

namespace Ikal.Spec

/-- `EscapedAs s out`: `out` is `s` with `;`, `,` and line feeds escaped, nothing else changed. -/
inductive EscapedAs : Str → Str → Prop
  | nil : EscapedAs [] []
  | semicolon {s o : Str} : EscapedAs s o → EscapedAs (';' :: s) ('\\' :: ';' :: o)
  | comma {s o : Str} : EscapedAs s o → EscapedAs (',' :: s) ('\\' :: ',' :: o)
  | newline {s o : Str} : EscapedAs s o → EscapedAs ('\n' :: s) ('\\' :: 'n' :: o)
  | other {c : Char} {s o : Str} : c ≠ ';' → c ≠ ',' → c ≠ '\n' → EscapedAs s o → EscapedAs (c :: s) (c :: o)

/-- RFC 5545 unescaping of text. -/
def unescape : Str → Str
  | '\\' :: '\\' :: r => '\\' :: unescape r
  | '\\' :: ';' :: r => ';' :: unescape r
  | '\\' :: ',' :: r => ',' :: unescape r
  | '\\' :: 'n' :: r => '\n' :: unescape r
  | '\\' :: 'N' :: r => '\n' :: unescape r
  | c :: r => c :: unescape r
  | [] => []

/-- The text needs no escaping. -/
def Plain (s : Str) : Prop := ';' ∉ s ∧ ',' ∉ s ∧ '\n' ∉ s

instance (s : Str) : Decidable (Plain s) := by unfold Plain; infer_instance

/-- Parameters that are written so that they are read back: what a `BTreeMap` can be, names of
name characters, values without `;`, `:`, `,`, line feed, not beginning with a double quote. -/
def SafeParams (m : SMap Str) : Prop :=
  m.Wf ∧ ∀ p ∈ m, IsName p.1 ∧ ';' ∉ p.2 ∧ ':' ∉ p.2 ∧ ',' ∉ p.2 ∧ '\n' ∉ p.2 ∧ p.2.head? ≠ some '"'

/-- Property names that are read back as such. -/
def SafeName (n : Str) : Prop := IsName n ∧ n ≠ c!"BEGIN" ∧ n ≠ c!"END"

end Ikal.Spec
