import Verif.Spec.Reading

/-!
# Specification: texts cut short
-/

namespace Ikal.Spec

/-- Wherever `="` stands in the text, the next double quote, if there is one at all, is before the end of the line. -/
def QuotesClose (s : Str) : Prop := ∀ a b c, s = a ++ c!"=\"" ++ b ++ c → '\n' ∈ b → '"' ∉ b → '"' ∉ c

end Ikal.Spec
