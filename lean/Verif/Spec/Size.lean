import Verif.Values

/-!
# Sizes

What has to be known of the platform to bound the length of a text that is written.
-/

namespace Ikal.Spec

variable [Platform]

/-- A platform that does not write much: reading a number leaves no more text than there was, a number is shown
with at most `K` times as many characters as the text it was read from, the upper case of a
character has at most `K` characters, and the clocks of the zone are less than a day from UTC. -/
structure Modest (K : Nat) : Prop where
  rest : ∀ s (x : Platform.F32) r, Platform.floatParse s = some (x, r) → r.length ≤ s.length
  shown : ∀ s (x : Platform.F32) r, Platform.floatParse s = some (x, r) → (Platform.floatShow x).length ≤ K * s.length
  tenths : ∀ s (x : Platform.F32) r, Platform.floatParse s = some (x, r) → (Platform.floatShow1 x).length ≤ K * s.length
  upper : ∀ c, (Platform.upperNonAscii c).length ≤ K
  zone : ∀ n, -86400 < Platform.tzOffset n ∧ Platform.tzOffset n < 86400

end Ikal.Spec
