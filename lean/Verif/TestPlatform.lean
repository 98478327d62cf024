import Verif.Chrono

/-!
# Concrete platforms, for examples and refutations only

The model is parametric in the parts of the standard library and operating system that are not modelled
(`Platform`, `Verif/Chrono.lean`).  Examples that compute need an instance: floats are their decimal text, the local zone has
a constant offset.
-/

namespace Ikal

/-- A platform whose local zone is always `off` seconds east of UTC. -/
@[reducible] def fixedZone (off : Int) : Platform where
  F32 := Str
  f32Default := ['0']
  floatParse s :=
    let d := s.takeWhile fun c => c.isDigit || c = '.'
    if d.isEmpty then none else some (d, s.dropWhile fun c => c.isDigit || c = '.')
  floatShow s := s
  floatShow1 s := s
  tzOffset _ := off
  tzLocal _ := .single off
  upperNonAscii c := [c]
  overflowChecks := true

/-- The local zone is UTC. -/
@[reducible] def utc : Platform := fixedZone 0

end Ikal
