import Verif.Basic

/-! # Specification: decimal numbers -/

namespace Ikal.Spec

/-- The value of a string of decimal digits, by position. -/
def decimal : Str → Nat
  | [] => 0
  | c :: cs => (c.toNat - '0'.toNat) * 10 ^ cs.length + decimal cs

/-- One or more decimal digits. -/
def Digits (s : Str) : Prop := s ≠ [] ∧ ∀ c ∈ s, '0' ≤ c ∧ c ≤ '9'

/-- `s` is the number `n`: digits with an optional `+`. -/
def IsUnsigned (s : Str) (n : Nat) : Prop := ∃ ds, Digits ds ∧ decimal ds = n ∧ (s = ds ∨ s = '+' :: ds)

/-- `s` is the number `n`: digits with an optional `+` or `-`. -/
def IsSigned (s : Str) (n : Int) : Prop :=
  ∃ ds, Digits ds ∧ ((s = ds ∨ s = '+' :: ds) ∧ n = decimal ds ∨ s = '-' :: ds ∧ n = -(decimal ds : Int))

/-- Two lists of the same length whose elements are related one by one. -/
inductive All2 {α β : Type} (R : α → β → Prop) : List α → List β → Prop
  | nil : All2 R [] []
  | cons {a : α} {b : β} {as : List α} {bs : List β} : R a b → All2 R as bs → All2 R (a :: as) (b :: bs)

/-- The pieces of a text that are separated by commas. -/
inductive CommaPieces : Str → List Str → Prop
  | last {s : Str} : ',' ∉ s → CommaPieces s [s]
  | more {s r : Str} {ps : List Str} : ',' ∉ s → CommaPieces r ps → CommaPieces (s ++ ',' :: r) (s :: ps)

/-- A comma separated list: each piece is related to one element, in order. -/
def ListOf {α : Type} (R : Str → α → Prop) (s : Str) (l : List α) : Prop := ∃ ps, CommaPieces s ps ∧ All2 R ps l

end Ikal.Spec
