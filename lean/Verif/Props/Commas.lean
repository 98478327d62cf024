import Verif.Props.Fields
import Verif.Props.Grammar

/-! # The values of comma separated properties (C15) -/

namespace Ikal
open Spec

section
variable [Platform]

theorem all2_of_map {α β : Type} {f : α → Res β} {R : α → β → Prop} (h : ∀ a b, f a = .ok b → R a b) : ∀ {as : List α} {bs : List β}, as.map f = bs.map .ok → All2 R as bs
  | [], [], _ => .nil
  | [], _ :: _, h => by simp at h
  | _ :: _, [], h => by simp at h
  | a :: as, b :: bs, hm => by
    simp only [List.map_cons, List.cons.injEq] at hm
    exact .cons (h a b hm.1) (all2_of_map h hm.2)

/-- The values are those between the commas of the lines, line by line. -/
def Spec.BetweenCommas {α : Type} (R : Str → α → Prop) (lines : List ContentLine) (values : List α) : Prop :=
  ∃ vss : List (List α), All2 (fun l vs => ListOf R l.value vs) lines vss ∧ values = vss.flatten

/-- An item of a list of texts: the text itself, without parameters. -/
def Spec.PlainText (s : Str) (t : Text) : Prop := t.text = s ∧ t.params = []

/-- **C15** for `VEvent`: categories, resources and excluded dates are those between the commas of all their lines, in order. -/
theorem C15_VEvent_commas (ls : List ContentLine) (v : VEvent) (h : VEvent.tryFrom ls = .ok v) :
    BetweenCommas PlainText (named c!"CATEGORIES" ls) v.categories ∧
    BetweenCommas PlainText (named c!"RESOURCES" ls) v.resources ∧
    BetweenCommas DateValue (named c!"EXDATE" ls) v.exdate := by
  obtain ⟨-, -, ⟨a, ha, ea⟩, -, -, ⟨b, hb, eb⟩, -, -, ⟨c, hc, ec⟩, -⟩ := C15_VEvent ls v h
  exact ⟨⟨a, all2_of_map (fun l vs => (C70_lists l).2.2.2 vs |>.1) ha, ea⟩, ⟨c, all2_of_map (fun l vs => (C70_lists l).2.2.2 vs |>.1) hc, ec⟩,
    ⟨b, all2_of_map (fun l vs => (C70_lists l).2.1 vs |>.1) hb, eb⟩⟩

/-- **C15** for `VTodo`: categories, resources and excluded dates are those between the commas of all their lines, in order. -/
theorem C15_VTodo_commas (ls : List ContentLine) (v : VTodo) (h : VTodo.tryFrom ls = .ok v) :
    BetweenCommas PlainText (named c!"CATEGORIES" ls) v.categories ∧
    BetweenCommas PlainText (named c!"RESOURCES" ls) v.resources ∧
    BetweenCommas DateValue (named c!"EXDATE" ls) v.exdate := by
  obtain ⟨-, -, ⟨a, ha, ea⟩, -, -, ⟨b, hb, eb⟩, -, -, ⟨c, hc, ec⟩, -⟩ := C15_VTodo ls v h
  exact ⟨⟨a, all2_of_map (fun l vs => (C70_lists l).2.2.2 vs |>.1) ha, ea⟩, ⟨c, all2_of_map (fun l vs => (C70_lists l).2.2.2 vs |>.1) hc, ec⟩,
    ⟨b, all2_of_map (fun l vs => (C70_lists l).2.1 vs |>.1) hb, eb⟩⟩

/-- **C15** for `VJournal`: categories and excluded dates are those between the commas of all their lines, in order. -/
theorem C15_VJournal_commas (ls : List ContentLine) (v : VJournal) (h : VJournal.tryFrom ls = .ok v) :
    BetweenCommas PlainText (named c!"CATEGORIES" ls) v.categories ∧
    BetweenCommas DateValue (named c!"EXDATE" ls) v.exdate := by
  obtain ⟨-, -, ⟨a, ha, ea⟩, -, -, -, ⟨b, hb, eb⟩, -⟩ := C15_VJournal ls v h
  exact ⟨⟨a, all2_of_map (fun l vs => (C70_lists l).2.2.2 vs |>.1) ha, ea⟩, ⟨b, all2_of_map (fun l vs => (C70_lists l).2.1 vs |>.1) hb, eb⟩⟩

/-- **C15** for `VFreebusy`: the free and busy times are those between the commas of all their lines, in order. -/
theorem C15_VFreebusy_commas (ls : List ContentLine) (v : VFreebusy) (h : VFreebusy.tryFrom ls = .ok v) :
    BetweenCommas PeriodText (named c!"FREEBUSY" ls) v.freebusy := by
  obtain ⟨-, -, ⟨a, ha, ea⟩, -⟩ := C15_VFreebusy ls v h
  exact ⟨a, all2_of_map (fun l vs => (C70_lists l).1 vs |>.1) ha, ea⟩

end

section
attribute [local instance] utc

/-- Two lines of categories, one of them with two. -/
example : ∃ v, VTodo.tryFrom todoLines = .ok v ∧ v.categories.map (·.text) = [c!"a", c!"b", c!"c"] ∧
    (named c!"CATEGORIES" todoLines).map (·.value) = [c!"a,b", c!"c"] := by
  refine ⟨_, rfl, ?_⟩
  decide +kernel

end

end Ikal
