import Verif.Props.AlarmText

/-!
# C44: what is not written
-/

namespace Ikal

open Nom Spec

set_option linter.unusedSectionVars false
set_option linter.unusedSimpArgs false

/-! ## Single properties -/

/-- **C44**: an absent property writes nothing. -/
theorem C44_absent {α : Type} [Ser α] (name : Str) : field name (none : Option α) = .ok [] := field_none name

/-- **C44**: an empty list writes nothing. -/
theorem C44_empty_list {α : Type} [Ser α] (name : Str) : Field.serVec name ([] : List α) = .ok [] := field_empty rfl name rfl

/-- **C44**: a text or URI without characters writes nothing, whatever its parameters. -/
theorem C44_empty_text (name : Str) (t : Text) (u : Uri) (h : t.text = []) (h' : u.uri = []) :
    field name t = .ok [] ∧ field name (some t) = .ok [] ∧ Field.serVec name [t] = .ok [] ∧
    field name u = .ok [] ∧ field name (some u) = .ok [] ∧ Field.serVec name [u] = .ok [] := by
  have h1 : field name t = .ok [] := field_empty rfl name (show Res.ok (escape t.text) = _ by rw [h]; rfl)
  have h2 : field name u = .ok [] := field_empty rfl name (show Res.ok (escape u.uri) = _ by rw [h']; rfl)
  exact ⟨h1, (field_some rfl name t).trans h1, h1, h2, (field_some rfl name u).trans h2, h2⟩

/-- **C44**, conversely: a property of which something is written has a text, and the line names it. -/
theorem C44_written {α : Type} [Ser α] (hc : Ser.isComponent α = false) (name : Str) (v : α) (s t : Str) (hs : Ser.ical v = .ok s)
    (hne : s ≠ []) (ht : field name v = .ok t) : t ≠ [] := by
  rintro rfl
  rw [field_eq hc hs hne] at ht
  have hx := propertyLine_ne_nil name (Ser.attr v) s
  generalize propertyLine name (Ser.attr v) s = x at ht hx
  rcases fold_ok ht with ⟨_, e⟩ | ⟨hb, cs, hcs, e⟩
  · exact hx e.symm
  · cases hcs with
    | nil => simp at hb
    | last h _ => exact h (by simpa [join] using e.symm)
    | cons ha hb' h =>
      rename_i a b cs
      have hc' : cs ≠ [] := by rintro rfl; cases h; exact hb' rfl
      rw [join_cons _ _ _ hc'] at e
      simp at e

theorem text_as_absent (name : Str) (t : Text) (h : t.text = []) : field name (some t) = field name (none : Option Text) := by
  rw [(C44_empty_text name t ⟨[], []⟩ h rfl).2.1, C44_absent]
theorem uri_as_absent (name : Str) (t : Uri) (h : t.uri = []) : field name (some t) = field name (none : Option Uri) := by
  rw [(C44_empty_text name ⟨[], []⟩ t rfl h).2.2.2.2.1, C44_absent]

/-! ## Components: an optional text without characters is written as if it were absent -/

section Main

variable [Platform]

/-- **C44** for `VEvent`. -/
theorem C44_VEvent (v : VEvent) (t : Text) (h : t.text = []) (u : Uri) (h' : u.uri = []) :
    ical { v with description := some t } = ical { v with description := none } ∧
    ical { v with location := some t } = ical { v with location := none } ∧
    ical { v with organizer := some u } = ical { v with organizer := none } ∧
    ical { v with summary := some t } = ical { v with summary := none } ∧
    ical { v with url := some u } = ical { v with url := none } := by
  have key : ∀ a b : VEvent, Slots.ser VEvent.fields a.toComp.slots = Slots.ser VEvent.fields b.toComp.slots → a.xProp = b.xProp →
      a.ianaProp = b.ianaProp → ical a = ical b := by
    intro a b h1 h2 h3
    rw [ical_eq (v := a) rfl, ical_eq (v := b) rfl]
    show Comp.ical _ a.toComp = Comp.ical _ b.toComp
    unfold Comp.ical
    rw [h1, show a.toComp.xProp = b.toComp.xProp from h2, show a.toComp.ianaProp = b.toComp.ianaProp from h3]
  refine ⟨?_, ?_, ?_, ?_, ?_⟩
  · refine key _ _ ?_ rfl rfl
    simp only [VEvent.toComp, Slots.ser, Field.serField]
    rw [show @field _ (@instSerOption _ inferInstance) c!"DESCRIPTION" (some t) = @field _ (@instSerOption _ inferInstance) c!"DESCRIPTION" (none : Option Text) from text_as_absent _ t h]
  · refine key _ _ ?_ rfl rfl
    simp only [VEvent.toComp, Slots.ser, Field.serField]
    rw [show @field _ (@instSerOption _ inferInstance) c!"LOCATION" (some t) = @field _ (@instSerOption _ inferInstance) c!"LOCATION" (none : Option Text) from text_as_absent _ t h]
  · refine key _ _ ?_ rfl rfl
    simp only [VEvent.toComp, Slots.ser, Field.serField]
    rw [show @field _ (@instSerOption _ inferInstance) c!"ORGANIZER" (some u) = @field _ (@instSerOption _ inferInstance) c!"ORGANIZER" (none : Option Uri) from uri_as_absent _ u h']
  · refine key _ _ ?_ rfl rfl
    simp only [VEvent.toComp, Slots.ser, Field.serField]
    rw [show @field _ (@instSerOption _ inferInstance) c!"SUMMARY" (some t) = @field _ (@instSerOption _ inferInstance) c!"SUMMARY" (none : Option Text) from text_as_absent _ t h]
  · refine key _ _ ?_ rfl rfl
    simp only [VEvent.toComp, Slots.ser, Field.serField]
    rw [show @field _ (@instSerOption _ inferInstance) c!"URL" (some u) = @field _ (@instSerOption _ inferInstance) c!"URL" (none : Option Uri) from uri_as_absent _ u h']

/-- **C44** for `VFreebusy`. -/
theorem C44_VFreebusy (v : VFreebusy) (t : Text) (h : t.text = []) (u : Uri) (h' : u.uri = []) :
    ical { v with contact := some t } = ical { v with contact := none } ∧
    ical { v with organizer := some u } = ical { v with organizer := none } ∧
    ical { v with url := some u } = ical { v with url := none } := by
  have key : ∀ a b : VFreebusy, Slots.ser VFreebusy.fields a.toComp.slots = Slots.ser VFreebusy.fields b.toComp.slots → a.xProp = b.xProp →
      a.ianaProp = b.ianaProp → ical a = ical b := by
    intro a b h1 h2 h3
    rw [ical_eq (v := a) rfl, ical_eq (v := b) rfl]
    show Comp.ical _ a.toComp = Comp.ical _ b.toComp
    unfold Comp.ical
    rw [h1, show a.toComp.xProp = b.toComp.xProp from h2, show a.toComp.ianaProp = b.toComp.ianaProp from h3]
  refine ⟨?_, ?_, ?_⟩
  · refine key _ _ ?_ rfl rfl
    simp only [VFreebusy.toComp, Slots.ser, Field.serField]
    rw [show @field _ (@instSerOption _ inferInstance) c!"CONTACT" (some t) = @field _ (@instSerOption _ inferInstance) c!"CONTACT" (none : Option Text) from text_as_absent _ t h]
  · refine key _ _ ?_ rfl rfl
    simp only [VFreebusy.toComp, Slots.ser, Field.serField]
    rw [show @field _ (@instSerOption _ inferInstance) c!"ORGANIZER" (some u) = @field _ (@instSerOption _ inferInstance) c!"ORGANIZER" (none : Option Uri) from uri_as_absent _ u h']
  · refine key _ _ ?_ rfl rfl
    simp only [VFreebusy.toComp, Slots.ser, Field.serField]
    rw [show @field _ (@instSerOption _ inferInstance) c!"URL" (some u) = @field _ (@instSerOption _ inferInstance) c!"URL" (none : Option Uri) from uri_as_absent _ u h']

/-- **C44** for `VJournal`. -/
theorem C44_VJournal (v : VJournal) (t : Text) (h : t.text = []) (u : Uri) (h' : u.uri = []) :
    ical { v with organizer := some u } = ical { v with organizer := none } ∧
    ical { v with summary := some t } = ical { v with summary := none } ∧
    ical { v with url := some u } = ical { v with url := none } := by
  have key : ∀ a b : VJournal, Slots.ser VJournal.fields a.toComp.slots = Slots.ser VJournal.fields b.toComp.slots → a.xProp = b.xProp →
      a.ianaProp = b.ianaProp → ical a = ical b := by
    intro a b h1 h2 h3
    rw [ical_eq (v := a) rfl, ical_eq (v := b) rfl]
    show Comp.ical _ a.toComp = Comp.ical _ b.toComp
    unfold Comp.ical
    rw [h1, show a.toComp.xProp = b.toComp.xProp from h2, show a.toComp.ianaProp = b.toComp.ianaProp from h3]
  refine ⟨?_, ?_, ?_⟩
  · refine key _ _ ?_ rfl rfl
    simp only [VJournal.toComp, Slots.ser, Field.serField]
    rw [show @field _ (@instSerOption _ inferInstance) c!"ORGANIZER" (some u) = @field _ (@instSerOption _ inferInstance) c!"ORGANIZER" (none : Option Uri) from uri_as_absent _ u h']
  · refine key _ _ ?_ rfl rfl
    simp only [VJournal.toComp, Slots.ser, Field.serField]
    rw [show @field _ (@instSerOption _ inferInstance) c!"SUMMARY" (some t) = @field _ (@instSerOption _ inferInstance) c!"SUMMARY" (none : Option Text) from text_as_absent _ t h]
  · refine key _ _ ?_ rfl rfl
    simp only [VJournal.toComp, Slots.ser, Field.serField]
    rw [show @field _ (@instSerOption _ inferInstance) c!"URL" (some u) = @field _ (@instSerOption _ inferInstance) c!"URL" (none : Option Uri) from uri_as_absent _ u h']

/-- **C44** for `VTimezone`. -/
theorem C44_VTimezone (v : VTimezone) (u : Uri) (h' : u.uri = []) :
    ical { v with tzurl := some u } = ical { v with tzurl := none } := by
  have key : ∀ a b : VTimezone, Slots.ser VTimezone.fields a.toComp.slots = Slots.ser VTimezone.fields b.toComp.slots → a.xProp = b.xProp →
      a.ianaProp = b.ianaProp → ical a = ical b := by
    intro a b h1 h2 h3
    rw [ical_eq (v := a) rfl, ical_eq (v := b) rfl]
    show Comp.ical _ a.toComp = Comp.ical _ b.toComp
    unfold Comp.ical
    rw [h1, show a.toComp.xProp = b.toComp.xProp from h2, show a.toComp.ianaProp = b.toComp.ianaProp from h3]
  refine ?_
  · refine key _ _ ?_ rfl rfl
    simp only [VTimezone.toComp, Slots.ser, Field.serField]
    rw [show @field _ (@instSerOption _ inferInstance) c!"TZURL" (some u) = @field _ (@instSerOption _ inferInstance) c!"TZURL" (none : Option Uri) from uri_as_absent _ u h']

/-- **C44** for `VTodo`. -/
theorem C44_VTodo (v : VTodo) (t : Text) (h : t.text = []) (u : Uri) (h' : u.uri = []) :
    ical { v with location := some t } = ical { v with location := none } ∧
    ical { v with organizer := some u } = ical { v with organizer := none } ∧
    ical { v with summary := some t } = ical { v with summary := none } ∧
    ical { v with url := some u } = ical { v with url := none } := by
  have key : ∀ a b : VTodo, Slots.ser VTodo.fields a.toComp.slots = Slots.ser VTodo.fields b.toComp.slots → a.xProp = b.xProp →
      a.ianaProp = b.ianaProp → ical a = ical b := by
    intro a b h1 h2 h3
    rw [ical_eq (v := a) rfl, ical_eq (v := b) rfl]
    show Comp.ical _ a.toComp = Comp.ical _ b.toComp
    unfold Comp.ical
    rw [h1, show a.toComp.xProp = b.toComp.xProp from h2, show a.toComp.ianaProp = b.toComp.ianaProp from h3]
  refine ⟨?_, ?_, ?_, ?_⟩
  · refine key _ _ ?_ rfl rfl
    simp only [VTodo.toComp, Slots.ser, Field.serField]
    rw [show @field _ (@instSerOption _ inferInstance) c!"LOCATION" (some t) = @field _ (@instSerOption _ inferInstance) c!"LOCATION" (none : Option Text) from text_as_absent _ t h]
  · refine key _ _ ?_ rfl rfl
    simp only [VTodo.toComp, Slots.ser, Field.serField]
    rw [show @field _ (@instSerOption _ inferInstance) c!"ORGANIZER" (some u) = @field _ (@instSerOption _ inferInstance) c!"ORGANIZER" (none : Option Uri) from uri_as_absent _ u h']
  · refine key _ _ ?_ rfl rfl
    simp only [VTodo.toComp, Slots.ser, Field.serField]
    rw [show @field _ (@instSerOption _ inferInstance) c!"SUMMARY" (some t) = @field _ (@instSerOption _ inferInstance) c!"SUMMARY" (none : Option Text) from text_as_absent _ t h]
  · refine key _ _ ?_ rfl rfl
    simp only [VTodo.toComp, Slots.ser, Field.serField]
    rw [show @field _ (@instSerOption _ inferInstance) c!"URL" (some u) = @field _ (@instSerOption _ inferInstance) c!"URL" (none : Option Uri) from uri_as_absent _ u h']

/-- **C44** for `VCalendar`. -/
theorem C44_VCalendar (v : VCalendar) (t : Text) (h : t.text = []) :
    ical { v with calscale := some t } = ical { v with calscale := none } ∧
    ical { v with method := some t } = ical { v with method := none } := by
  have key : ∀ a b : VCalendar, Slots.ser VCalendar.fields a.toComp.slots = Slots.ser VCalendar.fields b.toComp.slots → a.xProp = b.xProp →
      a.ianaProp = b.ianaProp → ical a = ical b := by
    intro a b h1 h2 h3
    rw [ical_eq (v := a) rfl, ical_eq (v := b) rfl]
    show Comp.ical _ a.toComp = Comp.ical _ b.toComp
    unfold Comp.ical
    rw [h1, show a.toComp.xProp = b.toComp.xProp from h2, show a.toComp.ianaProp = b.toComp.ianaProp from h3]
  refine ⟨?_, ?_⟩
  · refine key _ _ ?_ rfl rfl
    simp only [VCalendar.toComp, Slots.ser, Field.serField]
    rw [show @field _ (@instSerOption _ inferInstance) c!"CALSCALE" (some t) = @field _ (@instSerOption _ inferInstance) c!"CALSCALE" (none : Option Text) from text_as_absent _ t h]
  · refine key _ _ ?_ rfl rfl
    simp only [VCalendar.toComp, Slots.ser, Field.serField]
    rw [show @field _ (@instSerOption _ inferInstance) c!"METHOD" (some t) = @field _ (@instSerOption _ inferInstance) c!"METHOD" (none : Option Text) from text_as_absent _ t h]

end Main

end Ikal
