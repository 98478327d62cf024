import Verif.Props.RoundTrip

/-! # C45: written alarms and what they are read as -/

namespace Ikal

open Nom Spec

set_option linter.unusedSectionVars false
set_option linter.unusedSimpArgs false

section Main

variable [Platform]

/-- The text of an alarm: its property lines between those of `VALARM`. -/
theorem Comp.alarm_written {fs : List Field} (hf : (fs.all fun f => f.plain && f.parsed) = true) {name : Str} (hn : IsName name) {c : Comp fs}
    (hx : c.xProp = []) (hi : c.ianaProp = []) {ls : List ContentLine} (hw : Slots.Written fs c.slots ls) {t : Str}
    (h : (c.ical name).map VAlarm.reframe = .ok t) : ∃ u, Piece t u ∧ ∀ r, LeafText c!"VALARM" (u ++ r) ls r := by
  have hf' : fs.all Field.plain = true := by
    rw [List.all_eq_true] at hf ⊢
    intro f hm
    have := hf f hm
    simp at this
    exact this.1
  obtain ⟨s, hs, rfl⟩ := map_eq_ok.1 h
  obtain ⟨body, x, i, hb, hx', hi', rfl⟩ := Comp.framed hs
  rw [hx, field_ext_nil] at hx'
  rw [hi, field_ext_nil] at hi'
  cases hx'
  cases hi'
  have hlf : '\n' ∉ name := fun h => absurd (hn _ h) (not_nameChar (by simp))
  rw [List.append_nil, List.append_nil, reframe_eq hlf (Slots.ser_endsLf hf hb)]
  obtain ⟨u, hu, hwr⟩ := hw.ser hf' hb
  have hp := ((piece_begin c!"VALARM" (isName_lit (by decide))).append hu).append (piece_end c!"VALARM" (isName_lit (by decide)))
  refine ⟨_, by simpa [List.append_assoc] using hp, fun r => ?_⟩
  refine ⟨u ++ (c!"END:VALARM\r\n" ++ r), by simp, ?_⟩
  exact hwr.stop (.inr ⟨c!"VALARM\r\n" ++ r, by simp⟩)

/-- The kind an alarm is read as is the text of its action. -/
theorem firstAction_written {fs : List Field} {p : ContentLine → Res Text} {a : Text} {vs : Slots fs}
    {ls : List ContentLine} (h : Slots.Written (.req c!"ACTION" Text inferInstance p :: fs) (a, vs) ls) (ha : escape a.text ≠ []) :
    firstAction ls = some (escape a.text) := by
  obtain ⟨l, l', ⟨m, t, hw, rfl⟩, _, rfl⟩ := h
  have e : t = escape a.text := (Res.ok.inj hw.ical).symm
  subst e
  rw [lineOf, if_neg ha]
  rfl

theorem Audio.alarm {v : Audio} (h : GoodAudio v) {t : Str} (ht : Ser.ical (VAlarm.audio v) = .ok t) :
    ∃ u ls, Piece t u ∧ (∀ r, LeafText c!"VALARM" (u ++ r) ls r) ∧ AudioFrom ls v ∧ firstAction ls = some v.action.text := by
  obtain ⟨ls, hl⟩ := Audio.lives h
  obtain ⟨u, hu, hr⟩ := Comp.alarm_written (c := v.toComp) rfl (isName_lit (s := c!"AUDIO") (by decide)) h.xProp h.ianaProp hl.written ht
  refine ⟨u, ls, hu, hr, ?_, ?_⟩
  · have e : (⟨v.toComp.slots, [], []⟩ : Comp Audio.fields) = v.toComp := by
      show _ = (⟨v.toComp.slots, v.xProp, v.ianaProp⟩ : Comp Audio.fields)
      rw [h.xProp, h.ianaProp]
    refine (C14_Audio_iff ls v).1 ?_
    unfold Audio.tryFrom
    rw [Comp.tryFrom_of_reads Audio.nodup hl, e]
    rfl
  · have := firstAction_written hl.written (escape_ne_nil h.action.1)
    rwa [escape_plain h.action.2.1] at this

theorem Display.alarm {v : Display} (h : GoodDisplay v) {t : Str} (ht : Ser.ical (VAlarm.display v) = .ok t) :
    ∃ u ls, Piece t u ∧ (∀ r, LeafText c!"VALARM" (u ++ r) ls r) ∧ DisplayFrom ls v ∧ firstAction ls = some v.action.text := by
  obtain ⟨ls, hl⟩ := Display.lives h
  obtain ⟨u, hu, hr⟩ := Comp.alarm_written (c := v.toComp) rfl (isName_lit (s := c!"DISPLAY") (by decide)) h.xProp h.ianaProp hl.written ht
  refine ⟨u, ls, hu, hr, ?_, ?_⟩
  · have e : (⟨v.toComp.slots, [], []⟩ : Comp Display.fields) = v.toComp := by
      show _ = (⟨v.toComp.slots, v.xProp, v.ianaProp⟩ : Comp Display.fields)
      rw [h.xProp, h.ianaProp]
    refine (C14_Display_iff ls v).1 ?_
    unfold Display.tryFrom
    rw [Comp.tryFrom_of_reads Display.nodup hl, e]
    rfl
  · have := firstAction_written hl.written (escape_ne_nil h.action.1)
    rwa [escape_plain h.action.2.1] at this

theorem Email.alarm {v : Email} (h : GoodEmail v) {t : Str} (ht : Ser.ical (VAlarm.email v) = .ok t) :
    ∃ u ls, Piece t u ∧ (∀ r, LeafText c!"VALARM" (u ++ r) ls r) ∧ EmailFrom ls v ∧ firstAction ls = some v.action.text := by
  obtain ⟨ls, hl⟩ := Email.lives h
  obtain ⟨u, hu, hr⟩ := Comp.alarm_written (c := v.toComp) rfl (isName_lit (s := c!"EMAIL") (by decide)) h.xProp h.ianaProp hl.written ht
  refine ⟨u, ls, hu, hr, ?_, ?_⟩
  · have e : (⟨v.toComp.slots, [], []⟩ : Comp Email.fields) = v.toComp := by
      show _ = (⟨v.toComp.slots, v.xProp, v.ianaProp⟩ : Comp Email.fields)
      rw [h.xProp, h.ianaProp]
    refine (C14_Email_iff ls v).1 ?_
    unfold Email.tryFrom
    rw [Comp.tryFrom_of_reads Email.nodup hl, e]
    rfl
  · have := firstAction_written hl.written (escape_ne_nil h.action.1)
    rwa [escape_plain h.action.2.1] at this

/-- **C45**: alarms of every kind survive. -/
theorem C45_VAlarm (v : VAlarm) (h : GoodVAlarm v) (t : Str) (ht : ical v = .ok t) : VAlarm.ofStr t = .ok v := by
  rw [ical_eq rfl] at ht
  rw [C19_VAlarm]
  cases v with
  | audio a =>
    obtain ⟨u, ls, hu, hr, h1, h2⟩ := Audio.alarm h.1 ht
    exact ⟨[], ls, by rw [hu.un]; simpa using hr [], by rw [h2, h.2], h1⟩
  | display a =>
    obtain ⟨u, ls, hu, hr, h1, h2⟩ := Display.alarm h.1 ht
    exact ⟨[], ls, by rw [hu.un]; simpa using hr [], by rw [h2, h.2], h1⟩
  | email a =>
    obtain ⟨u, ls, hu, hr, h1, h2⟩ := Email.alarm h.1 ht
    exact ⟨[], ls, by rw [hu.un]; simpa using hr [], by rw [h2, h.2], h1⟩

/-- The reading of an alarm, from its lines. -/
theorem alarm_lines {t u : Str} {ls : List ContentLine} (hu : Piece t u) (hr : ∀ r, LeafText c!"VALARM" (u ++ r) ls r) (w : VAlarm) :
    VAlarm.ofStr t = .ok w ↔ VAlarmFrom ls w := by
  rw [C19_VAlarm, hu.un]
  constructor
  · rintro ⟨r, ls', hl', hv⟩
    have hl := hr []
    rw [List.append_nil] at hl
    obtain ⟨b, e1, h1⟩ := hl
    obtain ⟨b', e1', h1'⟩ := hl'
    rw [e1] at e1'
    have e2 := List.append_cancel_left e1'
    subst e2
    have a := contentLines_ok.2 h1
    rw [contentLines_ok.2 h1'] at a
    rw [← (NRes.ok.inj a).2]
    exact hv
  · intro h
    exact ⟨[], ls, by simpa using hr [], h⟩

/-- **C45**, the action is needed: an alarm that survives says of which kind it is. -/
theorem C45_action_needed (v : VAlarm) (t : Str) (ht : ical v = .ok t) (hr : VAlarm.ofStr t = .ok v) :
    match v with
    | .audio a => GoodAudio a → a.action.text = c!"AUDIO"
    | .display a => GoodDisplay a → a.action.text = c!"DISPLAY"
    | .email a => GoodEmail a → a.action.text = c!"EMAIL" := by
  rw [ical_eq rfl] at ht
  cases v with
  | audio a =>
    intro h
    obtain ⟨u, ls, hu, hl, _, h2⟩ := Audio.alarm h ht
    have := ((alarm_lines hu hl _).1 hr).1
    rw [h2] at this
    exact Option.some.inj this
  | display a =>
    intro h
    obtain ⟨u, ls, hu, hl, _, h2⟩ := Display.alarm h ht
    have := ((alarm_lines hu hl _).1 hr).1
    rw [h2] at this
    exact Option.some.inj this
  | email a =>
    intro h
    obtain ⟨u, ls, hu, hl, _, h2⟩ := Email.alarm h ht
    have := ((alarm_lines hu hl _).1 hr).1
    rw [h2] at this
    exact Option.some.inj this

/-- **C45** for alarms made from their kinds (`VAlarm::from`), which sets the action. -/
theorem C45_from_kind (t : Str) :
    (∀ a : Audio, GoodAudio { a with action := Text.ofStr c!"AUDIO" } → ical (VAlarm.ofAudio a) = .ok t →
      VAlarm.ofStr t = .ok (VAlarm.ofAudio a)) ∧
    (∀ a : Display, GoodDisplay { a with action := Text.ofStr c!"DISPLAY" } → ical (VAlarm.ofDisplay a) = .ok t →
      VAlarm.ofStr t = .ok (VAlarm.ofDisplay a)) ∧
    (∀ a : Email, GoodEmail { a with action := Text.ofStr c!"EMAIL" } → ical (VAlarm.ofEmail a) = .ok t →
      VAlarm.ofStr t = .ok (VAlarm.ofEmail a)) :=
  ⟨fun a h ht => C45_VAlarm (VAlarm.ofAudio a) ⟨h, rfl⟩ t ht, fun a h ht => C45_VAlarm (VAlarm.ofDisplay a) ⟨h, rfl⟩ t ht,
   fun a h ht => C45_VAlarm (VAlarm.ofEmail a) ⟨h, rfl⟩ t ht⟩

end Main

section Examples

attribute [local instance] utc

/-- An alarm with a long description, folded when it is written. -/
abbrev sampleAlarm : VAlarm := .display {
  action := ⟨[], c!"DISPLAY"⟩, trigger := .duration ⟨-900000000000⟩
  description := ⟨[(c!"LANGUAGE", c!"en")], c!"Breakfast meeting with the whole executive team at 8.30 in the large room on the second floor"⟩
  duration := some ⟨900000000000⟩, repeat_ := some 2, xProp := [], ianaProp := [] }

example : GoodVAlarm sampleAlarm := by
  refine ⟨⟨⟨by decide, by unfold Plain; decide, by decide, safeParams_nil⟩, ⟨by decide +kernel, by decide +kernel⟩,
    ⟨by decide, by unfold Plain; decide, by decide, ?_⟩, ?_, ?_, rfl, rfl⟩, rfl⟩
  · refine ⟨by decide, ?_⟩
    intro p hp
    simp at hp
    subst hp
    exact ⟨show IsName c!"LANGUAGE" from isName_lit (by decide), by decide, by decide, by decide, by decide, by decide⟩
  · intro a ha; cases ha; exact ⟨by decide +kernel, by decide +kernel⟩
  · intro a ha; cases ha; decide
example : (ical sampleAlarm).isOk = true := by decide +kernel

end Examples

end Ikal
