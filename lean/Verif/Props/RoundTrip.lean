import Verif.Lemmas.Frame
import Verif.TestPlatform

/-!
# C43 – C46: written components and what they are read as

`ical v` is the text `ikal::ser::ical(&v)?`.  That it is written at all (and not a panic in the middle of a character) is C03.
-/

namespace Ikal

open Nom Spec

set_option linter.unusedSectionVars false
set_option linter.unusedSimpArgs false

theorem filterMap_const {α β : Type} (l : List α) : l.filterMap (fun _ => (none : Option β)) = [] := by
  induction l <;> simp_all

theorem ical_eq {α : Type} [Ser α] {v : α} (h : Ser.attr v = none) : ical v = Ser.ical v := by
  unfold ical
  rw [h]
  cases Ser.ical v <;> rfl

/-! ## C43: frames -/

/-- The text is framed by the lines of the component `name`, and what is between them ends a line. -/
def Framed (name t : Str) : Prop :=
  ∃ body, (body = [] ∨ ∃ b, body = b ++ ['\n']) ∧ t = c!"BEGIN:" ++ name ++ c!"\r\n" ++ body ++ (c!"END:" ++ name ++ c!"\r\n")

theorem Comp.framed_leaf {fs : List Field} (hf : (fs.all fun f => f.plain && f.parsed) = true) {name : Str} {c : Comp fs} {t : Str}
    (h : c.ical name = .ok t) : Framed name t := by
  obtain ⟨body, x, i, hb, hx, hi, rfl⟩ := Comp.framed h
  refine ⟨_, ?_, rfl⟩
  exact ((Slots.ser_endsLf hf hb).append (@field_endsLf _ Comp.extSer rfl _ _ _ hx)).append (@field_endsLf _ Comp.extSer rfl _ _ _ hi)

theorem framed_endsLf {name t : Str} (h : Framed name t) : ∃ b, t = b ++ ['\n'] := by
  obtain ⟨body, _, rfl⟩ := h
  exact ⟨c!"BEGIN:" ++ name ++ c!"\r\n" ++ body ++ (c!"END:" ++ name ++ ['\r']), by simp⟩

/-- A list of components writes nothing, the text of its only component, or a property line; all of them end a line. -/
theorem serVec_component_endsLf {α : Type} [Ser α] {name : Str} {v : List α} {t : Str}
    (hp : ∀ x s, v = [x] → field name x = .ok s → EndsLf s) (h : Field.serVec name v = .ok t) : EndsLf t := by
  match v, hp, h with
  | [], _, h => exact field_endsLf (α := List α) rfl h
  | [x], hp, h => exact hp x t rfl h
  | x :: y :: v, _, h => exact field_endsLf (α := List α) rfl h

theorem field_component {α : Type} [Ser α] (hc : Ser.isComponent α = true) (name : Str) (v : α) : field name v = Ser.ical v := by
  unfold field
  rw [hc]
  cases Ser.ical v <;> rfl

/-- The text of fields of which those of components end a line. -/
theorem Slots.ser_endsLf_nested {fs : List Field} (hf : (fs.all fun f => f.plain) = true)
    (hn : ∀ n α s, Field.nested n α s ∈ fs → ∀ x t, @field α s n x = .ok t → EndsLf t) {v : Slots fs} {t : Str}
    (h : Slots.ser fs v = .ok t) : EndsLf t := by
  induction fs generalizing t with
  | nil => cases h; exact .inl rfl
  | cons f fs ih =>
    obtain ⟨v, vs⟩ := v
    simp only [List.all_cons, Bool.and_eq_true] at hf
    simp only [Slots.ser, Res.bind_eq_ok] at h
    obtain ⟨a, ha, b, hb, hab⟩ := h
    cases hab
    refine EndsLf.append ?_ (ih (by simpa using hf.2) (fun n α s hm => hn n α s (List.mem_cons_of_mem _ hm)) hb)
    obtain ⟨hp, _⟩ := hf
    cases f with
    | req n α s p => simp [Field.plain] at hp; exact @field_endsLf _ s hp.2 _ _ _ ha
    | opt n α s p => exact @field_endsLf _ (@instSerOption _ s) rfl _ _ _ ha
    | push n α s p => simp [Field.plain] at hp; exact @serVec_endsLf _ s hp.2 _ _ _ ha
    | append n α s p => simp [Field.plain] at hp; exact @serVec_endsLf _ s hp.2 _ _ _ ha
    | nested n α s =>
      exact @serVec_component_endsLf _ s _ _ _ (fun x t _ ht => hn n α s (by simp) x t ht) ha

theorem Comp.framed_nested {fs : List Field} (hf : (fs.all fun f => f.plain) = true)
    (hn : ∀ n α s, Field.nested n α s ∈ fs → ∀ x t, @field α s n x = .ok t → EndsLf t) {name : Str} {c : Comp fs} {t : Str}
    (h : c.ical name = .ok t) : Framed name t := by
  obtain ⟨body, x, i, hb, hx, hi, rfl⟩ := Comp.framed h
  refine ⟨_, ?_, rfl⟩
  exact ((Slots.ser_endsLf_nested hf hn hb).append (@field_endsLf _ Comp.extSer rfl _ _ _ hx)).append
    (@field_endsLf _ Comp.extSer rfl _ _ _ hi)

section Main

variable [Platform]

/-- **C43** for `Audio`. -/
theorem C43_Audio (v : Audio) (t : Str) (h : ical v = .ok t) : Framed c!"AUDIO" t := Comp.framed_leaf (c := v.toComp) rfl ((ical_eq (v := v) rfl).symm.trans h)
/-- **C43** for `Display`. -/
theorem C43_Display (v : Display) (t : Str) (h : ical v = .ok t) : Framed c!"DISPLAY" t := Comp.framed_leaf (c := v.toComp) rfl ((ical_eq (v := v) rfl).symm.trans h)
/-- **C43** for `Email`. -/
theorem C43_Email (v : Email) (t : Str) (h : ical v = .ok t) : Framed c!"EMAIL" t := Comp.framed_leaf (c := v.toComp) rfl ((ical_eq (v := v) rfl).symm.trans h)
/-- **C43** for `VTodo`. -/
theorem C43_VTodo (v : VTodo) (t : Str) (h : ical v = .ok t) : Framed c!"VTODO" t := Comp.framed_leaf (c := v.toComp) rfl ((ical_eq (v := v) rfl).symm.trans h)
/-- **C43** for `VJournal`. -/
theorem C43_VJournal (v : VJournal) (t : Str) (h : ical v = .ok t) : Framed c!"VJOURNAL" t := Comp.framed_leaf (c := v.toComp) rfl ((ical_eq (v := v) rfl).symm.trans h)
/-- **C43** for `VFreebusy`. -/
theorem C43_VFreebusy (v : VFreebusy) (t : Str) (h : ical v = .ok t) : Framed c!"VFREEBUSY" t := Comp.framed_leaf (c := v.toComp) rfl ((ical_eq (v := v) rfl).symm.trans h)
/-- **C43** for `Standard`. -/
theorem C43_Standard (v : Standard) (t : Str) (h : ical v = .ok t) : Framed c!"STANDARD" t := Comp.framed_leaf (c := v.toComp) rfl ((ical_eq (v := v) rfl).symm.trans h)
/-- **C43** for `Daylight`. -/
theorem C43_Daylight (v : Daylight) (t : Str) (h : ical v = .ok t) : Framed c!"DAYLIGHT" t := Comp.framed_leaf (c := v.toComp) rfl ((ical_eq (v := v) rfl).symm.trans h)

/-- **C43** for `VEvent`. -/
theorem C43_VEvent (v : VEvent) (t : Str) (h : ical v = .ok t) : Framed c!"VEVENT" t := by
  refine Comp.framed_nested (c := v.toComp) rfl ?_ ((ical_eq (v := v) rfl).symm.trans h)
  intro n α s hm x t ht
  have : Field.nested n α s = .nested c!"ALARMS" VAlarm inferInstance := by
    unfold VEvent.fields at hm
    simpa only [List.mem_cons, List.not_mem_nil, or_false, false_or, reduceCtorEq] using hm
  have e := this
  · cases e; exact field_endsLf rfl ht

/-- **C43** for `VTimezone`. -/
theorem C43_VTimezone (v : VTimezone) (t : Str) (h : ical v = .ok t) : Framed c!"VTIMEZONE" t := by
  refine Comp.framed_nested (c := v.toComp) rfl ?_ ((ical_eq (v := v) rfl).symm.trans h)
  intro n α s hm x t ht
  have : Field.nested n α s = .nested c!"STANDARD" Standard inferInstance ∨ Field.nested n α s = .nested c!"DAYLIGHT" Daylight inferInstance := by
    unfold VTimezone.fields at hm
    simpa only [List.mem_cons, List.not_mem_nil, or_false, false_or, reduceCtorEq] using hm
  rcases this with e | e
  · cases e; exact .inr (framed_endsLf (C43_Standard x t ((ical_eq rfl).trans ((field_component rfl _ x) ▸ ht))))
  · cases e; exact .inr (framed_endsLf (C43_Daylight x t ((ical_eq rfl).trans ((field_component rfl _ x) ▸ ht))))

/-- **C43** for `VCalendar`. -/
theorem C43_VCalendar (v : VCalendar) (t : Str) (h : ical v = .ok t) : Framed c!"VCALENDAR" t := by
  refine Comp.framed_nested (c := v.toComp) rfl ?_ ((ical_eq (v := v) rfl).symm.trans h)
  intro n α s hm x t ht
  have : Field.nested n α s = .nested c!"ALARMS" VAlarm inferInstance ∨ Field.nested n α s = .nested c!"EVENTS" VEvent inferInstance ∨ Field.nested n α s = .nested c!"FREEBUSY" VFreebusy inferInstance ∨ Field.nested n α s = .nested c!"JOURNALS" VJournal inferInstance ∨ Field.nested n α s = .nested c!"TODO" VTodo inferInstance ∨ Field.nested n α s = .nested c!"TIMEZONES" VTimezone inferInstance := by
    unfold VCalendar.fields at hm
    simpa only [List.mem_cons, List.not_mem_nil, or_false, false_or, reduceCtorEq] using hm
  rcases this with e | e | e | e | e | e
  · cases e; exact field_endsLf rfl ht
  · cases e; exact .inr (framed_endsLf (C43_VEvent x t ((ical_eq rfl).trans ((field_component rfl _ x) ▸ ht))))
  · cases e; exact .inr (framed_endsLf (C43_VFreebusy x t ((ical_eq rfl).trans ((field_component rfl _ x) ▸ ht))))
  · cases e; exact .inr (framed_endsLf (C43_VJournal x t ((ical_eq rfl).trans ((field_component rfl _ x) ▸ ht))))
  · cases e; exact .inr (framed_endsLf (C43_VTodo x t ((ical_eq rfl).trans ((field_component rfl _ x) ▸ ht))))
  · cases e; exact .inr (framed_endsLf (C43_VTimezone x t ((ical_eq rfl).trans ((field_component rfl _ x) ▸ ht))))

/-- **C43** for alarms: the text of an alarm has the lines of its kind, between those of `VALARM`. -/
theorem C43_VAlarm (v : VAlarm) (t : Str) (h : ical v = .ok t) :
    ∃ body, (body = [] ∨ ∃ b, body = b ++ ['\n']) ∧
      (match v with
        | .audio a => ical a = .ok (c!"BEGIN:AUDIO\r\n" ++ body ++ c!"END:AUDIO\r\n")
        | .display a => ical a = .ok (c!"BEGIN:DISPLAY\r\n" ++ body ++ c!"END:DISPLAY\r\n")
        | .email a => ical a = .ok (c!"BEGIN:EMAIL\r\n" ++ body ++ c!"END:EMAIL\r\n")) ∧
      t = c!"BEGIN:VALARM\r\n" ++ body ++ c!"END:VALARM\r\n" := by
  rw [ical_eq rfl] at h
  have key : ∀ (x : Res Str) (k : Str), '\n' ∉ k → x.map VAlarm.reframe = .ok t → (∀ s, x = .ok s → Framed k s) →
      ∃ body, (body = [] ∨ ∃ b, body = b ++ ['\n']) ∧ x = .ok (c!"BEGIN:" ++ k ++ c!"\r\n" ++ body ++ (c!"END:" ++ k ++ c!"\r\n")) ∧
        t = c!"BEGIN:VALARM\r\n" ++ body ++ c!"END:VALARM\r\n" := by
    intro x k hk hx hf
    obtain ⟨s, hs, e⟩ := map_eq_ok.1 hx
    obtain ⟨body, hb, rfl⟩ := hf s hs
    exact ⟨body, hb, hs, by rw [← e, reframe_eq hk hb]⟩
  cases v with
  | audio a =>
    obtain ⟨b, h1, h2, h3⟩ := key (Ser.ical a) c!"AUDIO" (by decide) h fun s hs => C43_Audio a s ((ical_eq rfl).trans hs)
    exact ⟨b, h1, (ical_eq rfl).trans h2, h3⟩
  | display a =>
    obtain ⟨b, h1, h2, h3⟩ := key (Ser.ical a) c!"DISPLAY" (by decide) h fun s hs => C43_Display a s ((ical_eq rfl).trans hs)
    exact ⟨b, h1, (ical_eq rfl).trans h2, h3⟩
  | email a =>
    obtain ⟨b, h1, h2, h3⟩ := key (Ser.ical a) c!"EMAIL" (by decide) h fun s hs => C43_Email a s ((ical_eq rfl).trans hs)
    exact ⟨b, h1, (ical_eq rfl).trans h2, h3⟩

/-! ## C46: components -/

theorem VTodo.text {v : VTodo} (h : GoodVTodo v) {t : Str} (ht : Ser.ical v = .ok t) : ∃ u, Piece t u ∧ ∀ r, TodoText (u ++ r) v r := by
  obtain ⟨u, ls, hu, hr, hv⟩ := VTodo.written h ht
  exact ⟨u, hu, fun r => ⟨ls, hr r, (C14_VTodo_iff ls v).1 hv⟩⟩

/-- **C46** for a to-do. -/
theorem C46_VTodo (v : VTodo) (h : GoodVTodo v) (t : Str) (ht : ical v = .ok t) : VTodo.ofStr t = .ok v := by
  rw [ical_eq rfl] at ht
  obtain ⟨u, hu, hr⟩ := VTodo.text h ht
  rw [C19_VTodo, hu.un]
  exact ⟨[], by simpa using hr []⟩

theorem VJournal.text {v : VJournal} (h : GoodVJournal v) {t : Str} (ht : Ser.ical v = .ok t) : ∃ u, Piece t u ∧ ∀ r, JournalText (u ++ r) v r := by
  obtain ⟨u, ls, hu, hr, hv⟩ := VJournal.written h ht
  exact ⟨u, hu, fun r => ⟨ls, hr r, (C14_VJournal_iff ls v).1 hv⟩⟩

/-- **C46** for a journal entry. -/
theorem C46_VJournal (v : VJournal) (h : GoodVJournal v) (t : Str) (ht : ical v = .ok t) : VJournal.ofStr t = .ok v := by
  rw [ical_eq rfl] at ht
  obtain ⟨u, hu, hr⟩ := VJournal.text h ht
  rw [C19_VJournal, hu.un]
  exact ⟨[], by simpa using hr []⟩

theorem VFreebusy.text {v : VFreebusy} (h : GoodVFreebusy v) {t : Str} (ht : Ser.ical v = .ok t) : ∃ u, Piece t u ∧ ∀ r, FreebusyText (u ++ r) v r := by
  obtain ⟨u, ls, hu, hr, hv⟩ := VFreebusy.written h ht
  exact ⟨u, hu, fun r => ⟨ls, hr r, (C14_VFreebusy_iff ls v).1 hv⟩⟩

/-- **C46** for a free/busy component. -/
theorem C46_VFreebusy (v : VFreebusy) (h : GoodVFreebusy v) (t : Str) (ht : ical v = .ok t) : VFreebusy.ofStr t = .ok v := by
  rw [ical_eq rfl] at ht
  obtain ⟨u, hu, hr⟩ := VFreebusy.text h ht
  rw [C19_VFreebusy, hu.un]
  exact ⟨[], by simpa using hr []⟩

theorem Standard.text {v : Standard} (h : GoodStandard v) {t : Str} (ht : Ser.ical v = .ok t) : ∃ u, Piece t u ∧ ∀ r, StandardText (u ++ r) v r := by
  obtain ⟨u, ls, hu, hr, hv⟩ := Standard.written h ht
  exact ⟨u, hu, fun r => ⟨ls, hr r, (C14_Standard_iff ls v).1 hv⟩⟩

/-- **C46** for the standard part of a time zone. -/
theorem C46_Standard (v : Standard) (h : GoodStandard v) (t : Str) (ht : ical v = .ok t) : Standard.ofStr t = .ok v := by
  rw [ical_eq rfl] at ht
  obtain ⟨u, hu, hr⟩ := Standard.text h ht
  rw [C19_Standard, hu.un]
  exact ⟨[], by simpa using hr []⟩

theorem Daylight.text {v : Daylight} (h : GoodDaylight v) {t : Str} (ht : Ser.ical v = .ok t) : ∃ u, Piece t u ∧ ∀ r, DaylightText (u ++ r) v r := by
  obtain ⟨u, ls, hu, hr, hv⟩ := Daylight.written h ht
  exact ⟨u, hu, fun r => ⟨ls, hr r, (C14_Daylight_iff ls v).1 hv⟩⟩

/-- **C46** for the daylight part of a time zone. -/
theorem C46_Daylight (v : Daylight) (h : GoodDaylight v) (t : Str) (ht : ical v = .ok t) : Daylight.ofStr t = .ok v := by
  rw [ical_eq rfl] at ht
  obtain ⟨u, hu, hr⟩ := Daylight.text h ht
  rw [C19_Daylight, hu.un]
  exact ⟨[], by simpa using hr []⟩

theorem VEvent.text {v : VEvent} (h : GoodVEvent v) {t : Str} (ht : Ser.ical v = .ok t) : ∃ u, Piece t u ∧ ∀ r, EventText (u ++ r) v r := by
  obtain ⟨u, ls, hu, hr, hv⟩ := VEvent.written h ht
  refine ⟨u, hu, fun r => ?_⟩
  obtain ⟨body, h1, h2⟩ := hr r
  refine ⟨body, ls, _, by simpa using h1, h2, ?_, ?_⟩
  · rw [h.alarms]; exact .nil
  · have e : { v with alarms := [] } = v := by rw [← h.alarms]
    rw [e]
    exact (C14_VEvent_iff ls v).1 hv

/-- **C46** for an event. -/
theorem C46_VEvent (v : VEvent) (h : GoodVEvent v) (t : Str) (ht : ical v = .ok t) : VEvent.ofStr t = .ok v := by
  rw [ical_eq rfl] at ht
  obtain ⟨u, hu, hr⟩ := VEvent.text h ht
  rw [C19_VEvent, hu.un]
  exact ⟨[], by simpa using hr []⟩

/-! ### Components with parts -/

theorem serVec_nil {α : Type} [Ser α] (name : Str) : Field.serVec name ([] : List α) = .ok [] := field_empty rfl name rfl

/-- At most one part is written as its text. -/
theorem serVec_part {α β : Type} [Ser α] (hc : Ser.isComponent α = true) {name : Str} {l : List α} {P : α → Prop} (hl : AtMostOne P l)
    {T : Str → β → Str → Prop} {f : α → β} (hT : ∀ a t, P a → Ser.ical a = .ok t → ∃ u, Piece t u ∧ ∀ r, T (u ++ r) (f a) r)
    {t : Str} (ht : Field.serVec name l = .ok t) :
    ∃ u, Piece t u ∧ ∀ r as r', SeqText T r as r' → SeqText T (u ++ r) (l.map f ++ as) r' := by
  obtain ⟨h1, h2⟩ := hl
  match l, h1, h2, ht with
  | [], _, _, ht =>
    rw [serVec_nil] at ht
    cases ht
    exact ⟨[], .nil, fun _ _ _ h => h⟩
  | [a], _, h2, ht =>
    have ht : field name a = .ok t := ht
    rw [field_component hc] at ht
    obtain ⟨u, hu, hr⟩ := hT a t (h2 a (by simp)) ht
    exact ⟨u, hu, fun r as r' h => .cons (hr r) h⟩

theorem piece_begin (name : Str) (hn : IsName name) : Piece (c!"BEGIN:" ++ name ++ c!"\r\n") (c!"BEGIN:" ++ name ++ c!"\r\n") :=
  piece_frame (.inl rfl) hn
theorem piece_end (name : Str) (hn : IsName name) : Piece (c!"END:" ++ name ++ c!"\r\n") (c!"END:" ++ name ++ c!"\r\n") :=
  piece_frame (.inr rfl) hn

theorem seqText_begins {α : Type} {T : Str → α → Str → Prop} (hT : ∀ i a r, T i a r → c!"BEGIN:" <+: i) {i r : Str} {as : List α}
    (h : SeqText T i as r) (hr : c!"END:" <+: r) : c!"BEGIN:" <+: i ∨ c!"END:" <+: i := by
  cases h with
  | nil => exact .inr hr
  | cons h _ => exact .inl (hT _ _ _ h)

/-- The text of a `VTimezone`: its property lines, then its parts. -/
theorem VTimezone.ser_split {v : VTimezone} {t : Str} (ht : Slots.ser VTimezone.fields v.toComp.slots = .ok t) :
    ∃ t0 s0 s1, Slots.ser VTimezone.fields ({ v with standard := [], daylight := [] } : VTimezone).toComp.slots = .ok t0 ∧
      Field.serVec c!"STANDARD" v.standard = .ok s0 ∧ Field.serVec c!"DAYLIGHT" v.daylight = .ok s1 ∧
      t = t0 ++ (s0 ++ s1) := by
  simp only [VTimezone.toComp, Slots.ser, Field.serField, Res.bind_eq_ok, Res.pure_eq, Res.ok.injEq, serVec_nil] at ht ⊢
  obtain ⟨a0, h0, _, ⟨a1, h1, _, ⟨a2, h2, _, ⟨a3, h3, _, ⟨a4, h4, _, rfl, rfl⟩, rfl⟩, rfl⟩, rfl⟩, rfl⟩ := ht
  exact ⟨_, a3, a4, ⟨a0, h0, _, ⟨a1, h1, _, ⟨a2, h2, _, ⟨[], rfl, _, ⟨[], rfl, _, rfl, rfl⟩, rfl⟩, rfl⟩, rfl⟩, rfl⟩, h3, h4, by simp⟩

theorem VTimezone.text {v : VTimezone} (h : GoodVTimezone v) {t : Str} (ht : Ser.ical v = .ok t) :
    ∃ u, Piece t u ∧ ∀ r, TimezoneText (u ++ r) v r := by
  obtain ⟨body, x, i, hb, hx, hi, rfl⟩ := Comp.framed (c := v.toComp) ht
  have hx : @field _ Comp.extSer c!"X-PROP" v.xProp = .ok x := hx
  have hi : @field _ Comp.extSer c!"IANA-PROP" v.ianaProp = .ok i := hi
  rw [h.xProp, field_ext_nil] at hx
  rw [h.ianaProp, field_ext_nil] at hi
  cases hx
  cases hi
  obtain ⟨t0, s0, s1, h0, k0, k1, rfl⟩ := VTimezone.ser_split hb
  obtain ⟨ls, hl⟩ := VTimezone.lives h
  obtain ⟨u0, hu0, hw0⟩ := hl.written.ser VTimezone.plain h0
  obtain ⟨u1, hu1, hs1⟩ := serVec_part (T := TzPartText) (f := TzPart.standard) rfl h.standard (fun a t ha ht => Standard.text ha ht) k0
  obtain ⟨u2, hu2, hs2⟩ := serVec_part (T := TzPartText) (f := TzPart.daylight) rfl h.daylight (fun a t ha ht => Daylight.text ha ht) k1
  have hp := ((piece_begin c!"VTIMEZONE" (isName_lit (by decide))).append (hu0.append (hu1.append hu2))).append (piece_end c!"VTIMEZONE" (isName_lit (by decide)))
  refine ⟨_, by simpa [List.append_assoc] using hp, fun r => ?_⟩
  have hseq : SeqText TzPartText (u1 ++ (u2 ++ (c!"END:VTIMEZONE\r\n" ++ r))) (v.standard.map TzPart.standard ++ (v.daylight.map TzPart.daylight ++ [])) (c!"END:VTIMEZONE\r\n" ++ r) := (hs1 _ _ _ (hs2 _ _ _ .nil))
  refine ⟨u0 ++ (u1 ++ (u2 ++ (c!"END:VTIMEZONE\r\n" ++ r))), ls, (u1 ++ (u2 ++ (c!"END:VTIMEZONE\r\n" ++ r))), (v.standard.map TzPart.standard ++ (v.daylight.map TzPart.daylight ++ [])), by simp, ?_, hseq, ?_, ?_⟩
  · refine hw0.stop (seqText_begins (T := TzPartText) (fun i a r ha => tzPart_begin i r a ((tzPart_ok i r a).2 ha)) hseq ?_)
    exact ⟨c!"VTIMEZONE\r\n" ++ r, rfl⟩
  · have e : (⟨({ v with standard := [], daylight := [] } : VTimezone).toComp.slots, [], []⟩ : Comp VTimezone.fields) = ({ v with standard := [], daylight := [] } : VTimezone).toComp := by
      show _ = (⟨({ v with standard := [], daylight := [] } : VTimezone).toComp.slots, v.xProp, v.ianaProp⟩ : Comp VTimezone.fields)
      rw [h.xProp, h.ianaProp]
    refine (C14_VTimezone_iff ls _).1 ?_
    unfold VTimezone.tryFrom
    rw [Comp.tryFrom_of_reads VTimezone.nodup hl, e]
    rfl
  · refine ⟨?_, ?_⟩
    · simp [standardParts, List.filterMap_map, Function.comp_def, filterMap_const]
    · simp [daylightParts, List.filterMap_map, Function.comp_def, filterMap_const]

/-- **C46** for a time zone. -/
theorem C46_VTimezone (v : VTimezone) (h : GoodVTimezone v) (t : Str) (ht : ical v = .ok t) : VTimezone.ofStr t = .ok v := by
  rw [ical_eq rfl] at ht
  obtain ⟨u, hu, hr⟩ := VTimezone.text h ht
  rw [C19_VTimezone, hu.un]
  exact ⟨[], by simpa using hr []⟩

/-- The text of a `VCalendar`: its property lines, then its parts. -/
theorem VCalendar.ser_split {v : VCalendar} {t : Str} (ht : Slots.ser VCalendar.fields v.toComp.slots = .ok t) :
    ∃ t0 s0 s1 s2 s3 s4 s5, Slots.ser VCalendar.fields ({ v with alarms := [], events := [], freebusy := [], journals := [], todo := [], timezones := [] } : VCalendar).toComp.slots = .ok t0 ∧
      Field.serVec c!"ALARMS" v.alarms = .ok s0 ∧ Field.serVec c!"EVENTS" v.events = .ok s1 ∧ Field.serVec c!"FREEBUSY" v.freebusy = .ok s2 ∧ Field.serVec c!"JOURNALS" v.journals = .ok s3 ∧ Field.serVec c!"TODO" v.todo = .ok s4 ∧ Field.serVec c!"TIMEZONES" v.timezones = .ok s5 ∧
      t = t0 ++ (s0 ++ s1 ++ s2 ++ s3 ++ s4 ++ s5) := by
  simp only [VCalendar.toComp, Slots.ser, Field.serField, Res.bind_eq_ok, Res.pure_eq, Res.ok.injEq, serVec_nil] at ht ⊢
  obtain ⟨a0, h0, _, ⟨a1, h1, _, ⟨a2, h2, _, ⟨a3, h3, _, ⟨a4, h4, _, ⟨a5, h5, _, ⟨a6, h6, _, ⟨a7, h7, _, ⟨a8, h8, _, ⟨a9, h9, _, rfl, rfl⟩, rfl⟩, rfl⟩, rfl⟩, rfl⟩, rfl⟩, rfl⟩, rfl⟩, rfl⟩, rfl⟩ := ht
  exact ⟨_, a4, a5, a6, a7, a8, a9, ⟨a0, h0, _, ⟨a1, h1, _, ⟨a2, h2, _, ⟨a3, h3, _, ⟨[], rfl, _, ⟨[], rfl, _, ⟨[], rfl, _, ⟨[], rfl, _, ⟨[], rfl, _, ⟨[], rfl, _, rfl, rfl⟩, rfl⟩, rfl⟩, rfl⟩, rfl⟩, rfl⟩, rfl⟩, rfl⟩, rfl⟩, rfl⟩, h4, h5, h6, h7, h8, h9, by simp⟩

theorem VCalendar.text {v : VCalendar} (h : GoodVCalendar v) {t : Str} (ht : Ser.ical v = .ok t) :
    ∃ u cs, Piece t u ∧ ∀ r, CalendarText (u ++ r) v cs (c!"\r\n" ++ r) := by
  obtain ⟨body, x, i, hb, hx, hi, rfl⟩ := Comp.framed (c := v.toComp) ht
  have hx : @field _ Comp.extSer c!"X-PROP" v.xProp = .ok x := hx
  have hi : @field _ Comp.extSer c!"IANA-PROP" v.ianaProp = .ok i := hi
  rw [h.xProp, field_ext_nil] at hx
  rw [h.ianaProp, field_ext_nil] at hi
  cases hx
  cases hi
  obtain ⟨t0, s0, s1, s2, s3, s4, s5, h0, k0, k1, k2, k3, k4, k5, rfl⟩ := VCalendar.ser_split hb
  obtain ⟨ls, hl⟩ := VCalendar.lives h
  obtain ⟨u0, hu0, hw0⟩ := hl.written.ser VCalendar.plain h0
  have e0 : s0 = [] := by
    rw [h.alarms, serVec_nil] at k0
    exact (Res.ok.inj k0).symm
  subst e0
  obtain ⟨u2, hu2, hs2⟩ := serVec_part (T := ComponentText) (f := Component.event) rfl h.events (fun a t ha ht => VEvent.text ha ht) k1
  obtain ⟨u3, hu3, hs3⟩ := serVec_part (T := ComponentText) (f := Component.freebusy) rfl h.freebusy (fun a t ha ht => VFreebusy.text ha ht) k2
  obtain ⟨u4, hu4, hs4⟩ := serVec_part (T := ComponentText) (f := Component.journal) rfl h.journals (fun a t ha ht => VJournal.text ha ht) k3
  obtain ⟨u5, hu5, hs5⟩ := serVec_part (T := ComponentText) (f := Component.todo) rfl h.todo (fun a t ha ht => VTodo.text ha ht) k4
  obtain ⟨u6, hu6, hs6⟩ := serVec_part (T := ComponentText) (f := Component.timezone) rfl h.timezones (fun a t ha ht => VTimezone.text ha ht) k5
  have hp := ((piece_begin c!"VCALENDAR" (isName_lit (by decide))).append (hu0.append ((((hu2.append hu3).append hu4).append hu5).append hu6))).append (piece_end c!"VCALENDAR" (isName_lit (by decide)))
  refine ⟨_, (v.events.map Component.event ++ (v.freebusy.map Component.freebusy ++ (v.journals.map Component.journal ++ (v.todo.map Component.todo ++ (v.timezones.map Component.timezone ++ []))))), by simpa [List.append_assoc] using hp, fun r => ?_⟩
  have hseq : SeqText ComponentText (u2 ++ (u3 ++ (u4 ++ (u5 ++ (u6 ++ (c!"END:VCALENDAR\r\n" ++ r)))))) (v.events.map Component.event ++ (v.freebusy.map Component.freebusy ++ (v.journals.map Component.journal ++ (v.todo.map Component.todo ++ (v.timezones.map Component.timezone ++ []))))) (c!"END:VCALENDAR\r\n" ++ r) := (hs2 _ _ _ (hs3 _ _ _ (hs4 _ _ _ (hs5 _ _ _ (hs6 _ _ _ .nil)))))
  refine ⟨u0 ++ (u2 ++ (u3 ++ (u4 ++ (u5 ++ (u6 ++ (c!"END:VCALENDAR\r\n" ++ r)))))), ls, (u2 ++ (u3 ++ (u4 ++ (u5 ++ (u6 ++ (c!"END:VCALENDAR\r\n" ++ r)))))), by simp, ?_, by simpa using hseq, ?_, ?_⟩
  · refine hw0.stop (seqText_begins (T := ComponentText) (fun i a r ha => component_begin i r a ((component_ok i r a).2 ha)) hseq ?_)
    exact ⟨c!"VCALENDAR\r\n" ++ r, rfl⟩
  · have e : (⟨({ v with alarms := [], events := [], freebusy := [], journals := [], todo := [], timezones := [] } : VCalendar).toComp.slots, [], []⟩ : Comp VCalendar.fields) = ({ v with alarms := [], events := [], freebusy := [], journals := [], todo := [], timezones := [] } : VCalendar).toComp := by
      show _ = (⟨({ v with alarms := [], events := [], freebusy := [], journals := [], todo := [], timezones := [] } : VCalendar).toComp.slots, v.xProp, v.ianaProp⟩ : Comp VCalendar.fields)
      rw [h.xProp, h.ianaProp]
    refine (C14_VCalendar_iff ls _).1 ?_
    unfold VCalendar.tryFrom
    rw [Comp.tryFrom_of_reads VCalendar.nodup hl, e]
    rfl
  · refine ⟨?_, ?_, ?_, ?_, ?_, ?_⟩
    · rw [h.alarms]
      simp [alarmsOf, List.filterMap_map, Function.comp_def, filterMap_const]
    · simp [eventsOf, List.filterMap_map, Function.comp_def, filterMap_const]
    · simp [freebusyOf, List.filterMap_map, Function.comp_def, filterMap_const]
    · simp [journalsOf, List.filterMap_map, Function.comp_def, filterMap_const]
    · simp [todosOf, List.filterMap_map, Function.comp_def, filterMap_const]
    · simp [timezonesOf, List.filterMap_map, Function.comp_def, filterMap_const]

/-- **C46** for a calendar. -/
theorem C46_VCalendar (v : VCalendar) (h : GoodVCalendar v) (t : Str) (ht : ical v = .ok t) : VCalendar.ofStr t = .ok v := by
  rw [ical_eq rfl] at ht
  obtain ⟨u, cs, hu, hr⟩ := VCalendar.text h ht
  rw [C19_VCalendar, hu.un]
  exact ⟨cs, _, by simpa using hr []⟩

end Main

/-! ### The hypotheses are met -/

section Examples

attribute [local instance] utc

theorem realDate_of {d : NaiveDate} (h : d.Valid) : RealDate d := ((valid_iff d).1 h).2

theorem plain_sample (y : Int) (m d s : Nat) (h1 : 0 ≤ y ∧ y ≤ 9999) (h2 : (⟨y, m, d⟩ : NaiveDate).Valid) (h3 : s < 86400) :
    PlainDateTime (.naive ⟨⟨y, m, d⟩, s, 0⟩) := ⟨h1, realDate_of h2, h3, .inl rfl⟩

/-- An event with a value of every kind of property. -/
def sampleGoodEvent : VEvent where
  dtstamp := .naive ⟨⟨2020, 1, 2⟩, 3600, 0⟩
  uid := ⟨[], c!"1@example.com"⟩
  dtstart := .date ⟨2024, 2, 29⟩
  class_ := some .priv
  created := some (.loc ⟨⟨2020, 1, 1⟩, 0, 0⟩)
  description := some ⟨[(c!"LANGUAGE", c!"en")], c!"A description that is too long for a line of seventy-five octets and is folded"⟩
  geo := some ⟨c!"37.386", c!"122.08"⟩
  lastModified := none
  location := some ⟨[], c!"here"⟩
  organizer := some ⟨[], c!"mailto:a@example.com"⟩
  priority := some 9
  sequence := some 3
  status := some .tentative
  summary := none
  transp := some .opaque
  url := none
  recurid := none
  rrule := some sampleRule
  dtend := some (.dateTime (.naive ⟨⟨2024, 2, 29⟩, 7200, 0⟩))
  duration := some ⟨3600000000000⟩
  attach := []
  attendee := [⟨[], c!"mailto:b@example.com"⟩]
  categories := [⟨[], c!"a"⟩, ⟨[], c!""⟩, ⟨[], c!"b"⟩]
  comment := []
  contact := []
  exdate := [.date ⟨2024, 3, 31⟩, .date ⟨2024, 4, 30⟩]
  rstatus := [⟨c!"2.0", c!"Success", some c!"x"⟩]
  relatedTo := []
  resources := []
  rdate := []
  alarms := []
  xProp := []
  ianaProp := []

theorem sampleFloat {s : Str} (h : s ≠ []) (h' : ∀ c ∈ s, (c.isDigit || decide (c = '.')) = true) : GoodFloat (fun x : Platform.F32 => x) s := by
  have k : ∀ r : Str, (r = [] ∨ ∃ r', r = ';' :: r') → Platform.floatParse (s ++ r) = some (s, r) := by
    intro r hr
    have e1 : (s ++ r).takeWhile (fun c => c.isDigit || decide (c = '.')) = s := by
      rw [List.takeWhile_append_of_pos h']
      rcases hr with rfl | ⟨r', rfl⟩ <;> simp
    have e2 : (s ++ r).dropWhile (fun c => c.isDigit || decide (c = '.')) = r := by
      rw [List.dropWhile_append_of_pos h']
      rcases hr with rfl | ⟨r', rfl⟩ <;> simp
    show (if ((s ++ r).takeWhile (fun c => c.isDigit || decide (c = '.'))).isEmpty then none else some (_, (s ++ r).dropWhile (fun c => c.isDigit || decide (c = '.')))) = _
    rw [e1, e2, if_neg (by simpa using h)]
  refine ⟨by simpa using k [] (.inl rfl), fun r => k _ (.inr ⟨r, rfl⟩), fun hm => ?_, fun hm => ?_⟩
  · have := h' _ hm; revert this; decide
  · have := h' _ hm; revert this; decide

theorem sampleGoodEvent_good : GoodVEvent sampleGoodEvent where
  dtstamp := plain_sample _ _ _ _ (by decide) (by decide) (by decide)
  uid := ⟨by decide, by decide, by decide, safeParams_nil⟩
  dtstart := ⟨⟨by decide, by decide⟩, realDate_of (by decide)⟩
  class_ := by intro a ha s e; cases ha; cases e
  created := by intro a ha; cases ha; exact ⟨⟨by decide, by decide⟩, ⟨realDate_of (by decide), by decide, .inl rfl⟩, rfl⟩
  description := by
    intro a ha; cases ha
    refine ⟨by decide, by decide, by decide, by decide, ?_⟩
    intro p hp
    simp at hp
    subst hp
    exact ⟨show IsName c!"LANGUAGE" from isName_lit (by decide), by decide, by decide, by decide, by decide, by decide⟩
  geo := by intro a ha; cases ha; exact ⟨sampleFloat (by decide) (by decide), sampleFloat (by decide) (by decide)⟩
  lastModified := by intro a ha; cases ha
  location := by intro a ha; cases ha; exact ⟨by decide, by decide, by decide, safeParams_nil⟩
  organizer := by intro a ha; cases ha; exact ⟨by decide, by decide, by decide, safeParams_nil⟩
  priority := by intro a ha; cases ha; decide
  sequence := by intro a ha; cases ha; decide
  summary := by intro a ha; cases ha
  url := by intro a ha; cases ha
  recurid := by intro a ha; cases ha
  rrule := by intro a ha; cases ha; exact sampleRule_plain
  dtend := by intro a ha; cases ha; exact plain_sample _ _ _ _ (by decide) (by decide) (by decide)
  duration := by intro a ha; cases ha; exact ⟨by decide, by decide⟩
  attach := ⟨by decide, by simp [sampleGoodEvent]⟩
  attendee := ⟨by decide, by intro a ha; simp [sampleGoodEvent] at ha; subst ha; exact ⟨by decide, by decide, by decide, safeParams_nil⟩⟩
  categories := ⟨by decide, by simp [sampleGoodEvent]⟩
  comment := ⟨by decide, by simp [sampleGoodEvent]⟩
  contact := ⟨by decide, by simp [sampleGoodEvent]⟩
  exdate := by
    intro a ha
    simp [sampleGoodEvent] at ha
    rcases ha with rfl | rfl <;> exact ⟨⟨by decide, by decide⟩, realDate_of (by decide)⟩
  rstatus := ⟨by decide, by
    intro a ha; simp [sampleGoodEvent] at ha; subst ha
    exact ⟨sampleFloat (by decide) (by decide), by decide, by decide, by intro e he; cases he; exact ⟨by decide, by decide⟩⟩⟩
  relatedTo := ⟨by decide, by simp [sampleGoodEvent]⟩
  resources := ⟨by decide, by simp [sampleGoodEvent]⟩
  rdate := rfl
  alarms := rfl
  xProp := rfl
  ianaProp := rfl

/-- A calendar with an event and a time zone. -/
def sampleGoodCalendar : VCalendar where
  prodid := ⟨[], c!"-//example//ikal//EN"⟩
  version := ⟨[], c!"2.0"⟩
  calscale := none
  method := some ⟨[], c!"PUBLISH"⟩
  alarms := []
  events := [sampleGoodEvent]
  freebusy := []
  journals := []
  todo := []
  timezones := [{
    tzid := ⟨[], c!"Europe/Paris"⟩, lastModified := none, tzurl := none
    standard := [{
      dtstart := .dateTime (.naive ⟨⟨1996, 10, 27⟩, 10800, 0⟩), tzoffsetto := ⟨3600⟩, tzoffsetfrom := ⟨7200⟩, rrule := none
      comment := [], rdate := [], tzname := [⟨[], c!"CET"⟩], xProp := [], ianaProp := [] }]
    daylight := [], xProp := [], ianaProp := [] }]
  xProp := []
  ianaProp := []

theorem sampleGoodCalendar_good : GoodVCalendar sampleGoodCalendar where
  prodid := ⟨by decide, by decide, by decide, safeParams_nil⟩
  version := ⟨by decide, by decide, by decide, safeParams_nil⟩
  calscale := by intro a ha; cases ha
  method := by intro a ha; cases ha; exact ⟨by decide, by decide, by decide, safeParams_nil⟩
  alarms := rfl
  events := ⟨by decide, by intro a ha; simp [sampleGoodCalendar] at ha; subst ha; exact sampleGoodEvent_good⟩
  freebusy := ⟨by decide, by simp [sampleGoodCalendar]⟩
  journals := ⟨by decide, by simp [sampleGoodCalendar]⟩
  todo := ⟨by decide, by simp [sampleGoodCalendar]⟩
  timezones := ⟨by decide, by
    intro a ha; simp [sampleGoodCalendar] at ha; subst ha
    exact {
      tzid := ⟨by decide, by decide, by decide, safeParams_nil⟩
      lastModified := by intro a ha; cases ha
      tzurl := by intro a ha; cases ha
      standard := ⟨by simp, by
        intro a ha; simp at ha; subst ha
        exact {
          dtstart := plain_sample _ _ _ _ (by decide) (by decide) (by decide)
          tzoffsetto := ⟨by decide, by decide⟩
          tzoffsetfrom := ⟨by decide, by decide⟩
          rrule := by intro a ha; cases ha
          comment := ⟨by simp, by simp⟩
          rdate := rfl
          tzname := ⟨by simp, by intro a ha; simp at ha; subst ha; exact ⟨by decide, by decide, by decide, safeParams_nil⟩⟩
          xProp := rfl
          ianaProp := rfl }⟩
      daylight := ⟨by simp, by simp⟩
      xProp := rfl
      ianaProp := rfl }⟩
  xProp := rfl
  ianaProp := rfl

/-- It is written, and so read back. -/
example : (ical sampleGoodCalendar).isOk = true := by decide +kernel
example : ∃ t, ical sampleGoodCalendar = .ok t ∧ VCalendar.ofStr t = .ok sampleGoodCalendar := by
  obtain ⟨t, ht⟩ := Res.isOk_iff.1 (show (ical sampleGoodCalendar).isOk = true by decide +kernel)
  exact ⟨t, ht, C46_VCalendar _ sampleGoodCalendar_good t ht⟩

end Examples

end Ikal
