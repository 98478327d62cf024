import Verif.Lemmas.Fields

/-!
# Components whose values survive (one block per component, following the field tables)
-/

namespace Ikal

open Nom Spec

set_option linter.unusedSectionVars false
set_option linter.unusedSimpArgs false

variable [Platform]

theorem Audio.plain : Audio.fields.all Field.plain = true := rfl
theorem Audio.nodup : (Audio.fields.map Field.name).Nodup := by
  show ([c!"ACTION", c!"TRIGGER", c!"DURATION", c!"REPEAT", c!"ATTACH"] : List Str).Nodup
  decide
theorem Audio.lives {v : Audio} (h : GoodAudio v) : Slots.Lives Audio.fields v.toComp.slots v.toComp.slots :=
  .cons (Field.lives_req (text_survives h.action)) <|
  .cons (Field.lives_req (trigger_survives h.trigger)) <|
  .cons (Field.lives_opt fun a ha => delta_survives (h.duration a ha)) <|
  .cons (Field.lives_opt fun a ha => u32_survives (h.repeat_ a ha)) <|
  .cons (Field.lives_push h.attach.1 fun a ha => text_survives (h.attach.2 a ha)) <|
  .nil _ _

/-- The text of such a component, and the lines it is made of. -/
theorem Audio.written {v : Audio} (h : GoodAudio v) {t : Str} (ht : Ser.ical v = .ok t) :
    ∃ u ls, Piece t u ∧ (∀ r, LeafText c!"AUDIO" (u ++ r) ls r) ∧ Audio.tryFrom ls = .ok v := by
  obtain ⟨ls, hl⟩ := Audio.lives h
  obtain ⟨u, hu, hr⟩ := Comp.written (c := v.toComp) Audio.plain (isName_lit (by decide)) h.xProp h.ianaProp hl.written ht
  refine ⟨u, ls, hu, hr, ?_⟩
  have e : (⟨v.toComp.slots, [], []⟩ : Comp Audio.fields) = v.toComp := by
    show _ = (⟨v.toComp.slots, v.xProp, v.ianaProp⟩ : Comp Audio.fields)
    rw [h.xProp, h.ianaProp]
  unfold Audio.tryFrom
  rw [Comp.tryFrom_of_reads Audio.nodup hl, e]
  rfl

theorem Display.plain : Display.fields.all Field.plain = true := rfl
theorem Display.nodup : (Display.fields.map Field.name).Nodup := by
  show ([c!"ACTION", c!"TRIGGER", c!"DESCRIPTION", c!"DURATION", c!"REPEAT"] : List Str).Nodup
  decide
theorem Display.lives {v : Display} (h : GoodDisplay v) : Slots.Lives Display.fields v.toComp.slots v.toComp.slots :=
  .cons (Field.lives_req (text_survives h.action)) <|
  .cons (Field.lives_req (trigger_survives h.trigger)) <|
  .cons (Field.lives_req (text_survives h.description)) <|
  .cons (Field.lives_opt fun a ha => delta_survives (h.duration a ha)) <|
  .cons (Field.lives_opt fun a ha => u32_survives (h.repeat_ a ha)) <|
  .nil _ _

/-- The text of such a component, and the lines it is made of. -/
theorem Display.written {v : Display} (h : GoodDisplay v) {t : Str} (ht : Ser.ical v = .ok t) :
    ∃ u ls, Piece t u ∧ (∀ r, LeafText c!"DISPLAY" (u ++ r) ls r) ∧ Display.tryFrom ls = .ok v := by
  obtain ⟨ls, hl⟩ := Display.lives h
  obtain ⟨u, hu, hr⟩ := Comp.written (c := v.toComp) Display.plain (isName_lit (by decide)) h.xProp h.ianaProp hl.written ht
  refine ⟨u, ls, hu, hr, ?_⟩
  have e : (⟨v.toComp.slots, [], []⟩ : Comp Display.fields) = v.toComp := by
    show _ = (⟨v.toComp.slots, v.xProp, v.ianaProp⟩ : Comp Display.fields)
    rw [h.xProp, h.ianaProp]
  unfold Display.tryFrom
  rw [Comp.tryFrom_of_reads Display.nodup hl, e]
  rfl

theorem Email.plain : Email.fields.all Field.plain = true := rfl
theorem Email.nodup : (Email.fields.map Field.name).Nodup := by
  show ([c!"ACTION", c!"TRIGGER", c!"DESCRIPTION", c!"SUMMARY", c!"ATTENDEE", c!"DURATION", c!"REPEAT", c!"ATTACH"] : List Str).Nodup
  decide
theorem Email.lives {v : Email} (h : GoodEmail v) : Slots.Lives Email.fields v.toComp.slots v.toComp.slots :=
  .cons (Field.lives_req (text_survives h.action)) <|
  .cons (Field.lives_req (trigger_survives h.trigger)) <|
  .cons (Field.lives_req (text_survives h.description)) <|
  .cons (Field.lives_req (text_survives h.summary)) <|
  .cons (Field.lives_push h.attendee.1 fun a ha => uri_survives (h.attendee.2 a ha)) <|
  .cons (Field.lives_opt fun a ha => delta_survives (h.duration a ha)) <|
  .cons (Field.lives_opt fun a ha => u32_survives (h.repeat_ a ha)) <|
  .cons (Field.lives_push h.attach.1 fun a ha => text_survives (h.attach.2 a ha)) <|
  .nil _ _

/-- The text of such a component, and the lines it is made of. -/
theorem Email.written {v : Email} (h : GoodEmail v) {t : Str} (ht : Ser.ical v = .ok t) :
    ∃ u ls, Piece t u ∧ (∀ r, LeafText c!"EMAIL" (u ++ r) ls r) ∧ Email.tryFrom ls = .ok v := by
  obtain ⟨ls, hl⟩ := Email.lives h
  obtain ⟨u, hu, hr⟩ := Comp.written (c := v.toComp) Email.plain (isName_lit (by decide)) h.xProp h.ianaProp hl.written ht
  refine ⟨u, ls, hu, hr, ?_⟩
  have e : (⟨v.toComp.slots, [], []⟩ : Comp Email.fields) = v.toComp := by
    show _ = (⟨v.toComp.slots, v.xProp, v.ianaProp⟩ : Comp Email.fields)
    rw [h.xProp, h.ianaProp]
  unfold Email.tryFrom
  rw [Comp.tryFrom_of_reads Email.nodup hl, e]
  rfl

theorem VEvent.plain : VEvent.fields.all Field.plain = true := rfl
theorem VEvent.nodup : (VEvent.fields.map Field.name).Nodup := by
  show ([c!"DTSTAMP", c!"UID", c!"DTSTART", c!"CLASS", c!"CREATED", c!"DESCRIPTION", c!"GEO", c!"LAST-MODIFIED", c!"LOCATION", c!"ORGANIZER", c!"PRIORITY", c!"SEQUENCE", c!"STATUS", c!"SUMMARY", c!"TRANSP", c!"URL", c!"RECURID", c!"RRULE", c!"DTEND", c!"DURATION", c!"ATTACH", c!"ATTENDEE", c!"CATEGORIES", c!"COMMENT", c!"CONTACT", c!"EXDATE", c!"RSTATUS", c!"RELATED-TO", c!"RESOURCES", c!"RDATE", c!"ALARMS"] : List Str).Nodup
  decide
theorem VEvent.lives {v : VEvent} (h : GoodVEvent v) : Slots.Lives VEvent.fields v.toComp.slots v.toComp.slots :=
  .cons (Field.lives_req (dateTime_survives h.dtstamp)) <|
  .cons (Field.lives_req (text_survives h.uid)) <|
  .cons (Field.lives_req (date_survives h.dtstart)) <|
  .cons (Field.lives_opt fun a ha => class_survives (h.class_ a ha)) <|
  .cons (Field.lives_opt fun a ha => dateTime_survives (h.created a ha)) <|
  .cons (Field.lives_opt fun a ha => text_survives (h.description a ha)) <|
  .cons (Field.lives_opt fun a ha => geo_survives (h.geo a ha)) <|
  .cons (Field.lives_opt fun a ha => dateTime_survives (h.lastModified a ha)) <|
  .cons (Field.lives_opt fun a ha => text_survives (h.location a ha)) <|
  .cons (Field.lives_opt fun a ha => uri_survives (h.organizer a ha)) <|
  .cons (Field.lives_opt fun a ha => priority_survives (h.priority a ha)) <|
  .cons (Field.lives_opt fun a ha => u32_survives (h.sequence a ha)) <|
  .cons (Field.lives_opt fun a _ => status_survives a) <|
  .cons (Field.lives_opt fun a ha => text_survives (h.summary a ha)) <|
  .cons (Field.lives_opt fun a _ => transp_survives a) <|
  .cons (Field.lives_opt fun a ha => uri_survives (h.url a ha)) <|
  .cons (Field.lives_opt fun a ha => date_survives (h.recurid a ha)) <|
  .cons (Field.lives_opt fun a ha => rule_survives (h.rrule a ha)) <|
  .cons (Field.lives_opt fun a ha => date_survives (h.dtend a ha)) <|
  .cons (Field.lives_opt fun a ha => delta_survives (h.duration a ha)) <|
  .cons (Field.lives_push h.attach.1 fun a ha => text_survives (h.attach.2 a ha)) <|
  .cons (Field.lives_push h.attendee.1 fun a ha => uri_survives (h.attendee.2 a ha)) <|
  .cons (Field.lives_texts h.categories) <|
  .cons (Field.lives_push h.comment.1 fun a ha => text_survives (h.comment.2 a ha)) <|
  .cons (Field.lives_push h.contact.1 fun a ha => text_survives (h.contact.2 a ha)) <|
  .cons (Field.lives_exdate h.exdate) <|
  .cons (Field.lives_push h.rstatus.1 fun a ha => rstatus_survives (h.rstatus.2 a ha)) <|
  .cons (Field.lives_push h.relatedTo.1 fun a ha => text_survives (h.relatedTo.2 a ha)) <|
  .cons (Field.lives_texts h.resources) <|
  .cons (Field.lives_push_nil h.rdate) <|
  .cons (Field.lives_nested h.alarms) <|
  .nil _ _

/-- The text of such a component, and the lines it is made of. -/
theorem VEvent.written {v : VEvent} (h : GoodVEvent v) {t : Str} (ht : Ser.ical v = .ok t) :
    ∃ u ls, Piece t u ∧ (∀ r, LeafText c!"VEVENT" (u ++ r) ls r) ∧ VEvent.tryFrom ls = .ok v := by
  obtain ⟨ls, hl⟩ := VEvent.lives h
  obtain ⟨u, hu, hr⟩ := Comp.written (c := v.toComp) VEvent.plain (isName_lit (by decide)) h.xProp h.ianaProp hl.written ht
  refine ⟨u, ls, hu, hr, ?_⟩
  have e : (⟨v.toComp.slots, [], []⟩ : Comp VEvent.fields) = v.toComp := by
    show _ = (⟨v.toComp.slots, v.xProp, v.ianaProp⟩ : Comp VEvent.fields)
    rw [h.xProp, h.ianaProp]
  unfold VEvent.tryFrom
  rw [Comp.tryFrom_of_reads VEvent.nodup hl, e]
  rfl

theorem VFreebusy.plain : VFreebusy.fields.all Field.plain = true := rfl
theorem VFreebusy.nodup : (VFreebusy.fields.map Field.name).Nodup := by
  show ([c!"DTSTAMP", c!"UID", c!"CONTACT", c!"DTSTART", c!"DTEND", c!"ORGANIZER", c!"URL", c!"ATTENDEE", c!"COMMENT", c!"FREEBUSY", c!"RSTATUS"] : List Str).Nodup
  decide
theorem VFreebusy.lives {v : VFreebusy} (h : GoodVFreebusy v) : Slots.Lives VFreebusy.fields v.toComp.slots v.toComp.slots :=
  .cons (Field.lives_req (dateTime_survives h.dtstamp)) <|
  .cons (Field.lives_req (text_survives h.uid)) <|
  .cons (Field.lives_opt fun a ha => text_survives (h.contact a ha)) <|
  .cons (Field.lives_opt fun a ha => date_survives (h.dtstart a ha)) <|
  .cons (Field.lives_opt fun a ha => date_survives (h.dtend a ha)) <|
  .cons (Field.lives_opt fun a ha => uri_survives (h.organizer a ha)) <|
  .cons (Field.lives_opt fun a ha => uri_survives (h.url a ha)) <|
  .cons (Field.lives_push h.attendee.1 fun a ha => uri_survives (h.attendee.2 a ha)) <|
  .cons (Field.lives_push h.comment.1 fun a ha => text_survives (h.comment.2 a ha)) <|
  .cons (Field.lives_freebusy h.freebusy) <|
  .cons (Field.lives_push h.rstatus.1 fun a ha => rstatus_survives (h.rstatus.2 a ha)) <|
  .nil _ _

/-- The text of such a component, and the lines it is made of. -/
theorem VFreebusy.written {v : VFreebusy} (h : GoodVFreebusy v) {t : Str} (ht : Ser.ical v = .ok t) :
    ∃ u ls, Piece t u ∧ (∀ r, LeafText c!"VFREEBUSY" (u ++ r) ls r) ∧ VFreebusy.tryFrom ls = .ok v := by
  obtain ⟨ls, hl⟩ := VFreebusy.lives h
  obtain ⟨u, hu, hr⟩ := Comp.written (c := v.toComp) VFreebusy.plain (isName_lit (by decide)) h.xProp h.ianaProp hl.written ht
  refine ⟨u, ls, hu, hr, ?_⟩
  have e : (⟨v.toComp.slots, [], []⟩ : Comp VFreebusy.fields) = v.toComp := by
    show _ = (⟨v.toComp.slots, v.xProp, v.ianaProp⟩ : Comp VFreebusy.fields)
    rw [h.xProp, h.ianaProp]
  unfold VFreebusy.tryFrom
  rw [Comp.tryFrom_of_reads VFreebusy.nodup hl, e]
  rfl

theorem VJournal.plain : VJournal.fields.all Field.plain = true := rfl
theorem VJournal.nodup : (VJournal.fields.map Field.name).Nodup := by
  show ([c!"DTSTAMP", c!"UID", c!"CLASS", c!"CREATED", c!"DTSTART", c!"LAST-MODIFIED", c!"ORGANIZER", c!"RECURID", c!"SEQUENCE", c!"STATUS", c!"SUMMARY", c!"URL", c!"RRULE", c!"ATTACH", c!"ATTENDEE", c!"CATEGORIES", c!"COMMENT", c!"CONTACT", c!"DESCRIPTION", c!"EXDATE", c!"RELATED-TO", c!"RDATE", c!"RSTATUS"] : List Str).Nodup
  decide
theorem VJournal.lives {v : VJournal} (h : GoodVJournal v) : Slots.Lives VJournal.fields v.toComp.slots v.toComp.slots :=
  .cons (Field.lives_req (dateTime_survives h.dtstamp)) <|
  .cons (Field.lives_req (text_survives h.uid)) <|
  .cons (Field.lives_opt fun a ha => class_survives (h.class_ a ha)) <|
  .cons (Field.lives_opt fun a ha => dateTime_survives (h.created a ha)) <|
  .cons (Field.lives_req (date_survives h.dtstart)) <|
  .cons (Field.lives_opt fun a ha => dateTime_survives (h.lastModified a ha)) <|
  .cons (Field.lives_opt fun a ha => uri_survives (h.organizer a ha)) <|
  .cons (Field.lives_opt fun a ha => date_survives (h.recurid a ha)) <|
  .cons (Field.lives_opt fun a ha => u32_survives (h.sequence a ha)) <|
  .cons (Field.lives_opt fun a _ => status_survives a) <|
  .cons (Field.lives_opt fun a ha => text_survives (h.summary a ha)) <|
  .cons (Field.lives_opt fun a ha => uri_survives (h.url a ha)) <|
  .cons (Field.lives_opt fun a ha => rule_survives (h.rrule a ha)) <|
  .cons (Field.lives_push h.attach.1 fun a ha => text_survives (h.attach.2 a ha)) <|
  .cons (Field.lives_push h.attendee.1 fun a ha => uri_survives (h.attendee.2 a ha)) <|
  .cons (Field.lives_texts h.categories) <|
  .cons (Field.lives_push h.comment.1 fun a ha => text_survives (h.comment.2 a ha)) <|
  .cons (Field.lives_push h.contact.1 fun a ha => text_survives (h.contact.2 a ha)) <|
  .cons (Field.lives_push h.description.1 fun a ha => text_survives (h.description.2 a ha)) <|
  .cons (Field.lives_exdate h.exdate) <|
  .cons (Field.lives_push h.relatedTo.1 fun a ha => text_survives (h.relatedTo.2 a ha)) <|
  .cons (Field.lives_push_nil h.rdate) <|
  .cons (Field.lives_push h.rstatus.1 fun a ha => rstatus_survives (h.rstatus.2 a ha)) <|
  .nil _ _

/-- The text of such a component, and the lines it is made of. -/
theorem VJournal.written {v : VJournal} (h : GoodVJournal v) {t : Str} (ht : Ser.ical v = .ok t) :
    ∃ u ls, Piece t u ∧ (∀ r, LeafText c!"VJOURNAL" (u ++ r) ls r) ∧ VJournal.tryFrom ls = .ok v := by
  obtain ⟨ls, hl⟩ := VJournal.lives h
  obtain ⟨u, hu, hr⟩ := Comp.written (c := v.toComp) VJournal.plain (isName_lit (by decide)) h.xProp h.ianaProp hl.written ht
  refine ⟨u, ls, hu, hr, ?_⟩
  have e : (⟨v.toComp.slots, [], []⟩ : Comp VJournal.fields) = v.toComp := by
    show _ = (⟨v.toComp.slots, v.xProp, v.ianaProp⟩ : Comp VJournal.fields)
    rw [h.xProp, h.ianaProp]
  unfold VJournal.tryFrom
  rw [Comp.tryFrom_of_reads VJournal.nodup hl, e]
  rfl

theorem Standard.plain : Standard.fields.all Field.plain = true := rfl
theorem Standard.nodup : (Standard.fields.map Field.name).Nodup := by
  show ([c!"DTSTART", c!"TZOFFSETTO", c!"TZOFFSETFROM", c!"RRULE", c!"COMMENT", c!"RDATE", c!"TZNAME"] : List Str).Nodup
  decide
theorem Standard.lives {v : Standard} (h : GoodStandard v) : Slots.Lives Standard.fields v.toComp.slots v.toComp.slots :=
  .cons (Field.lives_req (date_survives h.dtstart)) <|
  .cons (Field.lives_req (offset_survives h.tzoffsetto)) <|
  .cons (Field.lives_req (offset_survives h.tzoffsetfrom)) <|
  .cons (Field.lives_opt fun a ha => rule_survives (h.rrule a ha)) <|
  .cons (Field.lives_push h.comment.1 fun a ha => text_survives (h.comment.2 a ha)) <|
  .cons (Field.lives_push_nil h.rdate) <|
  .cons (Field.lives_push h.tzname.1 fun a ha => text_survives (h.tzname.2 a ha)) <|
  .nil _ _

/-- The text of such a component, and the lines it is made of. -/
theorem Standard.written {v : Standard} (h : GoodStandard v) {t : Str} (ht : Ser.ical v = .ok t) :
    ∃ u ls, Piece t u ∧ (∀ r, LeafText c!"STANDARD" (u ++ r) ls r) ∧ Standard.tryFrom ls = .ok v := by
  obtain ⟨ls, hl⟩ := Standard.lives h
  obtain ⟨u, hu, hr⟩ := Comp.written (c := v.toComp) Standard.plain (isName_lit (by decide)) h.xProp h.ianaProp hl.written ht
  refine ⟨u, ls, hu, hr, ?_⟩
  have e : (⟨v.toComp.slots, [], []⟩ : Comp Standard.fields) = v.toComp := by
    show _ = (⟨v.toComp.slots, v.xProp, v.ianaProp⟩ : Comp Standard.fields)
    rw [h.xProp, h.ianaProp]
  unfold Standard.tryFrom
  rw [Comp.tryFrom_of_reads Standard.nodup hl, e]
  rfl

theorem Daylight.plain : Daylight.fields.all Field.plain = true := rfl
theorem Daylight.nodup : (Daylight.fields.map Field.name).Nodup := by
  show ([c!"DTSTART", c!"TZOFFSETTO", c!"TZOFFSETFROM", c!"RRULE", c!"COMMENT", c!"RDATE", c!"TZNAME"] : List Str).Nodup
  decide
theorem Daylight.lives {v : Daylight} (h : GoodDaylight v) : Slots.Lives Daylight.fields v.toComp.slots v.toComp.slots :=
  .cons (Field.lives_req (date_survives h.dtstart)) <|
  .cons (Field.lives_req (offset_survives h.tzoffsetto)) <|
  .cons (Field.lives_req (offset_survives h.tzoffsetfrom)) <|
  .cons (Field.lives_opt fun a ha => rule_survives (h.rrule a ha)) <|
  .cons (Field.lives_push h.comment.1 fun a ha => text_survives (h.comment.2 a ha)) <|
  .cons (Field.lives_push_nil h.rdate) <|
  .cons (Field.lives_push h.tzname.1 fun a ha => text_survives (h.tzname.2 a ha)) <|
  .nil _ _

/-- The text of such a component, and the lines it is made of. -/
theorem Daylight.written {v : Daylight} (h : GoodDaylight v) {t : Str} (ht : Ser.ical v = .ok t) :
    ∃ u ls, Piece t u ∧ (∀ r, LeafText c!"DAYLIGHT" (u ++ r) ls r) ∧ Daylight.tryFrom ls = .ok v := by
  obtain ⟨ls, hl⟩ := Daylight.lives h
  obtain ⟨u, hu, hr⟩ := Comp.written (c := v.toComp) Daylight.plain (isName_lit (by decide)) h.xProp h.ianaProp hl.written ht
  refine ⟨u, ls, hu, hr, ?_⟩
  have e : (⟨v.toComp.slots, [], []⟩ : Comp Daylight.fields) = v.toComp := by
    show _ = (⟨v.toComp.slots, v.xProp, v.ianaProp⟩ : Comp Daylight.fields)
    rw [h.xProp, h.ianaProp]
  unfold Daylight.tryFrom
  rw [Comp.tryFrom_of_reads Daylight.nodup hl, e]
  rfl

theorem VTimezone.plain : VTimezone.fields.all Field.plain = true := rfl
theorem VTimezone.nodup : (VTimezone.fields.map Field.name).Nodup := by
  show ([c!"TZID", c!"LAST-MODIFIED", c!"TZURL", c!"STANDARD", c!"DAYLIGHT"] : List Str).Nodup
  decide
theorem VTimezone.lives {v : VTimezone} (h : GoodVTimezone v) : Slots.Lives VTimezone.fields ({ v with standard := [], daylight := [] } : VTimezone).toComp.slots ({ v with standard := [], daylight := [] } : VTimezone).toComp.slots :=
  .cons (Field.lives_req (text_survives h.tzid)) <|
  .cons (Field.lives_opt fun a ha => dateTime_survives (h.lastModified a ha)) <|
  .cons (Field.lives_opt fun a ha => uri_survives (h.tzurl a ha)) <|
  .cons (Field.lives_nested rfl) <|
  .cons (Field.lives_nested rfl) <|
  .nil _ _

theorem VTodo.plain : VTodo.fields.all Field.plain = true := rfl
theorem VTodo.nodup : (VTodo.fields.map Field.name).Nodup := by
  show ([c!"DTSTAMP", c!"UID", c!"CLASS", c!"COMPLETED", c!"CREATED", c!"DTSTART", c!"GEO", c!"LAST-MODIFIED", c!"LOCATION", c!"ORGANIZER", c!"PERCENT-COMPLETE", c!"PRIORITY", c!"RECURID", c!"SEQUENCE", c!"STATUS", c!"SUMMARY", c!"URL", c!"RRULE", c!"DUE", c!"DURATION", c!"ATTACH", c!"ATTENDEE", c!"CATEGORIES", c!"COMMENT", c!"CONTACT", c!"EXDATE", c!"RSTATUS", c!"RELATED-TO", c!"RESOURCES", c!"RDATE"] : List Str).Nodup
  decide
theorem VTodo.lives {v : VTodo} (h : GoodVTodo v) : Slots.Lives VTodo.fields v.toComp.slots v.toComp.slots :=
  .cons (Field.lives_req (dateTime_survives h.dtstamp)) <|
  .cons (Field.lives_req (text_survives h.uid)) <|
  .cons (Field.lives_opt fun a ha => class_survives (h.class_ a ha)) <|
  .cons (Field.lives_opt fun a ha => dateTime_survives (h.completed a ha)) <|
  .cons (Field.lives_opt fun a ha => dateTime_survives (h.created a ha)) <|
  .cons (Field.lives_opt fun a ha => date_survives (h.dtstart a ha)) <|
  .cons (Field.lives_opt fun a ha => geo_survives (h.geo a ha)) <|
  .cons (Field.lives_opt fun a ha => dateTime_survives (h.lastModified a ha)) <|
  .cons (Field.lives_opt fun a ha => text_survives (h.location a ha)) <|
  .cons (Field.lives_opt fun a ha => uri_survives (h.organizer a ha)) <|
  .cons (Field.lives_opt fun a ha => percent_survives (h.percentComplete a ha)) <|
  .cons (Field.lives_opt fun a ha => priority_survives (h.priority a ha)) <|
  .cons (Field.lives_opt fun a ha => date_survives (h.recurid a ha)) <|
  .cons (Field.lives_opt fun a ha => u32_survives (h.sequence a ha)) <|
  .cons (Field.lives_opt fun a _ => status_survives a) <|
  .cons (Field.lives_opt fun a ha => text_survives (h.summary a ha)) <|
  .cons (Field.lives_opt fun a ha => uri_survives (h.url a ha)) <|
  .cons (Field.lives_opt fun a ha => rule_survives (h.rrule a ha)) <|
  .cons (Field.lives_opt fun a ha => date_survives (h.due a ha)) <|
  .cons (Field.lives_opt fun a ha => delta_survives (h.duration a ha)) <|
  .cons (Field.lives_push h.attach.1 fun a ha => text_survives (h.attach.2 a ha)) <|
  .cons (Field.lives_push h.attendee.1 fun a ha => uri_survives (h.attendee.2 a ha)) <|
  .cons (Field.lives_texts h.categories) <|
  .cons (Field.lives_push h.comment.1 fun a ha => text_survives (h.comment.2 a ha)) <|
  .cons (Field.lives_push h.contact.1 fun a ha => text_survives (h.contact.2 a ha)) <|
  .cons (Field.lives_exdate h.exdate) <|
  .cons (Field.lives_push h.rstatus.1 fun a ha => rstatus_survives (h.rstatus.2 a ha)) <|
  .cons (Field.lives_push h.relatedTo.1 fun a ha => text_survives (h.relatedTo.2 a ha)) <|
  .cons (Field.lives_texts h.resources) <|
  .cons (Field.lives_push_nil h.rdate) <|
  .nil _ _

/-- The text of such a component, and the lines it is made of. -/
theorem VTodo.written {v : VTodo} (h : GoodVTodo v) {t : Str} (ht : Ser.ical v = .ok t) :
    ∃ u ls, Piece t u ∧ (∀ r, LeafText c!"VTODO" (u ++ r) ls r) ∧ VTodo.tryFrom ls = .ok v := by
  obtain ⟨ls, hl⟩ := VTodo.lives h
  obtain ⟨u, hu, hr⟩ := Comp.written (c := v.toComp) VTodo.plain (isName_lit (by decide)) h.xProp h.ianaProp hl.written ht
  refine ⟨u, ls, hu, hr, ?_⟩
  have e : (⟨v.toComp.slots, [], []⟩ : Comp VTodo.fields) = v.toComp := by
    show _ = (⟨v.toComp.slots, v.xProp, v.ianaProp⟩ : Comp VTodo.fields)
    rw [h.xProp, h.ianaProp]
  unfold VTodo.tryFrom
  rw [Comp.tryFrom_of_reads VTodo.nodup hl, e]
  rfl

theorem VCalendar.plain : VCalendar.fields.all Field.plain = true := rfl
theorem VCalendar.nodup : (VCalendar.fields.map Field.name).Nodup := by
  show ([c!"PRODID", c!"VERSION", c!"CALSCALE", c!"METHOD", c!"ALARMS", c!"EVENTS", c!"FREEBUSY", c!"JOURNALS", c!"TODO", c!"TIMEZONES"] : List Str).Nodup
  decide
theorem VCalendar.lives {v : VCalendar} (h : GoodVCalendar v) : Slots.Lives VCalendar.fields ({ v with alarms := [], events := [], freebusy := [], journals := [], todo := [], timezones := [] } : VCalendar).toComp.slots ({ v with alarms := [], events := [], freebusy := [], journals := [], todo := [], timezones := [] } : VCalendar).toComp.slots :=
  .cons (Field.lives_req (text_survives h.prodid)) <|
  .cons (Field.lives_req (text_survives h.version)) <|
  .cons (Field.lives_opt fun a ha => text_survives (h.calscale a ha)) <|
  .cons (Field.lives_opt fun a ha => text_survives (h.method a ha)) <|
  .cons (Field.lives_nested rfl) <|
  .cons (Field.lives_nested rfl) <|
  .cons (Field.lives_nested rfl) <|
  .cons (Field.lives_nested rfl) <|
  .cons (Field.lives_nested rfl) <|
  .cons (Field.lives_nested rfl) <|
  .nil _ _

end Ikal
