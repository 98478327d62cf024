import Verif.Lemmas.Echo
import Verif.Props.Nested

/-!
# C78: what a written component is read as
-/

namespace Ikal

open Nom Spec

set_option linter.unusedSectionVars false
set_option linter.unusedSimpArgs false

section
variable [Platform]

theorem leaf_iff {name u r0 : Str} {ls : List ContentLine} (h : LeafText name u ls r0) {P : List ContentLine → Prop} :
    (∃ r ls, LeafText name u ls r ∧ P ls) ↔ P ls :=
  ⟨fun ⟨_, _, h1, h2⟩ => leafText_unique h1 h ▸ h2, fun hp => ⟨_, _, h, hp⟩⟩

/-! ### Audio -/

theorem Audio.echoes {v : Audio} (h : TidyAudio v) : Slots.Echoes Audio.fields v.toComp.slots fun w =>
    Back.One c!"ACTION" Back.asText Full.TextLine v.action w.1 ∧
    Back.One c!"TRIGGER" Back.asTrigger Full.TriggerLine v.trigger w.2.1 ∧
    Back.Opt c!"DURATION" (Back.asShown TimeDelta.toStr) Full.DurationLine v.duration w.2.2.1 ∧
    Back.Opt c!"REPEAT" Back.asNumber Full.NumberLine v.repeat_ w.2.2.2.1 ∧
    Back.Many c!"ATTACH" Back.asText Full.TextLine v.attach w.2.2.2.2.1 ∧ True :=
  Slots.echo_cons (Field.echo_req reads_text (line_text h.action)) <|
  Slots.echo_cons (Field.echo_req reads_trigger (line_trigger _)) <|
  Slots.echo_cons (Field.echo_opt reads_duration fun a _ => line_delta a) <|
  Slots.echo_cons (Field.echo_opt reads_number fun a _ => line_nat a) <|
  Slots.echo_cons (Field.echo_push reads_text text_form fun a ha => line_text (h.attach a ha)) <|
  Slots.echo_nil

/-- What the lines of the properties are read as. -/
theorem Audio.lines_echo {v : Audio} (h : TidyAudio v) : ∃ ls sx si, Slots.Written Audio.fields v.toComp.slots ls ∧
    SMap.ical v.xProp = .ok sx ∧ Clean sx ∧ SMap.ical v.ianaProp = .ok si ∧ Clean si ∧
    ∀ w, AudioFrom (ls ++ (lineOf c!"X-PROP" [] sx ++ lineOf c!"IANA-PROP" [] si)) w ↔ Back.AudioProps v w := by
  obtain ⟨sx, hx, hcx⟩ := clean_ext h.xProp
  obtain ⟨si, hi, hci⟩ := clean_ext h.ianaProp
  obtain ⟨ls, hl, hE⟩ := Audio.echoes h Audio.nodup
  refine ⟨ls, sx, si, hl, hx, hcx, hi, hci, fun w => ?_⟩
  rw [← C14_Audio_iff]
  unfold Audio.tryFrom
  rw [map_eq_ok]
  simp only [Audio.ofComp_eq, exists_eq_right]
  rw [Comp.tryFrom_echo (v := v.toComp) Audio.nodup
    (show c!"X-PROP" ∉ ([c!"ACTION", c!"TRIGGER", c!"DURATION", c!"REPEAT", c!"ATTACH"] : List Str) by decide)
    (show c!"IANA-PROP" ∉ ([c!"ACTION", c!"TRIGGER", c!"DURATION", c!"REPEAT", c!"ATTACH"] : List Str) by decide) hx hi hl hE]
  exact ⟨fun ⟨⟨k0, k1, k2, k3, k4, _⟩, kx, ki⟩ => ⟨k0, k1, k2, k3, k4, kx, ki⟩, fun ⟨k0, k1, k2, k3, k4, kx, ki⟩ => ⟨⟨k0, k1, k2, k3, k4, trivial⟩, kx, ki⟩⟩

/-! ### Display -/

theorem Display.echoes {v : Display} (h : TidyDisplay v) : Slots.Echoes Display.fields v.toComp.slots fun w =>
    Back.One c!"ACTION" Back.asText Full.TextLine v.action w.1 ∧
    Back.One c!"TRIGGER" Back.asTrigger Full.TriggerLine v.trigger w.2.1 ∧
    Back.One c!"DESCRIPTION" Back.asText Full.TextLine v.description w.2.2.1 ∧
    Back.Opt c!"DURATION" (Back.asShown TimeDelta.toStr) Full.DurationLine v.duration w.2.2.2.1 ∧
    Back.Opt c!"REPEAT" Back.asNumber Full.NumberLine v.repeat_ w.2.2.2.2.1 ∧ True :=
  Slots.echo_cons (Field.echo_req reads_text (line_text h.action)) <|
  Slots.echo_cons (Field.echo_req reads_trigger (line_trigger _)) <|
  Slots.echo_cons (Field.echo_req reads_text (line_text h.description)) <|
  Slots.echo_cons (Field.echo_opt reads_duration fun a _ => line_delta a) <|
  Slots.echo_cons (Field.echo_opt reads_number fun a _ => line_nat a) <|
  Slots.echo_nil

/-- What the lines of the properties are read as. -/
theorem Display.lines_echo {v : Display} (h : TidyDisplay v) : ∃ ls sx si, Slots.Written Display.fields v.toComp.slots ls ∧
    SMap.ical v.xProp = .ok sx ∧ Clean sx ∧ SMap.ical v.ianaProp = .ok si ∧ Clean si ∧
    ∀ w, DisplayFrom (ls ++ (lineOf c!"X-PROP" [] sx ++ lineOf c!"IANA-PROP" [] si)) w ↔ Back.DisplayProps v w := by
  obtain ⟨sx, hx, hcx⟩ := clean_ext h.xProp
  obtain ⟨si, hi, hci⟩ := clean_ext h.ianaProp
  obtain ⟨ls, hl, hE⟩ := Display.echoes h Display.nodup
  refine ⟨ls, sx, si, hl, hx, hcx, hi, hci, fun w => ?_⟩
  rw [← C14_Display_iff]
  unfold Display.tryFrom
  rw [map_eq_ok]
  simp only [Display.ofComp_eq, exists_eq_right]
  rw [Comp.tryFrom_echo (v := v.toComp) Display.nodup
    (show c!"X-PROP" ∉ ([c!"ACTION", c!"TRIGGER", c!"DESCRIPTION", c!"DURATION", c!"REPEAT"] : List Str) by decide)
    (show c!"IANA-PROP" ∉ ([c!"ACTION", c!"TRIGGER", c!"DESCRIPTION", c!"DURATION", c!"REPEAT"] : List Str) by decide) hx hi hl hE]
  exact ⟨fun ⟨⟨k0, k1, k2, k3, k4, _⟩, kx, ki⟩ => ⟨k0, k1, k2, k3, k4, kx, ki⟩, fun ⟨k0, k1, k2, k3, k4, kx, ki⟩ => ⟨⟨k0, k1, k2, k3, k4, trivial⟩, kx, ki⟩⟩

/-! ### Email -/

theorem Email.echoes {v : Email} (h : TidyEmail v) : Slots.Echoes Email.fields v.toComp.slots fun w =>
    Back.One c!"ACTION" Back.asText Full.TextLine v.action w.1 ∧
    Back.One c!"TRIGGER" Back.asTrigger Full.TriggerLine v.trigger w.2.1 ∧
    Back.One c!"DESCRIPTION" Back.asText Full.TextLine v.description w.2.2.1 ∧
    Back.One c!"SUMMARY" Back.asText Full.TextLine v.summary w.2.2.2.1 ∧
    Back.Many c!"ATTENDEE" Back.asUri Full.UriLine v.attendee w.2.2.2.2.1 ∧
    Back.Opt c!"DURATION" (Back.asShown TimeDelta.toStr) Full.DurationLine v.duration w.2.2.2.2.2.1 ∧
    Back.Opt c!"REPEAT" Back.asNumber Full.NumberLine v.repeat_ w.2.2.2.2.2.2.1 ∧
    Back.Many c!"ATTACH" Back.asText Full.TextLine v.attach w.2.2.2.2.2.2.2.1 ∧ True :=
  Slots.echo_cons (Field.echo_req reads_text (line_text h.action)) <|
  Slots.echo_cons (Field.echo_req reads_trigger (line_trigger _)) <|
  Slots.echo_cons (Field.echo_req reads_text (line_text h.description)) <|
  Slots.echo_cons (Field.echo_req reads_text (line_text h.summary)) <|
  Slots.echo_cons (Field.echo_push reads_uri uri_form fun a ha => line_uri (h.attendee a ha)) <|
  Slots.echo_cons (Field.echo_opt reads_duration fun a _ => line_delta a) <|
  Slots.echo_cons (Field.echo_opt reads_number fun a _ => line_nat a) <|
  Slots.echo_cons (Field.echo_push reads_text text_form fun a ha => line_text (h.attach a ha)) <|
  Slots.echo_nil

/-- What the lines of the properties are read as. -/
theorem Email.lines_echo {v : Email} (h : TidyEmail v) : ∃ ls sx si, Slots.Written Email.fields v.toComp.slots ls ∧
    SMap.ical v.xProp = .ok sx ∧ Clean sx ∧ SMap.ical v.ianaProp = .ok si ∧ Clean si ∧
    ∀ w, EmailFrom (ls ++ (lineOf c!"X-PROP" [] sx ++ lineOf c!"IANA-PROP" [] si)) w ↔ Back.EmailProps v w := by
  obtain ⟨sx, hx, hcx⟩ := clean_ext h.xProp
  obtain ⟨si, hi, hci⟩ := clean_ext h.ianaProp
  obtain ⟨ls, hl, hE⟩ := Email.echoes h Email.nodup
  refine ⟨ls, sx, si, hl, hx, hcx, hi, hci, fun w => ?_⟩
  rw [← C14_Email_iff]
  unfold Email.tryFrom
  rw [map_eq_ok]
  simp only [Email.ofComp_eq, exists_eq_right]
  rw [Comp.tryFrom_echo (v := v.toComp) Email.nodup
    (show c!"X-PROP" ∉ ([c!"ACTION", c!"TRIGGER", c!"DESCRIPTION", c!"SUMMARY", c!"ATTENDEE", c!"DURATION", c!"REPEAT", c!"ATTACH"] : List Str) by decide)
    (show c!"IANA-PROP" ∉ ([c!"ACTION", c!"TRIGGER", c!"DESCRIPTION", c!"SUMMARY", c!"ATTENDEE", c!"DURATION", c!"REPEAT", c!"ATTACH"] : List Str) by decide) hx hi hl hE]
  exact ⟨fun ⟨⟨k0, k1, k2, k3, k4, k5, k6, k7, _⟩, kx, ki⟩ => ⟨k0, k1, k2, k3, k4, k5, k6, k7, kx, ki⟩, fun ⟨k0, k1, k2, k3, k4, k5, k6, k7, kx, ki⟩ => ⟨⟨k0, k1, k2, k3, k4, k5, k6, k7, trivial⟩, kx, ki⟩⟩

/-! ### VEvent -/

theorem VEvent.echoes {v : VEvent} (h : TidyVEvent v) : Slots.Echoes VEvent.fields ({ v with alarms := [] } : VEvent).toComp.slots fun w =>
    Back.One c!"DTSTAMP" (Back.asShown DateTime.toStr) Full.DateTimeLine v.dtstamp w.1 ∧
    Back.One c!"UID" Back.asText Full.TextLine v.uid w.2.1 ∧
    Back.One c!"DTSTART" Back.asDate Full.DateLine v.dtstart w.2.2.1 ∧
    Back.Opt c!"CLASS" (Back.asShown Class.toStr) Full.ClassLine v.class_ w.2.2.2.1 ∧
    Back.Opt c!"CREATED" (Back.asShown DateTime.toStr) Full.DateTimeLine v.created w.2.2.2.2.1 ∧
    Back.Opt c!"DESCRIPTION" Back.asText Full.TextLine v.description w.2.2.2.2.2.1 ∧
    Back.Opt c!"GEO" (Back.asShown Geo.toStr) Full.GeoLine v.geo w.2.2.2.2.2.2.1 ∧
    Back.Opt c!"LAST-MODIFIED" (Back.asShown DateTime.toStr) Full.DateTimeLine v.lastModified w.2.2.2.2.2.2.2.1 ∧
    Back.Opt c!"LOCATION" Back.asText Full.TextLine v.location w.2.2.2.2.2.2.2.2.1 ∧
    Back.Opt c!"ORGANIZER" Back.asUri Full.UriLine v.organizer w.2.2.2.2.2.2.2.2.2.1 ∧
    Back.Opt c!"PRIORITY" Back.asNumber Full.PriorityLine v.priority w.2.2.2.2.2.2.2.2.2.2.1 ∧
    Back.Opt c!"SEQUENCE" Back.asNumber Full.NumberLine v.sequence w.2.2.2.2.2.2.2.2.2.2.2.1 ∧
    Back.Opt c!"STATUS" (Back.asShown Status.toStr) Full.StatusLine v.status w.2.2.2.2.2.2.2.2.2.2.2.2.1 ∧
    Back.Opt c!"SUMMARY" Back.asText Full.TextLine v.summary w.2.2.2.2.2.2.2.2.2.2.2.2.2.1 ∧
    Back.Opt c!"TRANSP" (Back.asShown TimeTransparency.toStr) Full.TransparencyLine v.transp w.2.2.2.2.2.2.2.2.2.2.2.2.2.2.1 ∧
    Back.Opt c!"URL" Back.asUri Full.UriLine v.url w.2.2.2.2.2.2.2.2.2.2.2.2.2.2.2.1 ∧
    Back.Opt c!"RECURID" Back.asDate Full.DateLine v.recurid w.2.2.2.2.2.2.2.2.2.2.2.2.2.2.2.2.1 ∧
    Back.Opt c!"RRULE" Back.asRule Full.RuleLine v.rrule w.2.2.2.2.2.2.2.2.2.2.2.2.2.2.2.2.2.1 ∧
    Back.Opt c!"DTEND" Back.asDate Full.DateLine v.dtend w.2.2.2.2.2.2.2.2.2.2.2.2.2.2.2.2.2.2.1 ∧
    Back.Opt c!"DURATION" (Back.asShown TimeDelta.toStr) Full.DurationLine v.duration w.2.2.2.2.2.2.2.2.2.2.2.2.2.2.2.2.2.2.2.1 ∧
    Back.Many c!"ATTACH" Back.asText Full.TextLine v.attach w.2.2.2.2.2.2.2.2.2.2.2.2.2.2.2.2.2.2.2.2.1 ∧
    Back.Many c!"ATTENDEE" Back.asUri Full.UriLine v.attendee w.2.2.2.2.2.2.2.2.2.2.2.2.2.2.2.2.2.2.2.2.2.1 ∧
    Back.Parts c!"CATEGORIES" Back.asText Full.TextsLine v.categories w.2.2.2.2.2.2.2.2.2.2.2.2.2.2.2.2.2.2.2.2.2.2.1 ∧
    Back.Many c!"COMMENT" Back.asText Full.TextLine v.comment w.2.2.2.2.2.2.2.2.2.2.2.2.2.2.2.2.2.2.2.2.2.2.2.1 ∧
    Back.Many c!"CONTACT" Back.asText Full.TextLine v.contact w.2.2.2.2.2.2.2.2.2.2.2.2.2.2.2.2.2.2.2.2.2.2.2.2.1 ∧
    Back.Parts c!"EXDATE" Back.asDate Full.DatesLine v.exdate w.2.2.2.2.2.2.2.2.2.2.2.2.2.2.2.2.2.2.2.2.2.2.2.2.2.1 ∧
    Back.Many c!"RSTATUS" Back.asRequestStatus Full.RequestStatusLine v.rstatus w.2.2.2.2.2.2.2.2.2.2.2.2.2.2.2.2.2.2.2.2.2.2.2.2.2.2.1 ∧
    Back.Many c!"RELATED-TO" Back.asText Full.TextLine v.relatedTo w.2.2.2.2.2.2.2.2.2.2.2.2.2.2.2.2.2.2.2.2.2.2.2.2.2.2.2.1 ∧
    Back.Parts c!"RESOURCES" Back.asText Full.TextsLine v.resources w.2.2.2.2.2.2.2.2.2.2.2.2.2.2.2.2.2.2.2.2.2.2.2.2.2.2.2.2.1 ∧
    Back.Many c!"RDATE" (Back.asShown RDate.toStr) Full.RDateLine v.rdate w.2.2.2.2.2.2.2.2.2.2.2.2.2.2.2.2.2.2.2.2.2.2.2.2.2.2.2.2.2.1 ∧
    w.2.2.2.2.2.2.2.2.2.2.2.2.2.2.2.2.2.2.2.2.2.2.2.2.2.2.2.2.2.2.1 = [] ∧ True :=
  Slots.echo_cons (Field.echo_req reads_dateTime (line_dateTime _)) <|
  Slots.echo_cons (Field.echo_req reads_text (line_text h.uid)) <|
  Slots.echo_cons (Field.echo_req reads_date (line_date _)) <|
  Slots.echo_cons (Field.echo_opt reads_class fun a ha => line_class (h.class_ a ha)) <|
  Slots.echo_cons (Field.echo_opt reads_dateTime fun a _ => line_dateTime a) <|
  Slots.echo_cons (Field.echo_opt reads_text fun a ha => line_text (h.description a ha)) <|
  Slots.echo_cons (Field.echo_opt reads_geo fun a ha => line_geo (h.geo a ha)) <|
  Slots.echo_cons (Field.echo_opt reads_dateTime fun a _ => line_dateTime a) <|
  Slots.echo_cons (Field.echo_opt reads_text fun a ha => line_text (h.location a ha)) <|
  Slots.echo_cons (Field.echo_opt reads_uri fun a ha => line_uri (h.organizer a ha)) <|
  Slots.echo_cons (Field.echo_opt reads_priority fun a _ => line_nat a) <|
  Slots.echo_cons (Field.echo_opt reads_number fun a _ => line_nat a) <|
  Slots.echo_cons (Field.echo_opt reads_status fun a _ => line_status a) <|
  Slots.echo_cons (Field.echo_opt reads_text fun a ha => line_text (h.summary a ha)) <|
  Slots.echo_cons (Field.echo_opt reads_transparency fun a _ => line_transp a) <|
  Slots.echo_cons (Field.echo_opt reads_uri fun a ha => line_uri (h.url a ha)) <|
  Slots.echo_cons (Field.echo_opt reads_date fun a _ => line_date a) <|
  Slots.echo_cons (Field.echo_opt reads_rule fun a _ => line_rule a) <|
  Slots.echo_cons (Field.echo_opt reads_date fun a _ => line_date a) <|
  Slots.echo_cons (Field.echo_opt reads_duration fun a _ => line_delta a) <|
  Slots.echo_cons (Field.echo_push reads_text text_form fun a ha => line_text (h.attach a ha)) <|
  Slots.echo_cons (Field.echo_push reads_uri uri_form fun a ha => line_uri (h.attendee a ha)) <|
  Slots.echo_cons (Field.echo_append reads_texts text_form fun a ha => line_text (h.categories a ha)) <|
  Slots.echo_cons (Field.echo_push reads_text text_form fun a ha => line_text (h.comment a ha)) <|
  Slots.echo_cons (Field.echo_push reads_text text_form fun a ha => line_text (h.contact a ha)) <|
  Slots.echo_cons (Field.echo_append reads_dates date_form fun a _ => line_date a) <|
  Slots.echo_cons (Field.echo_push reads_rstatus requestStatus_form fun a ha => line_rstatus (h.rstatus a ha)) <|
  Slots.echo_cons (Field.echo_push reads_text text_form fun a ha => line_text (h.relatedTo a ha)) <|
  Slots.echo_cons (Field.echo_append reads_texts text_form fun a ha => line_text (h.resources a ha)) <|
  Slots.echo_cons (Field.echo_push reads_rdate form_rdate fun a _ => line_rdate a) <|
  Slots.echo_cons Field.echo_nested <|
  Slots.echo_nil

set_option maxHeartbeats 1000000 in
/-- What the lines of the properties are read as. -/
theorem VEvent.lines_echo {v : VEvent} (h : TidyVEvent v) : ∃ ls sx si, Slots.Written VEvent.fields ({ v with alarms := [] } : VEvent).toComp.slots ls ∧
    SMap.ical v.xProp = .ok sx ∧ Clean sx ∧ SMap.ical v.ianaProp = .ok si ∧ Clean si ∧
    ∀ w, VEventFrom (ls ++ (lineOf c!"X-PROP" [] sx ++ lineOf c!"IANA-PROP" [] si)) ({ w with alarms := [] } : VEvent) ↔ Back.VEventProps v w := by
  obtain ⟨sx, hx, hcx⟩ := clean_ext h.xProp
  obtain ⟨si, hi, hci⟩ := clean_ext h.ianaProp
  obtain ⟨ls, hl, hE⟩ := VEvent.echoes h VEvent.nodup
  refine ⟨ls, sx, si, hl, hx, hcx, hi, hci, fun w => ?_⟩
  rw [← C14_VEvent_iff]
  unfold VEvent.tryFrom
  rw [map_eq_ok]
  simp only [VEvent.ofComp_eq, exists_eq_right]
  rw [Comp.tryFrom_echo (v := ({ v with alarms := [] } : VEvent).toComp) VEvent.nodup
    (show c!"X-PROP" ∉ ([c!"DTSTAMP", c!"UID", c!"DTSTART", c!"CLASS", c!"CREATED", c!"DESCRIPTION", c!"GEO", c!"LAST-MODIFIED", c!"LOCATION", c!"ORGANIZER", c!"PRIORITY", c!"SEQUENCE", c!"STATUS", c!"SUMMARY", c!"TRANSP", c!"URL", c!"RECURID", c!"RRULE", c!"DTEND", c!"DURATION", c!"ATTACH", c!"ATTENDEE", c!"CATEGORIES", c!"COMMENT", c!"CONTACT", c!"EXDATE", c!"RSTATUS", c!"RELATED-TO", c!"RESOURCES", c!"RDATE", c!"ALARMS"] : List Str) by decide)
    (show c!"IANA-PROP" ∉ ([c!"DTSTAMP", c!"UID", c!"DTSTART", c!"CLASS", c!"CREATED", c!"DESCRIPTION", c!"GEO", c!"LAST-MODIFIED", c!"LOCATION", c!"ORGANIZER", c!"PRIORITY", c!"SEQUENCE", c!"STATUS", c!"SUMMARY", c!"TRANSP", c!"URL", c!"RECURID", c!"RRULE", c!"DTEND", c!"DURATION", c!"ATTACH", c!"ATTENDEE", c!"CATEGORIES", c!"COMMENT", c!"CONTACT", c!"EXDATE", c!"RSTATUS", c!"RELATED-TO", c!"RESOURCES", c!"RDATE", c!"ALARMS"] : List Str) by decide) hx hi hl hE]
  exact ⟨fun ⟨⟨k0, k1, k2, k3, k4, k5, k6, k7, k8, k9, k10, k11, k12, k13, k14, k15, k16, k17, k18, k19, k20, k21, k22, k23, k24, k25, k26, k27, k28, k29, k30, _⟩, kx, ki⟩ => ⟨k0, k1, k2, k3, k4, k5, k6, k7, k8, k9, k10, k11, k12, k13, k14, k15, k16, k17, k18, k19, k20, k21, k22, k23, k24, k25, k26, k27, k28, k29, kx, ki⟩, fun ⟨k0, k1, k2, k3, k4, k5, k6, k7, k8, k9, k10, k11, k12, k13, k14, k15, k16, k17, k18, k19, k20, k21, k22, k23, k24, k25, k26, k27, k28, k29, kx, ki⟩ => ⟨⟨k0, k1, k2, k3, k4, k5, k6, k7, k8, k9, k10, k11, k12, k13, k14, k15, k16, k17, k18, k19, k20, k21, k22, k23, k24, k25, k26, k27, k28, k29, rfl, trivial⟩, kx, ki⟩⟩

/-! ### VFreebusy -/

theorem VFreebusy.echoes {v : VFreebusy} (h : TidyVFreebusy v) : Slots.Echoes VFreebusy.fields v.toComp.slots fun w =>
    Back.One c!"DTSTAMP" (Back.asShown DateTime.toStr) Full.DateTimeLine v.dtstamp w.1 ∧
    Back.One c!"UID" Back.asText Full.TextLine v.uid w.2.1 ∧
    Back.Opt c!"CONTACT" Back.asText Full.TextLine v.contact w.2.2.1 ∧
    Back.Opt c!"DTSTART" Back.asDate Full.DateLine v.dtstart w.2.2.2.1 ∧
    Back.Opt c!"DTEND" Back.asDate Full.DateLine v.dtend w.2.2.2.2.1 ∧
    Back.Opt c!"ORGANIZER" Back.asUri Full.UriLine v.organizer w.2.2.2.2.2.1 ∧
    Back.Opt c!"URL" Back.asUri Full.UriLine v.url w.2.2.2.2.2.2.1 ∧
    Back.Many c!"ATTENDEE" Back.asUri Full.UriLine v.attendee w.2.2.2.2.2.2.2.1 ∧
    Back.Many c!"COMMENT" Back.asText Full.TextLine v.comment w.2.2.2.2.2.2.2.2.1 ∧
    Back.Parts c!"FREEBUSY" (Back.asShown Period.toStr) Full.PeriodsLine v.freebusy w.2.2.2.2.2.2.2.2.2.1 ∧
    Back.Many c!"RSTATUS" Back.asRequestStatus Full.RequestStatusLine v.rstatus w.2.2.2.2.2.2.2.2.2.2.1 ∧ True :=
  Slots.echo_cons (Field.echo_req reads_dateTime (line_dateTime _)) <|
  Slots.echo_cons (Field.echo_req reads_text (line_text h.uid)) <|
  Slots.echo_cons (Field.echo_opt reads_text fun a ha => line_text (h.contact a ha)) <|
  Slots.echo_cons (Field.echo_opt reads_date fun a _ => line_date a) <|
  Slots.echo_cons (Field.echo_opt reads_date fun a _ => line_date a) <|
  Slots.echo_cons (Field.echo_opt reads_uri fun a ha => line_uri (h.organizer a ha)) <|
  Slots.echo_cons (Field.echo_opt reads_uri fun a ha => line_uri (h.url a ha)) <|
  Slots.echo_cons (Field.echo_push reads_uri uri_form fun a ha => line_uri (h.attendee a ha)) <|
  Slots.echo_cons (Field.echo_push reads_text text_form fun a ha => line_text (h.comment a ha)) <|
  Slots.echo_cons (Field.echo_append reads_periods form_period fun a _ => line_period a) <|
  Slots.echo_cons (Field.echo_push reads_rstatus requestStatus_form fun a ha => line_rstatus (h.rstatus a ha)) <|
  Slots.echo_nil

/-- What the lines of the properties are read as. -/
theorem VFreebusy.lines_echo {v : VFreebusy} (h : TidyVFreebusy v) : ∃ ls sx si, Slots.Written VFreebusy.fields v.toComp.slots ls ∧
    SMap.ical v.xProp = .ok sx ∧ Clean sx ∧ SMap.ical v.ianaProp = .ok si ∧ Clean si ∧
    ∀ w, VFreebusyFrom (ls ++ (lineOf c!"X-PROP" [] sx ++ lineOf c!"IANA-PROP" [] si)) w ↔ Back.VFreebusyProps v w := by
  obtain ⟨sx, hx, hcx⟩ := clean_ext h.xProp
  obtain ⟨si, hi, hci⟩ := clean_ext h.ianaProp
  obtain ⟨ls, hl, hE⟩ := VFreebusy.echoes h VFreebusy.nodup
  refine ⟨ls, sx, si, hl, hx, hcx, hi, hci, fun w => ?_⟩
  rw [← C14_VFreebusy_iff]
  unfold VFreebusy.tryFrom
  rw [map_eq_ok]
  simp only [VFreebusy.ofComp_eq, exists_eq_right]
  rw [Comp.tryFrom_echo (v := v.toComp) VFreebusy.nodup
    (show c!"X-PROP" ∉ ([c!"DTSTAMP", c!"UID", c!"CONTACT", c!"DTSTART", c!"DTEND", c!"ORGANIZER", c!"URL", c!"ATTENDEE", c!"COMMENT", c!"FREEBUSY", c!"RSTATUS"] : List Str) by decide)
    (show c!"IANA-PROP" ∉ ([c!"DTSTAMP", c!"UID", c!"CONTACT", c!"DTSTART", c!"DTEND", c!"ORGANIZER", c!"URL", c!"ATTENDEE", c!"COMMENT", c!"FREEBUSY", c!"RSTATUS"] : List Str) by decide) hx hi hl hE]
  exact ⟨fun ⟨⟨k0, k1, k2, k3, k4, k5, k6, k7, k8, k9, k10, _⟩, kx, ki⟩ => ⟨k0, k1, k2, k3, k4, k5, k6, k7, k8, k9, k10, kx, ki⟩, fun ⟨k0, k1, k2, k3, k4, k5, k6, k7, k8, k9, k10, kx, ki⟩ => ⟨⟨k0, k1, k2, k3, k4, k5, k6, k7, k8, k9, k10, trivial⟩, kx, ki⟩⟩

/-- **C78** for a free/busy component: what its text is read as, property by property. -/
theorem C78_VFreebusy (v w : VFreebusy) (h : TidyVFreebusy v) (t : Str) (ht : ical v = .ok t) : VFreebusy.ofStr t = .ok w ↔ Back.VFreebusyProps v w := by
  rw [ical_eq rfl] at ht
  obtain ⟨ls, sx, si, hl, hx, hcx, hi, hci, hE⟩ := VFreebusy.lines_echo h
  obtain ⟨u, hu, hr⟩ := Comp.written_tidy (c := v.toComp) VFreebusy.plain (isName_lit (by decide)) hx hcx hi hci hl ht
  rw [C19_VFreebusy, hu.un, ← hE]
  exact leaf_iff (by simpa using hr [])

/-! ### VJournal -/

theorem VJournal.echoes {v : VJournal} (h : TidyVJournal v) : Slots.Echoes VJournal.fields v.toComp.slots fun w =>
    Back.One c!"DTSTAMP" (Back.asShown DateTime.toStr) Full.DateTimeLine v.dtstamp w.1 ∧
    Back.One c!"UID" Back.asText Full.TextLine v.uid w.2.1 ∧
    Back.Opt c!"CLASS" (Back.asShown Class.toStr) Full.ClassLine v.class_ w.2.2.1 ∧
    Back.Opt c!"CREATED" (Back.asShown DateTime.toStr) Full.DateTimeLine v.created w.2.2.2.1 ∧
    Back.One c!"DTSTART" Back.asDate Full.DateLine v.dtstart w.2.2.2.2.1 ∧
    Back.Opt c!"LAST-MODIFIED" (Back.asShown DateTime.toStr) Full.DateTimeLine v.lastModified w.2.2.2.2.2.1 ∧
    Back.Opt c!"ORGANIZER" Back.asUri Full.UriLine v.organizer w.2.2.2.2.2.2.1 ∧
    Back.Opt c!"RECURID" Back.asDate Full.DateLine v.recurid w.2.2.2.2.2.2.2.1 ∧
    Back.Opt c!"SEQUENCE" Back.asNumber Full.NumberLine v.sequence w.2.2.2.2.2.2.2.2.1 ∧
    Back.Opt c!"STATUS" (Back.asShown Status.toStr) Full.StatusLine v.status w.2.2.2.2.2.2.2.2.2.1 ∧
    Back.Opt c!"SUMMARY" Back.asText Full.TextLine v.summary w.2.2.2.2.2.2.2.2.2.2.1 ∧
    Back.Opt c!"URL" Back.asUri Full.UriLine v.url w.2.2.2.2.2.2.2.2.2.2.2.1 ∧
    Back.Opt c!"RRULE" Back.asRule Full.RuleLine v.rrule w.2.2.2.2.2.2.2.2.2.2.2.2.1 ∧
    Back.Many c!"ATTACH" Back.asText Full.TextLine v.attach w.2.2.2.2.2.2.2.2.2.2.2.2.2.1 ∧
    Back.Many c!"ATTENDEE" Back.asUri Full.UriLine v.attendee w.2.2.2.2.2.2.2.2.2.2.2.2.2.2.1 ∧
    Back.Parts c!"CATEGORIES" Back.asText Full.TextsLine v.categories w.2.2.2.2.2.2.2.2.2.2.2.2.2.2.2.1 ∧
    Back.Many c!"COMMENT" Back.asText Full.TextLine v.comment w.2.2.2.2.2.2.2.2.2.2.2.2.2.2.2.2.1 ∧
    Back.Many c!"CONTACT" Back.asText Full.TextLine v.contact w.2.2.2.2.2.2.2.2.2.2.2.2.2.2.2.2.2.1 ∧
    Back.Many c!"DESCRIPTION" Back.asText Full.TextLine v.description w.2.2.2.2.2.2.2.2.2.2.2.2.2.2.2.2.2.2.1 ∧
    Back.Parts c!"EXDATE" Back.asDate Full.DatesLine v.exdate w.2.2.2.2.2.2.2.2.2.2.2.2.2.2.2.2.2.2.2.1 ∧
    Back.Many c!"RELATED-TO" Back.asText Full.TextLine v.relatedTo w.2.2.2.2.2.2.2.2.2.2.2.2.2.2.2.2.2.2.2.2.1 ∧
    Back.Many c!"RDATE" (Back.asShown RDate.toStr) Full.RDateLine v.rdate w.2.2.2.2.2.2.2.2.2.2.2.2.2.2.2.2.2.2.2.2.2.1 ∧
    Back.Many c!"RSTATUS" Back.asRequestStatus Full.RequestStatusLine v.rstatus w.2.2.2.2.2.2.2.2.2.2.2.2.2.2.2.2.2.2.2.2.2.2.1 ∧ True :=
  Slots.echo_cons (Field.echo_req reads_dateTime (line_dateTime _)) <|
  Slots.echo_cons (Field.echo_req reads_text (line_text h.uid)) <|
  Slots.echo_cons (Field.echo_opt reads_class fun a ha => line_class (h.class_ a ha)) <|
  Slots.echo_cons (Field.echo_opt reads_dateTime fun a _ => line_dateTime a) <|
  Slots.echo_cons (Field.echo_req reads_date (line_date _)) <|
  Slots.echo_cons (Field.echo_opt reads_dateTime fun a _ => line_dateTime a) <|
  Slots.echo_cons (Field.echo_opt reads_uri fun a ha => line_uri (h.organizer a ha)) <|
  Slots.echo_cons (Field.echo_opt reads_date fun a _ => line_date a) <|
  Slots.echo_cons (Field.echo_opt reads_number fun a _ => line_nat a) <|
  Slots.echo_cons (Field.echo_opt reads_status fun a _ => line_status a) <|
  Slots.echo_cons (Field.echo_opt reads_text fun a ha => line_text (h.summary a ha)) <|
  Slots.echo_cons (Field.echo_opt reads_uri fun a ha => line_uri (h.url a ha)) <|
  Slots.echo_cons (Field.echo_opt reads_rule fun a _ => line_rule a) <|
  Slots.echo_cons (Field.echo_push reads_text text_form fun a ha => line_text (h.attach a ha)) <|
  Slots.echo_cons (Field.echo_push reads_uri uri_form fun a ha => line_uri (h.attendee a ha)) <|
  Slots.echo_cons (Field.echo_append reads_texts text_form fun a ha => line_text (h.categories a ha)) <|
  Slots.echo_cons (Field.echo_push reads_text text_form fun a ha => line_text (h.comment a ha)) <|
  Slots.echo_cons (Field.echo_push reads_text text_form fun a ha => line_text (h.contact a ha)) <|
  Slots.echo_cons (Field.echo_push reads_text text_form fun a ha => line_text (h.description a ha)) <|
  Slots.echo_cons (Field.echo_append reads_dates date_form fun a _ => line_date a) <|
  Slots.echo_cons (Field.echo_push reads_text text_form fun a ha => line_text (h.relatedTo a ha)) <|
  Slots.echo_cons (Field.echo_push reads_rdate form_rdate fun a _ => line_rdate a) <|
  Slots.echo_cons (Field.echo_push reads_rstatus requestStatus_form fun a ha => line_rstatus (h.rstatus a ha)) <|
  Slots.echo_nil

/-- What the lines of the properties are read as. -/
theorem VJournal.lines_echo {v : VJournal} (h : TidyVJournal v) : ∃ ls sx si, Slots.Written VJournal.fields v.toComp.slots ls ∧
    SMap.ical v.xProp = .ok sx ∧ Clean sx ∧ SMap.ical v.ianaProp = .ok si ∧ Clean si ∧
    ∀ w, VJournalFrom (ls ++ (lineOf c!"X-PROP" [] sx ++ lineOf c!"IANA-PROP" [] si)) w ↔ Back.VJournalProps v w := by
  obtain ⟨sx, hx, hcx⟩ := clean_ext h.xProp
  obtain ⟨si, hi, hci⟩ := clean_ext h.ianaProp
  obtain ⟨ls, hl, hE⟩ := VJournal.echoes h VJournal.nodup
  refine ⟨ls, sx, si, hl, hx, hcx, hi, hci, fun w => ?_⟩
  rw [← C14_VJournal_iff]
  unfold VJournal.tryFrom
  rw [map_eq_ok]
  simp only [VJournal.ofComp_eq, exists_eq_right]
  rw [Comp.tryFrom_echo (v := v.toComp) VJournal.nodup
    (show c!"X-PROP" ∉ ([c!"DTSTAMP", c!"UID", c!"CLASS", c!"CREATED", c!"DTSTART", c!"LAST-MODIFIED", c!"ORGANIZER", c!"RECURID", c!"SEQUENCE", c!"STATUS", c!"SUMMARY", c!"URL", c!"RRULE", c!"ATTACH", c!"ATTENDEE", c!"CATEGORIES", c!"COMMENT", c!"CONTACT", c!"DESCRIPTION", c!"EXDATE", c!"RELATED-TO", c!"RDATE", c!"RSTATUS"] : List Str) by decide)
    (show c!"IANA-PROP" ∉ ([c!"DTSTAMP", c!"UID", c!"CLASS", c!"CREATED", c!"DTSTART", c!"LAST-MODIFIED", c!"ORGANIZER", c!"RECURID", c!"SEQUENCE", c!"STATUS", c!"SUMMARY", c!"URL", c!"RRULE", c!"ATTACH", c!"ATTENDEE", c!"CATEGORIES", c!"COMMENT", c!"CONTACT", c!"DESCRIPTION", c!"EXDATE", c!"RELATED-TO", c!"RDATE", c!"RSTATUS"] : List Str) by decide) hx hi hl hE]
  exact ⟨fun ⟨⟨k0, k1, k2, k3, k4, k5, k6, k7, k8, k9, k10, k11, k12, k13, k14, k15, k16, k17, k18, k19, k20, k21, k22, _⟩, kx, ki⟩ => ⟨k0, k1, k2, k3, k4, k5, k6, k7, k8, k9, k10, k11, k12, k13, k14, k15, k16, k17, k18, k19, k20, k21, k22, kx, ki⟩, fun ⟨k0, k1, k2, k3, k4, k5, k6, k7, k8, k9, k10, k11, k12, k13, k14, k15, k16, k17, k18, k19, k20, k21, k22, kx, ki⟩ => ⟨⟨k0, k1, k2, k3, k4, k5, k6, k7, k8, k9, k10, k11, k12, k13, k14, k15, k16, k17, k18, k19, k20, k21, k22, trivial⟩, kx, ki⟩⟩

/-- **C78** for a journal entry: what its text is read as, property by property. -/
theorem C78_VJournal (v w : VJournal) (h : TidyVJournal v) (t : Str) (ht : ical v = .ok t) : VJournal.ofStr t = .ok w ↔ Back.VJournalProps v w := by
  rw [ical_eq rfl] at ht
  obtain ⟨ls, sx, si, hl, hx, hcx, hi, hci, hE⟩ := VJournal.lines_echo h
  obtain ⟨u, hu, hr⟩ := Comp.written_tidy (c := v.toComp) VJournal.plain (isName_lit (by decide)) hx hcx hi hci hl ht
  rw [C19_VJournal, hu.un, ← hE]
  exact leaf_iff (by simpa using hr [])

/-! ### Standard -/

theorem Standard.echoes {v : Standard} (h : TidyStandard v) : Slots.Echoes Standard.fields v.toComp.slots fun w =>
    Back.One c!"DTSTART" Back.asDate Full.DateLine v.dtstart w.1 ∧
    Back.One c!"TZOFFSETTO" (Back.asShown FixedOffset.toStr) Full.OffsetLine v.tzoffsetto w.2.1 ∧
    Back.One c!"TZOFFSETFROM" (Back.asShown FixedOffset.toStr) Full.OffsetLine v.tzoffsetfrom w.2.2.1 ∧
    Back.Opt c!"RRULE" Back.asRule Full.RuleLine v.rrule w.2.2.2.1 ∧
    Back.Many c!"COMMENT" Back.asText Full.TextLine v.comment w.2.2.2.2.1 ∧
    Back.Many c!"RDATE" (Back.asShown RDate.toStr) Full.RDateLine v.rdate w.2.2.2.2.2.1 ∧
    Back.Many c!"TZNAME" Back.asText Full.TextLine v.tzname w.2.2.2.2.2.2.1 ∧ True :=
  Slots.echo_cons (Field.echo_req reads_date (line_date _)) <|
  Slots.echo_cons (Field.echo_req reads_offset (line_offset _)) <|
  Slots.echo_cons (Field.echo_req reads_offset (line_offset _)) <|
  Slots.echo_cons (Field.echo_opt reads_rule fun a _ => line_rule a) <|
  Slots.echo_cons (Field.echo_push reads_text text_form fun a ha => line_text (h.comment a ha)) <|
  Slots.echo_cons (Field.echo_push reads_rdate form_rdate fun a _ => line_rdate a) <|
  Slots.echo_cons (Field.echo_push reads_text text_form fun a ha => line_text (h.tzname a ha)) <|
  Slots.echo_nil

/-- What the lines of the properties are read as. -/
theorem Standard.lines_echo {v : Standard} (h : TidyStandard v) : ∃ ls sx si, Slots.Written Standard.fields v.toComp.slots ls ∧
    SMap.ical v.xProp = .ok sx ∧ Clean sx ∧ SMap.ical v.ianaProp = .ok si ∧ Clean si ∧
    ∀ w, StandardFrom (ls ++ (lineOf c!"X-PROP" [] sx ++ lineOf c!"IANA-PROP" [] si)) w ↔ Back.StandardProps v w := by
  obtain ⟨sx, hx, hcx⟩ := clean_ext h.xProp
  obtain ⟨si, hi, hci⟩ := clean_ext h.ianaProp
  obtain ⟨ls, hl, hE⟩ := Standard.echoes h Standard.nodup
  refine ⟨ls, sx, si, hl, hx, hcx, hi, hci, fun w => ?_⟩
  rw [← C14_Standard_iff]
  unfold Standard.tryFrom
  rw [map_eq_ok]
  simp only [Standard.ofComp_eq, exists_eq_right]
  rw [Comp.tryFrom_echo (v := v.toComp) Standard.nodup
    (show c!"X-PROP" ∉ ([c!"DTSTART", c!"TZOFFSETTO", c!"TZOFFSETFROM", c!"RRULE", c!"COMMENT", c!"RDATE", c!"TZNAME"] : List Str) by decide)
    (show c!"IANA-PROP" ∉ ([c!"DTSTART", c!"TZOFFSETTO", c!"TZOFFSETFROM", c!"RRULE", c!"COMMENT", c!"RDATE", c!"TZNAME"] : List Str) by decide) hx hi hl hE]
  exact ⟨fun ⟨⟨k0, k1, k2, k3, k4, k5, k6, _⟩, kx, ki⟩ => ⟨k0, k1, k2, k3, k4, k5, k6, kx, ki⟩, fun ⟨k0, k1, k2, k3, k4, k5, k6, kx, ki⟩ => ⟨⟨k0, k1, k2, k3, k4, k5, k6, trivial⟩, kx, ki⟩⟩

/-- **C78** for a standard part: what its text is read as, property by property. -/
theorem C78_Standard (v w : Standard) (h : TidyStandard v) (t : Str) (ht : ical v = .ok t) : Standard.ofStr t = .ok w ↔ Back.StandardProps v w := by
  rw [ical_eq rfl] at ht
  obtain ⟨ls, sx, si, hl, hx, hcx, hi, hci, hE⟩ := Standard.lines_echo h
  obtain ⟨u, hu, hr⟩ := Comp.written_tidy (c := v.toComp) Standard.plain (isName_lit (by decide)) hx hcx hi hci hl ht
  rw [C19_Standard, hu.un, ← hE]
  exact leaf_iff (by simpa using hr [])

/-! ### Daylight -/

theorem Daylight.echoes {v : Daylight} (h : TidyDaylight v) : Slots.Echoes Daylight.fields v.toComp.slots fun w =>
    Back.One c!"DTSTART" Back.asDate Full.DateLine v.dtstart w.1 ∧
    Back.One c!"TZOFFSETTO" (Back.asShown FixedOffset.toStr) Full.OffsetLine v.tzoffsetto w.2.1 ∧
    Back.One c!"TZOFFSETFROM" (Back.asShown FixedOffset.toStr) Full.OffsetLine v.tzoffsetfrom w.2.2.1 ∧
    Back.Opt c!"RRULE" Back.asRule Full.RuleLine v.rrule w.2.2.2.1 ∧
    Back.Many c!"COMMENT" Back.asText Full.TextLine v.comment w.2.2.2.2.1 ∧
    Back.Many c!"RDATE" (Back.asShown RDate.toStr) Full.RDateLine v.rdate w.2.2.2.2.2.1 ∧
    Back.Many c!"TZNAME" Back.asText Full.TextLine v.tzname w.2.2.2.2.2.2.1 ∧ True :=
  Slots.echo_cons (Field.echo_req reads_date (line_date _)) <|
  Slots.echo_cons (Field.echo_req reads_offset (line_offset _)) <|
  Slots.echo_cons (Field.echo_req reads_offset (line_offset _)) <|
  Slots.echo_cons (Field.echo_opt reads_rule fun a _ => line_rule a) <|
  Slots.echo_cons (Field.echo_push reads_text text_form fun a ha => line_text (h.comment a ha)) <|
  Slots.echo_cons (Field.echo_push reads_rdate form_rdate fun a _ => line_rdate a) <|
  Slots.echo_cons (Field.echo_push reads_text text_form fun a ha => line_text (h.tzname a ha)) <|
  Slots.echo_nil

/-- What the lines of the properties are read as. -/
theorem Daylight.lines_echo {v : Daylight} (h : TidyDaylight v) : ∃ ls sx si, Slots.Written Daylight.fields v.toComp.slots ls ∧
    SMap.ical v.xProp = .ok sx ∧ Clean sx ∧ SMap.ical v.ianaProp = .ok si ∧ Clean si ∧
    ∀ w, DaylightFrom (ls ++ (lineOf c!"X-PROP" [] sx ++ lineOf c!"IANA-PROP" [] si)) w ↔ Back.DaylightProps v w := by
  obtain ⟨sx, hx, hcx⟩ := clean_ext h.xProp
  obtain ⟨si, hi, hci⟩ := clean_ext h.ianaProp
  obtain ⟨ls, hl, hE⟩ := Daylight.echoes h Daylight.nodup
  refine ⟨ls, sx, si, hl, hx, hcx, hi, hci, fun w => ?_⟩
  rw [← C14_Daylight_iff]
  unfold Daylight.tryFrom
  rw [map_eq_ok]
  simp only [Daylight.ofComp_eq, exists_eq_right]
  rw [Comp.tryFrom_echo (v := v.toComp) Daylight.nodup
    (show c!"X-PROP" ∉ ([c!"DTSTART", c!"TZOFFSETTO", c!"TZOFFSETFROM", c!"RRULE", c!"COMMENT", c!"RDATE", c!"TZNAME"] : List Str) by decide)
    (show c!"IANA-PROP" ∉ ([c!"DTSTART", c!"TZOFFSETTO", c!"TZOFFSETFROM", c!"RRULE", c!"COMMENT", c!"RDATE", c!"TZNAME"] : List Str) by decide) hx hi hl hE]
  exact ⟨fun ⟨⟨k0, k1, k2, k3, k4, k5, k6, _⟩, kx, ki⟩ => ⟨k0, k1, k2, k3, k4, k5, k6, kx, ki⟩, fun ⟨k0, k1, k2, k3, k4, k5, k6, kx, ki⟩ => ⟨⟨k0, k1, k2, k3, k4, k5, k6, trivial⟩, kx, ki⟩⟩

/-- **C78** for a daylight part: what its text is read as, property by property. -/
theorem C78_Daylight (v w : Daylight) (h : TidyDaylight v) (t : Str) (ht : ical v = .ok t) : Daylight.ofStr t = .ok w ↔ Back.DaylightProps v w := by
  rw [ical_eq rfl] at ht
  obtain ⟨ls, sx, si, hl, hx, hcx, hi, hci, hE⟩ := Daylight.lines_echo h
  obtain ⟨u, hu, hr⟩ := Comp.written_tidy (c := v.toComp) Daylight.plain (isName_lit (by decide)) hx hcx hi hci hl ht
  rw [C19_Daylight, hu.un, ← hE]
  exact leaf_iff (by simpa using hr [])

/-! ### VTimezone -/

theorem VTimezone.echoes {v : VTimezone} (h : TidyVTimezone v) : Slots.Echoes VTimezone.fields ({ v with standard := [], daylight := [] } : VTimezone).toComp.slots fun w =>
    Back.One c!"TZID" Back.asText Full.TextLine v.tzid w.1 ∧
    Back.Opt c!"LAST-MODIFIED" (Back.asShown DateTime.toStr) Full.DateTimeLine v.lastModified w.2.1 ∧
    Back.Opt c!"TZURL" Back.asUri Full.UriLine v.tzurl w.2.2.1 ∧
    w.2.2.2.1 = [] ∧
    w.2.2.2.2.1 = [] ∧ True :=
  Slots.echo_cons (Field.echo_req reads_text (line_text h.tzid)) <|
  Slots.echo_cons (Field.echo_opt reads_dateTime fun a _ => line_dateTime a) <|
  Slots.echo_cons (Field.echo_opt reads_uri fun a ha => line_uri (h.tzurl a ha)) <|
  Slots.echo_cons Field.echo_nested <|
  Slots.echo_cons Field.echo_nested <|
  Slots.echo_nil

/-- What the lines of the properties are read as. -/
theorem VTimezone.lines_echo {v : VTimezone} (h : TidyVTimezone v) : ∃ ls sx si, Slots.Written VTimezone.fields ({ v with standard := [], daylight := [] } : VTimezone).toComp.slots ls ∧
    SMap.ical v.xProp = .ok sx ∧ Clean sx ∧ SMap.ical v.ianaProp = .ok si ∧ Clean si ∧
    ∀ w, VTimezoneFrom (ls ++ (lineOf c!"X-PROP" [] sx ++ lineOf c!"IANA-PROP" [] si)) ({ w with standard := [], daylight := [] } : VTimezone) ↔ Back.VTimezoneProps v w := by
  obtain ⟨sx, hx, hcx⟩ := clean_ext h.xProp
  obtain ⟨si, hi, hci⟩ := clean_ext h.ianaProp
  obtain ⟨ls, hl, hE⟩ := VTimezone.echoes h VTimezone.nodup
  refine ⟨ls, sx, si, hl, hx, hcx, hi, hci, fun w => ?_⟩
  rw [← C14_VTimezone_iff]
  unfold VTimezone.tryFrom
  rw [map_eq_ok]
  simp only [VTimezone.ofComp_eq, exists_eq_right]
  rw [Comp.tryFrom_echo (v := ({ v with standard := [], daylight := [] } : VTimezone).toComp) VTimezone.nodup
    (show c!"X-PROP" ∉ ([c!"TZID", c!"LAST-MODIFIED", c!"TZURL", c!"STANDARD", c!"DAYLIGHT"] : List Str) by decide)
    (show c!"IANA-PROP" ∉ ([c!"TZID", c!"LAST-MODIFIED", c!"TZURL", c!"STANDARD", c!"DAYLIGHT"] : List Str) by decide) hx hi hl hE]
  exact ⟨fun ⟨⟨k0, k1, k2, k3, k4, _⟩, kx, ki⟩ => ⟨k0, k1, k2, kx, ki⟩, fun ⟨k0, k1, k2, kx, ki⟩ => ⟨⟨k0, k1, k2, rfl, rfl, trivial⟩, kx, ki⟩⟩

/-! ### VTodo -/

theorem VTodo.echoes {v : VTodo} (h : TidyVTodo v) : Slots.Echoes VTodo.fields v.toComp.slots fun w =>
    Back.One c!"DTSTAMP" (Back.asShown DateTime.toStr) Full.DateTimeLine v.dtstamp w.1 ∧
    Back.One c!"UID" Back.asText Full.TextLine v.uid w.2.1 ∧
    Back.Opt c!"CLASS" (Back.asShown Class.toStr) Full.ClassLine v.class_ w.2.2.1 ∧
    Back.Opt c!"COMPLETED" (Back.asShown DateTime.toStr) Full.DateTimeLine v.completed w.2.2.2.1 ∧
    Back.Opt c!"CREATED" (Back.asShown DateTime.toStr) Full.DateTimeLine v.created w.2.2.2.2.1 ∧
    Back.Opt c!"DTSTART" Back.asDate Full.DateLine v.dtstart w.2.2.2.2.2.1 ∧
    Back.Opt c!"GEO" (Back.asShown Geo.toStr) Full.GeoLine v.geo w.2.2.2.2.2.2.1 ∧
    Back.Opt c!"LAST-MODIFIED" (Back.asShown DateTime.toStr) Full.DateTimeLine v.lastModified w.2.2.2.2.2.2.2.1 ∧
    Back.Opt c!"LOCATION" Back.asText Full.TextLine v.location w.2.2.2.2.2.2.2.2.1 ∧
    Back.Opt c!"ORGANIZER" Back.asUri Full.UriLine v.organizer w.2.2.2.2.2.2.2.2.2.1 ∧
    Back.Opt c!"PERCENT-COMPLETE" Back.asNumber Full.PercentLine v.percentComplete w.2.2.2.2.2.2.2.2.2.2.1 ∧
    Back.Opt c!"PRIORITY" Back.asNumber Full.PriorityLine v.priority w.2.2.2.2.2.2.2.2.2.2.2.1 ∧
    Back.Opt c!"RECURID" Back.asDate Full.DateLine v.recurid w.2.2.2.2.2.2.2.2.2.2.2.2.1 ∧
    Back.Opt c!"SEQUENCE" Back.asNumber Full.NumberLine v.sequence w.2.2.2.2.2.2.2.2.2.2.2.2.2.1 ∧
    Back.Opt c!"STATUS" (Back.asShown Status.toStr) Full.StatusLine v.status w.2.2.2.2.2.2.2.2.2.2.2.2.2.2.1 ∧
    Back.Opt c!"SUMMARY" Back.asText Full.TextLine v.summary w.2.2.2.2.2.2.2.2.2.2.2.2.2.2.2.1 ∧
    Back.Opt c!"URL" Back.asUri Full.UriLine v.url w.2.2.2.2.2.2.2.2.2.2.2.2.2.2.2.2.1 ∧
    Back.Opt c!"RRULE" Back.asRule Full.RuleLine v.rrule w.2.2.2.2.2.2.2.2.2.2.2.2.2.2.2.2.2.1 ∧
    Back.Opt c!"DUE" Back.asDate Full.DateLine v.due w.2.2.2.2.2.2.2.2.2.2.2.2.2.2.2.2.2.2.1 ∧
    Back.Opt c!"DURATION" (Back.asShown TimeDelta.toStr) Full.DurationLine v.duration w.2.2.2.2.2.2.2.2.2.2.2.2.2.2.2.2.2.2.2.1 ∧
    Back.Many c!"ATTACH" Back.asText Full.TextLine v.attach w.2.2.2.2.2.2.2.2.2.2.2.2.2.2.2.2.2.2.2.2.1 ∧
    Back.Many c!"ATTENDEE" Back.asUri Full.UriLine v.attendee w.2.2.2.2.2.2.2.2.2.2.2.2.2.2.2.2.2.2.2.2.2.1 ∧
    Back.Parts c!"CATEGORIES" Back.asText Full.TextsLine v.categories w.2.2.2.2.2.2.2.2.2.2.2.2.2.2.2.2.2.2.2.2.2.2.1 ∧
    Back.Many c!"COMMENT" Back.asText Full.TextLine v.comment w.2.2.2.2.2.2.2.2.2.2.2.2.2.2.2.2.2.2.2.2.2.2.2.1 ∧
    Back.Many c!"CONTACT" Back.asText Full.TextLine v.contact w.2.2.2.2.2.2.2.2.2.2.2.2.2.2.2.2.2.2.2.2.2.2.2.2.1 ∧
    Back.Parts c!"EXDATE" Back.asDate Full.DatesLine v.exdate w.2.2.2.2.2.2.2.2.2.2.2.2.2.2.2.2.2.2.2.2.2.2.2.2.2.1 ∧
    Back.Many c!"RSTATUS" Back.asRequestStatus Full.RequestStatusLine v.rstatus w.2.2.2.2.2.2.2.2.2.2.2.2.2.2.2.2.2.2.2.2.2.2.2.2.2.2.1 ∧
    Back.Many c!"RELATED-TO" Back.asText Full.TextLine v.relatedTo w.2.2.2.2.2.2.2.2.2.2.2.2.2.2.2.2.2.2.2.2.2.2.2.2.2.2.2.1 ∧
    Back.Parts c!"RESOURCES" Back.asText Full.TextsLine v.resources w.2.2.2.2.2.2.2.2.2.2.2.2.2.2.2.2.2.2.2.2.2.2.2.2.2.2.2.2.1 ∧
    Back.Many c!"RDATE" (Back.asShown RDate.toStr) Full.RDateLine v.rdate w.2.2.2.2.2.2.2.2.2.2.2.2.2.2.2.2.2.2.2.2.2.2.2.2.2.2.2.2.2.1 ∧ True :=
  Slots.echo_cons (Field.echo_req reads_dateTime (line_dateTime _)) <|
  Slots.echo_cons (Field.echo_req reads_text (line_text h.uid)) <|
  Slots.echo_cons (Field.echo_opt reads_class fun a ha => line_class (h.class_ a ha)) <|
  Slots.echo_cons (Field.echo_opt reads_dateTime fun a _ => line_dateTime a) <|
  Slots.echo_cons (Field.echo_opt reads_dateTime fun a _ => line_dateTime a) <|
  Slots.echo_cons (Field.echo_opt reads_date fun a _ => line_date a) <|
  Slots.echo_cons (Field.echo_opt reads_geo fun a ha => line_geo (h.geo a ha)) <|
  Slots.echo_cons (Field.echo_opt reads_dateTime fun a _ => line_dateTime a) <|
  Slots.echo_cons (Field.echo_opt reads_text fun a ha => line_text (h.location a ha)) <|
  Slots.echo_cons (Field.echo_opt reads_uri fun a ha => line_uri (h.organizer a ha)) <|
  Slots.echo_cons (Field.echo_opt reads_percent fun a _ => line_nat a) <|
  Slots.echo_cons (Field.echo_opt reads_priority fun a _ => line_nat a) <|
  Slots.echo_cons (Field.echo_opt reads_date fun a _ => line_date a) <|
  Slots.echo_cons (Field.echo_opt reads_number fun a _ => line_nat a) <|
  Slots.echo_cons (Field.echo_opt reads_status fun a _ => line_status a) <|
  Slots.echo_cons (Field.echo_opt reads_text fun a ha => line_text (h.summary a ha)) <|
  Slots.echo_cons (Field.echo_opt reads_uri fun a ha => line_uri (h.url a ha)) <|
  Slots.echo_cons (Field.echo_opt reads_rule fun a _ => line_rule a) <|
  Slots.echo_cons (Field.echo_opt reads_date fun a _ => line_date a) <|
  Slots.echo_cons (Field.echo_opt reads_duration fun a _ => line_delta a) <|
  Slots.echo_cons (Field.echo_push reads_text text_form fun a ha => line_text (h.attach a ha)) <|
  Slots.echo_cons (Field.echo_push reads_uri uri_form fun a ha => line_uri (h.attendee a ha)) <|
  Slots.echo_cons (Field.echo_append reads_texts text_form fun a ha => line_text (h.categories a ha)) <|
  Slots.echo_cons (Field.echo_push reads_text text_form fun a ha => line_text (h.comment a ha)) <|
  Slots.echo_cons (Field.echo_push reads_text text_form fun a ha => line_text (h.contact a ha)) <|
  Slots.echo_cons (Field.echo_append reads_dates date_form fun a _ => line_date a) <|
  Slots.echo_cons (Field.echo_push reads_rstatus requestStatus_form fun a ha => line_rstatus (h.rstatus a ha)) <|
  Slots.echo_cons (Field.echo_push reads_text text_form fun a ha => line_text (h.relatedTo a ha)) <|
  Slots.echo_cons (Field.echo_append reads_texts text_form fun a ha => line_text (h.resources a ha)) <|
  Slots.echo_cons (Field.echo_push reads_rdate form_rdate fun a _ => line_rdate a) <|
  Slots.echo_nil

set_option maxHeartbeats 1000000 in
/-- What the lines of the properties are read as. -/
theorem VTodo.lines_echo {v : VTodo} (h : TidyVTodo v) : ∃ ls sx si, Slots.Written VTodo.fields v.toComp.slots ls ∧
    SMap.ical v.xProp = .ok sx ∧ Clean sx ∧ SMap.ical v.ianaProp = .ok si ∧ Clean si ∧
    ∀ w, VTodoFrom (ls ++ (lineOf c!"X-PROP" [] sx ++ lineOf c!"IANA-PROP" [] si)) w ↔ Back.VTodoProps v w := by
  obtain ⟨sx, hx, hcx⟩ := clean_ext h.xProp
  obtain ⟨si, hi, hci⟩ := clean_ext h.ianaProp
  obtain ⟨ls, hl, hE⟩ := VTodo.echoes h VTodo.nodup
  refine ⟨ls, sx, si, hl, hx, hcx, hi, hci, fun w => ?_⟩
  rw [← C14_VTodo_iff]
  unfold VTodo.tryFrom
  rw [map_eq_ok]
  simp only [VTodo.ofComp_eq, exists_eq_right]
  rw [Comp.tryFrom_echo (v := v.toComp) VTodo.nodup
    (show c!"X-PROP" ∉ ([c!"DTSTAMP", c!"UID", c!"CLASS", c!"COMPLETED", c!"CREATED", c!"DTSTART", c!"GEO", c!"LAST-MODIFIED", c!"LOCATION", c!"ORGANIZER", c!"PERCENT-COMPLETE", c!"PRIORITY", c!"RECURID", c!"SEQUENCE", c!"STATUS", c!"SUMMARY", c!"URL", c!"RRULE", c!"DUE", c!"DURATION", c!"ATTACH", c!"ATTENDEE", c!"CATEGORIES", c!"COMMENT", c!"CONTACT", c!"EXDATE", c!"RSTATUS", c!"RELATED-TO", c!"RESOURCES", c!"RDATE"] : List Str) by decide)
    (show c!"IANA-PROP" ∉ ([c!"DTSTAMP", c!"UID", c!"CLASS", c!"COMPLETED", c!"CREATED", c!"DTSTART", c!"GEO", c!"LAST-MODIFIED", c!"LOCATION", c!"ORGANIZER", c!"PERCENT-COMPLETE", c!"PRIORITY", c!"RECURID", c!"SEQUENCE", c!"STATUS", c!"SUMMARY", c!"URL", c!"RRULE", c!"DUE", c!"DURATION", c!"ATTACH", c!"ATTENDEE", c!"CATEGORIES", c!"COMMENT", c!"CONTACT", c!"EXDATE", c!"RSTATUS", c!"RELATED-TO", c!"RESOURCES", c!"RDATE"] : List Str) by decide) hx hi hl hE]
  exact ⟨fun ⟨⟨k0, k1, k2, k3, k4, k5, k6, k7, k8, k9, k10, k11, k12, k13, k14, k15, k16, k17, k18, k19, k20, k21, k22, k23, k24, k25, k26, k27, k28, k29, _⟩, kx, ki⟩ => ⟨k0, k1, k2, k3, k4, k5, k6, k7, k8, k9, k10, k11, k12, k13, k14, k15, k16, k17, k18, k19, k20, k21, k22, k23, k24, k25, k26, k27, k28, k29, kx, ki⟩, fun ⟨k0, k1, k2, k3, k4, k5, k6, k7, k8, k9, k10, k11, k12, k13, k14, k15, k16, k17, k18, k19, k20, k21, k22, k23, k24, k25, k26, k27, k28, k29, kx, ki⟩ => ⟨⟨k0, k1, k2, k3, k4, k5, k6, k7, k8, k9, k10, k11, k12, k13, k14, k15, k16, k17, k18, k19, k20, k21, k22, k23, k24, k25, k26, k27, k28, k29, trivial⟩, kx, ki⟩⟩

/-- **C78** for a to-do: what its text is read as, property by property. -/
theorem C78_VTodo (v w : VTodo) (h : TidyVTodo v) (t : Str) (ht : ical v = .ok t) : VTodo.ofStr t = .ok w ↔ Back.VTodoProps v w := by
  rw [ical_eq rfl] at ht
  obtain ⟨ls, sx, si, hl, hx, hcx, hi, hci, hE⟩ := VTodo.lines_echo h
  obtain ⟨u, hu, hr⟩ := Comp.written_tidy (c := v.toComp) VTodo.plain (isName_lit (by decide)) hx hcx hi hci hl ht
  rw [C19_VTodo, hu.un, ← hE]
  exact leaf_iff (by simpa using hr [])

/-! ### VCalendar -/

theorem VCalendar.echoes {v : VCalendar} (h : TidyVCalendar v) : Slots.Echoes VCalendar.fields ({ v with alarms := [], events := [], freebusy := [], journals := [], todo := [], timezones := [] } : VCalendar).toComp.slots fun w =>
    Back.One c!"PRODID" Back.asText Full.TextLine v.prodid w.1 ∧
    Back.One c!"VERSION" Back.asText Full.TextLine v.version w.2.1 ∧
    Back.Opt c!"CALSCALE" Back.asText Full.TextLine v.calscale w.2.2.1 ∧
    Back.Opt c!"METHOD" Back.asText Full.TextLine v.method w.2.2.2.1 ∧
    w.2.2.2.2.1 = [] ∧
    w.2.2.2.2.2.1 = [] ∧
    w.2.2.2.2.2.2.1 = [] ∧
    w.2.2.2.2.2.2.2.1 = [] ∧
    w.2.2.2.2.2.2.2.2.1 = [] ∧
    w.2.2.2.2.2.2.2.2.2.1 = [] ∧ True :=
  Slots.echo_cons (Field.echo_req reads_text (line_text h.prodid)) <|
  Slots.echo_cons (Field.echo_req reads_text (line_text h.version)) <|
  Slots.echo_cons (Field.echo_opt reads_text fun a ha => line_text (h.calscale a ha)) <|
  Slots.echo_cons (Field.echo_opt reads_text fun a ha => line_text (h.method a ha)) <|
  Slots.echo_cons Field.echo_nested <|
  Slots.echo_cons Field.echo_nested <|
  Slots.echo_cons Field.echo_nested <|
  Slots.echo_cons Field.echo_nested <|
  Slots.echo_cons Field.echo_nested <|
  Slots.echo_cons Field.echo_nested <|
  Slots.echo_nil

/-- What the lines of the properties are read as. -/
theorem VCalendar.lines_echo {v : VCalendar} (h : TidyVCalendar v) : ∃ ls sx si, Slots.Written VCalendar.fields ({ v with alarms := [], events := [], freebusy := [], journals := [], todo := [], timezones := [] } : VCalendar).toComp.slots ls ∧
    SMap.ical v.xProp = .ok sx ∧ Clean sx ∧ SMap.ical v.ianaProp = .ok si ∧ Clean si ∧
    ∀ w, VCalendarFrom (ls ++ (lineOf c!"X-PROP" [] sx ++ lineOf c!"IANA-PROP" [] si)) ({ w with alarms := [], events := [], freebusy := [], journals := [], todo := [], timezones := [] } : VCalendar) ↔ Back.VCalendarProps v w := by
  obtain ⟨sx, hx, hcx⟩ := clean_ext h.xProp
  obtain ⟨si, hi, hci⟩ := clean_ext h.ianaProp
  obtain ⟨ls, hl, hE⟩ := VCalendar.echoes h VCalendar.nodup
  refine ⟨ls, sx, si, hl, hx, hcx, hi, hci, fun w => ?_⟩
  rw [← C14_VCalendar_iff]
  unfold VCalendar.tryFrom
  rw [map_eq_ok]
  simp only [VCalendar.ofComp_eq, exists_eq_right]
  rw [Comp.tryFrom_echo (v := ({ v with alarms := [], events := [], freebusy := [], journals := [], todo := [], timezones := [] } : VCalendar).toComp) VCalendar.nodup
    (show c!"X-PROP" ∉ ([c!"PRODID", c!"VERSION", c!"CALSCALE", c!"METHOD", c!"ALARMS", c!"EVENTS", c!"FREEBUSY", c!"JOURNALS", c!"TODO", c!"TIMEZONES"] : List Str) by decide)
    (show c!"IANA-PROP" ∉ ([c!"PRODID", c!"VERSION", c!"CALSCALE", c!"METHOD", c!"ALARMS", c!"EVENTS", c!"FREEBUSY", c!"JOURNALS", c!"TODO", c!"TIMEZONES"] : List Str) by decide) hx hi hl hE]
  exact ⟨fun ⟨⟨k0, k1, k2, k3, k4, k5, k6, k7, k8, k9, _⟩, kx, ki⟩ => ⟨k0, k1, k2, k3, kx, ki⟩, fun ⟨k0, k1, k2, k3, kx, ki⟩ => ⟨⟨k0, k1, k2, k3, rfl, rfl, rfl, rfl, rfl, rfl, trivial⟩, kx, ki⟩⟩

/-! ## Components with components -/

/-- At most one part is written as its text. -/
theorem serVec_echo {α β : Type} [Ser α] (hc : Ser.isComponent α = true) {name : Str} {l : List α} (h1 : l.length ≤ 1)
    {T : Str → β → Str → Prop} {f : α → β} {R : α → α → Prop}
    (hT : ∀ a ∈ l, ∀ t, Ser.ical a = .ok t → ∃ u, Piece t u ∧ c!"BEGIN:" <+: u ∧ ∀ b, R a b → ∀ r, T (u ++ r) (f b) r)
    {t : Str} (ht : Field.serVec name l = .ok t) :
    ∃ u, Piece t u ∧ (l = [] ∧ u = [] ∨ l ≠ [] ∧ c!"BEGIN:" <+: u) ∧
      ∀ bs, All2 R l bs → ∀ r as r', SeqText T r as r' → SeqText T (u ++ r) (bs.map f ++ as) r' := by
  match l, h1, hT, ht with
  | [], _, _, ht =>
    rw [serVec_nil] at ht
    cases ht
    refine ⟨[], .nil, .inl ⟨rfl, rfl⟩, fun bs hb r as r' h => ?_⟩
    cases hb
    exact h
  | [a], _, hT, ht =>
    have ht : field name a = .ok t := ht
    rw [field_component hc] at ht
    obtain ⟨u, hu, hb, hr⟩ := hT a (by simp) t ht
    refine ⟨u, hu, .inr ⟨by simp, hb⟩, fun bs hbs r as r' h => ?_⟩
    cases hbs with
    | cons h1 h2 =>
      cases h2
      exact .cons (hr _ h1 r) h

/-- The parts of two kinds. -/
theorem open_append {p q : Prop} {u u' : Str} (h : p ∧ u = [] ∨ ¬ p ∧ c!"BEGIN:" <+: u) (h' : q ∧ u' = [] ∨ ¬ q ∧ c!"BEGIN:" <+: u') :
    (p ∧ q) ∧ u ++ u' = [] ∨ ¬ (p ∧ q) ∧ c!"BEGIN:" <+: u ++ u' := by
  rcases h with ⟨h, rfl⟩ | ⟨h, hb⟩
  · rcases h' with ⟨h', rfl⟩ | ⟨h', hb'⟩
    · exact .inl ⟨⟨h, h'⟩, rfl⟩
    · exact .inr ⟨fun x => h' x.2, hb'⟩
  · exact .inr ⟨fun x => h x.1, hb.trans ⟨u', rfl⟩⟩

/-- The property lines end where the parts begin. -/
theorem lines_then_parts {u0 up ue z : Str} {ls0 lse : List ContentLine} (hw0 : Writes u0 ls0) (hwe : Writes ue lse)
    (h : up = [] ∨ (ue = [] ∧ lse = []) ∧ c!"BEGIN:" <+: up) (hz : c!"END:" <+: z) :
    LinesText (u0 ++ (up ++ (ue ++ z))) (ls0 ++ lse) (up ++ z) := by
  rcases h with rfl | ⟨⟨rfl, rfl⟩, hb⟩
  · have := (hw0.append hwe).stop (.inr hz)
    rwa [List.append_assoc] at this
  · rw [List.append_nil]
    exact hw0.stop (.inl (hb.trans ⟨z, rfl⟩))

/-- The text of an event without alarms. -/
theorem VEvent.text_echo {v : VEvent} (h : TidyVEvent v) (ha : v.alarms = []) {t : Str} (ht : Ser.ical v = .ok t) :
    ∃ u, Piece t u ∧ c!"BEGIN:" <+: u ∧ (∀ w, Back.VEventBack v w → ∀ r, EventText (u ++ r) w r) ∧
      ∀ w r, EventText u w r → Back.VEventBack v w := by
  obtain ⟨ls, sx, si, hl, hx, hcx, hi, hci, hE⟩ := VEvent.lines_echo h
  have e : { v with alarms := [] } = v := by rw [← ha]
  rw [e] at hl
  obtain ⟨u, hu, hr⟩ := Comp.written_tidy (c := v.toComp) VEvent.plain (isName_lit (by decide)) hx hcx hi hci hl ht
  refine ⟨u, hu, ?_, fun w hw r => ?_, fun w r hw => ?_⟩
  · obtain ⟨b, e, _⟩ := hr []
    exact ⟨c!"VEVENT\r\n" ++ b, by simpa using e.symm⟩
  · obtain ⟨body, h1, h2⟩ := hr r
    refine ⟨body, _, _, by simpa using h1, h2, ?_, (hE w).2 hw.props⟩
    rw [hw.noAlarms]
    exact .nil
  · obtain ⟨body, ls', r1, h1, h2, h3, h4⟩ := hw
    obtain ⟨body', h1', h2'⟩ := hr []
    rw [List.append_nil, show c!"BEGIN:" ++ c!"VEVENT" ++ c!"\r\n" = c!"BEGIN:VEVENT\r\n" from rfl, h1] at h1'
    have e := List.append_cancel_left h1'
    subst e
    obtain ⟨rfl, rfl⟩ := linesText_unique h2 h2'
    have hwa := (event_setting.seq_end ⟨c!"VEVENT\r\n", by simp⟩ h3).2
    exact ⟨ha, hwa, (hE w).1 h4⟩

/-- **C78** for an event: what its text is read as; an event with an alarm is not read. -/
theorem C78_VEvent (v w : VEvent) (h : DeepVEvent v) (t : Str) (ht : ical v = .ok t) : VEvent.ofStr t = .ok w ↔ Back.VEventBack v w := by
  constructor
  · intro hw
    have ha := C47_VEvent_alarms v w h t ht hw
    rw [ical_eq rfl] at ht
    obtain ⟨u, hu, _, _, hr⟩ := VEvent.text_echo h.props ha ht
    obtain ⟨r, hw⟩ := (C19_VEvent t w).1 hw
    rw [hu.un] at hw
    exact hr w r hw
  · intro hw
    rw [ical_eq rfl] at ht
    obtain ⟨u, hu, _, hr, _⟩ := VEvent.text_echo h.props hw.alarms ht
    exact (C19_VEvent t w).2 ⟨[], by rw [hu.un]; simpa using hr w hw []⟩

theorem VFreebusy.text_echo {v : VFreebusy} (h : TidyVFreebusy v) {t : Str} (ht : Ser.ical v = .ok t) :
    ∃ u, Piece t u ∧ c!"BEGIN:" <+: u ∧ ∀ w, Back.VFreebusyProps v w → ∀ r, FreebusyText (u ++ r) w r := by
  obtain ⟨ls, sx, si, hl, hx, hcx, hi, hci, hE⟩ := VFreebusy.lines_echo h
  obtain ⟨u, hu, hr⟩ := Comp.written_tidy (c := v.toComp) VFreebusy.plain (isName_lit (by decide)) hx hcx hi hci hl ht
  refine ⟨u, hu, ?_, fun w hw r => ⟨_, hr r, (hE w).2 hw⟩⟩
  obtain ⟨b, e, _⟩ := hr []
  exact ⟨c!"VFREEBUSY\r\n" ++ b, by simpa using e.symm⟩

theorem VJournal.text_echo {v : VJournal} (h : TidyVJournal v) {t : Str} (ht : Ser.ical v = .ok t) :
    ∃ u, Piece t u ∧ c!"BEGIN:" <+: u ∧ ∀ w, Back.VJournalProps v w → ∀ r, JournalText (u ++ r) w r := by
  obtain ⟨ls, sx, si, hl, hx, hcx, hi, hci, hE⟩ := VJournal.lines_echo h
  obtain ⟨u, hu, hr⟩ := Comp.written_tidy (c := v.toComp) VJournal.plain (isName_lit (by decide)) hx hcx hi hci hl ht
  refine ⟨u, hu, ?_, fun w hw r => ⟨_, hr r, (hE w).2 hw⟩⟩
  obtain ⟨b, e, _⟩ := hr []
  exact ⟨c!"VJOURNAL\r\n" ++ b, by simpa using e.symm⟩

theorem VTodo.text_echo {v : VTodo} (h : TidyVTodo v) {t : Str} (ht : Ser.ical v = .ok t) :
    ∃ u, Piece t u ∧ c!"BEGIN:" <+: u ∧ ∀ w, Back.VTodoProps v w → ∀ r, TodoText (u ++ r) w r := by
  obtain ⟨ls, sx, si, hl, hx, hcx, hi, hci, hE⟩ := VTodo.lines_echo h
  obtain ⟨u, hu, hr⟩ := Comp.written_tidy (c := v.toComp) VTodo.plain (isName_lit (by decide)) hx hcx hi hci hl ht
  refine ⟨u, hu, ?_, fun w hw r => ⟨_, hr r, (hE w).2 hw⟩⟩
  obtain ⟨b, e, _⟩ := hr []
  exact ⟨c!"VTODO\r\n" ++ b, by simpa using e.symm⟩

theorem Standard.text_echo {v : Standard} (h : TidyStandard v) {t : Str} (ht : Ser.ical v = .ok t) :
    ∃ u, Piece t u ∧ c!"BEGIN:" <+: u ∧ ∀ w, Back.StandardProps v w → ∀ r, StandardText (u ++ r) w r := by
  obtain ⟨ls, sx, si, hl, hx, hcx, hi, hci, hE⟩ := Standard.lines_echo h
  obtain ⟨u, hu, hr⟩ := Comp.written_tidy (c := v.toComp) Standard.plain (isName_lit (by decide)) hx hcx hi hci hl ht
  refine ⟨u, hu, ?_, fun w hw r => ⟨_, hr r, (hE w).2 hw⟩⟩
  obtain ⟨b, e, _⟩ := hr []
  exact ⟨c!"STANDARD\r\n" ++ b, by simpa using e.symm⟩

theorem Daylight.text_echo {v : Daylight} (h : TidyDaylight v) {t : Str} (ht : Ser.ical v = .ok t) :
    ∃ u, Piece t u ∧ c!"BEGIN:" <+: u ∧ ∀ w, Back.DaylightProps v w → ∀ r, DaylightText (u ++ r) w r := by
  obtain ⟨ls, sx, si, hl, hx, hcx, hi, hci, hE⟩ := Daylight.lines_echo h
  obtain ⟨u, hu, hr⟩ := Comp.written_tidy (c := v.toComp) Daylight.plain (isName_lit (by decide)) hx hcx hi hci hl ht
  refine ⟨u, hu, ?_, fun w hw r => ⟨_, hr r, (hE w).2 hw⟩⟩
  obtain ⟨b, e, _⟩ := hr []
  exact ⟨c!"DAYLIGHT\r\n" ++ b, by simpa using e.symm⟩

theorem all2_imp {α β : Type} {R S : α → β → Prop} {as : List α} {bs : List β} (h : All2 R as bs) (hi : ∀ a ∈ as, ∀ b, R a b → S a b) : All2 S as bs := by
  induction h with
  | nil => exact .nil
  | cons h _ ih => exact .cons (hi _ (by simp) _ h) (ih fun a ha => hi a (by simp [ha]))

/-- The text of a time zone that is read. -/
theorem VTimezone.text_echo {v : VTimezone} (h : DeepVTimezone v) (l1 : v.standard.length ≤ 1) (l2 : v.daylight.length ≤ 1)
    (hx : v.standard ≠ [] ∨ v.daylight ≠ [] → v.xProp = [] ∧ v.ianaProp = []) {t : Str} (ht : Ser.ical v = .ok t) :
    ∃ u, Piece t u ∧ c!"BEGIN:" <+: u ∧ (∀ w, Back.VTimezoneBack v w → ∀ r, TimezoneText (u ++ r) w r) ∧ ∀ w r, TimezoneText u w r → Back.VTimezoneProps v w := by
  obtain ⟨body, x, i, hb, hx', hi', rfl⟩ := Comp.framed (c := v.toComp) ht
  have hx' : @field _ Comp.extSer c!"X-PROP" v.xProp = .ok x := hx'
  have hi' : @field _ Comp.extSer c!"IANA-PROP" v.ianaProp = .ok i := hi'
  obtain ⟨t0, s1, s2, h0, k1, k2, rfl⟩ := VTimezone.ser_split hb
  obtain ⟨ls, sx, si, hl, hsx, _, hsi, _, hE⟩ := VTimezone.lines_echo h.props
  obtain ⟨u0, hu0, hw0⟩ := hl.ser VTimezone.plain h0
  obtain ⟨sx', si', hsx', hsi', ue, lse, hue, hwe, rfl, hen, -⟩ := ext_off h.props.xProp h.props.ianaProp hx' hi'
  obtain rfl : sx' = sx := Res.ok.inj (hsx'.symm.trans hsx)
  obtain rfl : si' = si := Res.ok.inj (hsi'.symm.trans hsi)
  obtain ⟨u1, hu1, hc1, hs1⟩ := serVec_echo (T := TzPartText) (f := TzPart.standard) (R := Back.StandardProps) rfl l1 (fun a ha t ht => Standard.text_echo (h.standard a ha) ht) k1
  obtain ⟨u2, hu2, hc2, hs2⟩ := serVec_echo (T := TzPartText) (f := TzPart.daylight) (R := Back.DaylightProps) rfl l2 (fun a ha t ht => Daylight.text_echo (h.daylight a ha) ht) k2
  have hp := ((piece_begin c!"VTIMEZONE" (isName_lit (by decide))).append ((hu0.append ((hu1).append hu2)).append hue)).append (piece_end c!"VTIMEZONE" (isName_lit (by decide)))
  have hop : u1 ++ u2 = [] ∨ (ue = [] ∧ lineOf c!"X-PROP" [] sx' ++ lineOf c!"IANA-PROP" [] si' = []) ∧ c!"BEGIN:" <+: u1 ++ u2 := by
    rcases (open_append hc1 hc2) with ⟨_, h⟩ | ⟨hn, h⟩
    · exact .inl h
    · refine .inr ⟨hen (hx ?_), h⟩
      refine Classical.byContradiction fun hh => hn ?_
      simpa [not_or, and_assoc] using hh
  have hlines : ∀ r, LinesText (u0 ++ ((u1 ++ u2) ++ (ue ++ (c!"END:VTIMEZONE\r\n" ++ r)))) _ ((u1 ++ u2) ++ (c!"END:VTIMEZONE\r\n" ++ r)) := fun r =>
    lines_then_parts hw0 hwe hop ⟨c!"VTIMEZONE\r\n" ++ r, rfl⟩
  refine ⟨_, by simpa [List.append_assoc] using hp, ⟨_, rfl⟩, fun w hw r => ?_, fun w r hw => ?_⟩
  · have hseq : SeqText TzPartText (u1 ++ (u2 ++ (c!"END:VTIMEZONE\r\n" ++ r))) (w.standard.map TzPart.standard ++ (w.daylight.map TzPart.daylight ++ ([]))) (c!"END:VTIMEZONE\r\n" ++ r) := hs1 _ hw.standard _ _ _ (hs2 _ hw.daylight _ _ _ (.nil))
    refine ⟨u0 ++ ((u1 ++ u2) ++ (ue ++ (c!"END:VTIMEZONE\r\n" ++ r))), _, _, w.standard.map TzPart.standard ++ (w.daylight.map TzPart.daylight ++ ([])), by simp, hlines r, by simpa using hseq, (hE w).2 hw.props, ?_, ?_⟩
    · simp [standardParts, List.filterMap_map, Function.comp_def, filterMap_const]
    · simp [daylightParts, List.filterMap_map, Function.comp_def, filterMap_const]
  · obtain ⟨body, ls', r1, ps, h1, h2, _, h4, _⟩ := hw
    have e2 : body = u0 ++ ((u1 ++ u2) ++ (ue ++ (c!"END:VTIMEZONE\r\n" ++ []))) := by
      have e1 : c!"BEGIN:VTIMEZONE\r\n" ++ (u0 ++ ((u1 ++ u2) ++ (ue ++ (c!"END:VTIMEZONE\r\n" ++ [])))) = c!"BEGIN:VTIMEZONE\r\n" ++ body := by rw [← h1]; simp
      exact (List.append_cancel_left e1).symm
    subst e2
    obtain ⟨rfl, rfl⟩ := linesText_unique h2 (hlines [])
    exact (hE w).1 h4

/-- **C78** for a time zone: what its text is read as; one with two parts of a kind, or with a part and an extension property, is not read. -/
theorem C78_VTimezone (v w : VTimezone) (h : DeepVTimezone v) (t : Str) (ht : ical v = .ok t) : VTimezone.ofStr t = .ok w ↔ Back.VTimezoneBack v w := by
  constructor
  · intro hw
    obtain ⟨a1, a2, a3, _⟩ := C47_VTimezone v w h t ht hw
    obtain ⟨b1, b2⟩ := C67_VTimezone v w h t ht hw
    rw [ical_eq rfl] at ht
    obtain ⟨u, hu, _, _, hr⟩ := VTimezone.text_echo h a1 a2 a3 ht
    obtain ⟨r, hw⟩ := (C19_VTimezone t w).1 hw
    rw [hu.un] at hw
    refine ⟨a1, a2, a3, hr w r hw, all2_imp b1 fun a ha b ⟨t, h1, h2⟩ => ?_, all2_imp b2 fun a ha b ⟨t, h1, h2⟩ => ?_⟩
    · exact (C78_Standard a b (h.standard a ha) t h1).1 h2
    · exact (C78_Daylight a b (h.daylight a ha) t h1).1 h2
  · intro hw
    rw [ical_eq rfl] at ht
    obtain ⟨u, hu, _, hr, _⟩ := VTimezone.text_echo h hw.oneStandard hw.oneDaylight hw.alone ht
    exact (C19_VTimezone t w).2 ⟨[], by rw [hu.un]; simpa using hr w hw []⟩

/-- The text of a calendar that is read. -/
theorem VCalendar.text_echo {v : VCalendar} (h : DeepVCalendar v) (hal : v.alarms = [])
    (hev : ∀ e ∈ v.events, e.alarms = []) (htz : ∀ z ∈ v.timezones, z.standard.length ≤ 1 ∧ z.daylight.length ≤ 1 ∧ (z.standard ≠ [] ∨ z.daylight ≠ [] → z.xProp = [] ∧ z.ianaProp = []))
    (l1 : v.events.length ≤ 1) (l2 : v.freebusy.length ≤ 1) (l3 : v.journals.length ≤ 1) (l4 : v.todo.length ≤ 1) (l5 : v.timezones.length ≤ 1)
    (hx : v.events ≠ [] ∨ v.freebusy ≠ [] ∨ v.journals ≠ [] ∨ v.todo ≠ [] ∨ v.timezones ≠ [] → v.xProp = [] ∧ v.ianaProp = []) {t : Str} (ht : Ser.ical v = .ok t) :
    ∃ u, Piece t u ∧ c!"BEGIN:" <+: u ∧ (∀ w, Back.VCalendarBack v w → ∀ r, ∃ cs, CalendarText (u ++ r) w cs (c!"\r\n" ++ r)) ∧ ∀ w cs r, CalendarText u w cs r → Back.VCalendarProps v w := by
  obtain ⟨body, x, i, hb, hx', hi', rfl⟩ := Comp.framed (c := v.toComp) ht
  have hx' : @field _ Comp.extSer c!"X-PROP" v.xProp = .ok x := hx'
  have hi' : @field _ Comp.extSer c!"IANA-PROP" v.ianaProp = .ok i := hi'
  obtain ⟨t0, s0, s1, s2, s3, s4, s5, h0, k0, k1, k2, k3, k4, k5, rfl⟩ := VCalendar.ser_split hb
  have e0 : s0 = [] := by
    rw [hal, serVec_nil] at k0
    exact (Res.ok.inj k0).symm
  subst e0
  obtain ⟨ls, sx, si, hl, hsx, _, hsi, _, hE⟩ := VCalendar.lines_echo h.props
  obtain ⟨u0, hu0, hw0⟩ := hl.ser VCalendar.plain h0
  obtain ⟨sx', si', hsx', hsi', ue, lse, hue, hwe, rfl, hen, -⟩ := ext_off h.props.xProp h.props.ianaProp hx' hi'
  obtain rfl : sx' = sx := Res.ok.inj (hsx'.symm.trans hsx)
  obtain rfl : si' = si := Res.ok.inj (hsi'.symm.trans hsi)
  obtain ⟨u1, hu1, hc1, hs1⟩ := serVec_echo (T := ComponentText) (f := Component.event) (R := Back.VEventBack) rfl l1 (fun a ha t ht => let ⟨u, hu, hb, hr, _⟩ := VEvent.text_echo (h.events a ha).props (hev a ha) ht; ⟨u, hu, hb, hr⟩) k1
  obtain ⟨u2, hu2, hc2, hs2⟩ := serVec_echo (T := ComponentText) (f := Component.freebusy) (R := Back.VFreebusyProps) rfl l2 (fun a ha t ht => VFreebusy.text_echo (h.freebusy a ha) ht) k2
  obtain ⟨u3, hu3, hc3, hs3⟩ := serVec_echo (T := ComponentText) (f := Component.journal) (R := Back.VJournalProps) rfl l3 (fun a ha t ht => VJournal.text_echo (h.journals a ha) ht) k3
  obtain ⟨u4, hu4, hc4, hs4⟩ := serVec_echo (T := ComponentText) (f := Component.todo) (R := Back.VTodoProps) rfl l4 (fun a ha t ht => VTodo.text_echo (h.todo a ha) ht) k4
  obtain ⟨u5, hu5, hc5, hs5⟩ := serVec_echo (T := ComponentText) (f := Component.timezone) (R := Back.VTimezoneBack) rfl l5 (fun a ha t ht => let ⟨u, hu, hb, hr, _⟩ := VTimezone.text_echo (h.timezones a ha) (htz a ha).1 (htz a ha).2.1 (htz a ha).2.2 ht; ⟨u, hu, hb, hr⟩) k5
  have hp := ((piece_begin c!"VCALENDAR" (isName_lit (by decide))).append ((hu0.append (((((hu1).append hu2).append hu3).append hu4).append hu5)).append hue)).append (piece_end c!"VCALENDAR" (isName_lit (by decide)))
  have hop : u1 ++ u2 ++ u3 ++ u4 ++ u5 = [] ∨ (ue = [] ∧ lineOf c!"X-PROP" [] sx' ++ lineOf c!"IANA-PROP" [] si' = []) ∧ c!"BEGIN:" <+: u1 ++ u2 ++ u3 ++ u4 ++ u5 := by
    rcases (open_append (open_append (open_append (open_append hc1 hc2) hc3) hc4) hc5) with ⟨_, h⟩ | ⟨hn, h⟩
    · exact .inl h
    · refine .inr ⟨hen (hx ?_), h⟩
      refine Classical.byContradiction fun hh => hn ?_
      simpa [not_or, and_assoc] using hh
  have hlines : ∀ r, LinesText (u0 ++ ((u1 ++ u2 ++ u3 ++ u4 ++ u5) ++ (ue ++ (c!"END:VCALENDAR\r\n" ++ r)))) _ ((u1 ++ u2 ++ u3 ++ u4 ++ u5) ++ (c!"END:VCALENDAR\r\n" ++ r)) := fun r =>
    lines_then_parts hw0 hwe hop ⟨c!"VCALENDAR\r\n" ++ r, rfl⟩
  refine ⟨_, by simpa [List.append_assoc] using hp, ⟨_, rfl⟩, fun w hw r => ?_, fun w cs r hw => ?_⟩
  · have hseq : SeqText ComponentText (u1 ++ (u2 ++ (u3 ++ (u4 ++ (u5 ++ (c!"END:VCALENDAR\r\n" ++ r)))))) (w.events.map Component.event ++ (w.freebusy.map Component.freebusy ++ (w.journals.map Component.journal ++ (w.todo.map Component.todo ++ (w.timezones.map Component.timezone ++ ([])))))) (c!"END:VCALENDAR\r\n" ++ r) := hs1 _ hw.events _ _ _ (hs2 _ hw.freebusy _ _ _ (hs3 _ hw.journals _ _ _ (hs4 _ hw.todo _ _ _ (hs5 _ hw.timezones _ _ _ (.nil)))))
    refine ⟨_, u0 ++ ((u1 ++ u2 ++ u3 ++ u4 ++ u5) ++ (ue ++ (c!"END:VCALENDAR\r\n" ++ r))), _, _, by simp, hlines r, by simpa using hseq, (hE w).2 hw.props, ?_⟩
    refine ⟨?_, ?_, ?_, ?_, ?_, ?_⟩
    · rw [hw.noAlarms]
      simp [alarmsOf, List.filterMap_map, Function.comp_def, filterMap_const]
    · simp [eventsOf, List.filterMap_map, Function.comp_def, filterMap_const]
    · simp [freebusyOf, List.filterMap_map, Function.comp_def, filterMap_const]
    · simp [journalsOf, List.filterMap_map, Function.comp_def, filterMap_const]
    · simp [todosOf, List.filterMap_map, Function.comp_def, filterMap_const]
    · simp [timezonesOf, List.filterMap_map, Function.comp_def, filterMap_const]
  · obtain ⟨body, ls', r1, h1, h2, _, h4, _⟩ := hw
    have e2 : body = u0 ++ ((u1 ++ u2 ++ u3 ++ u4 ++ u5) ++ (ue ++ (c!"END:VCALENDAR\r\n" ++ []))) := by
      have e1 : c!"BEGIN:VCALENDAR\r\n" ++ (u0 ++ ((u1 ++ u2 ++ u3 ++ u4 ++ u5) ++ (ue ++ (c!"END:VCALENDAR\r\n" ++ [])))) = c!"BEGIN:VCALENDAR\r\n" ++ body := by rw [← h1]; simp
      exact (List.append_cancel_left e1).symm
    subst e2
    obtain ⟨rfl, rfl⟩ := linesText_unique h2 (hlines [])
    exact (hE w).1 h4

theorem all2_left {α β : Type} {R : α → β → Prop} {P : α → Prop} {as : List α} {bs : List β} (h : All2 R as bs) (hi : ∀ a b, R a b → P a) : ∀ a ∈ as, P a := by
  induction h with
  | nil => simp
  | cons h _ ih =>
    intro a ha
    rcases List.mem_cons.1 ha with rfl | ha
    · exact hi _ _ h
    · exact ih a ha

/-- **C78** for a calendar: what its text is read as; one with an alarm, with two components of a kind, or with a component and an extension
property, is not read. -/
theorem C78_VCalendar (v w : VCalendar) (h : DeepVCalendar v) (t : Str) (ht : ical v = .ok t) : VCalendar.ofStr t = .ok w ↔ Back.VCalendarBack v w := by
  constructor
  · intro hw
    obtain ⟨a0, a1, a2, a3, a4, a5, a6, a7, a8, _⟩ := C47_VCalendar v w h t ht hw
    obtain ⟨b0, b1, b2, b3, b4, b5⟩ := C67_VCalendar v w h t ht hw
    rw [ical_eq rfl] at ht
    obtain ⟨u, hu, _, _, hr⟩ := VCalendar.text_echo h a0 a6 a7 a1 a2 a3 a4 a5 a8 ht
    obtain ⟨cs, r, hw⟩ := (C19_VCalendar t w).1 hw
    rw [hu.un] at hw
    refine ⟨a0, b0, a1, a2, a3, a4, a5, a8, hr w cs r hw, all2_imp b1 fun a ha b ⟨t, h1, h2⟩ => ?_, all2_imp b2 fun a ha b ⟨t, h1, h2⟩ => ?_,
      all2_imp b3 fun a ha b ⟨t, h1, h2⟩ => ?_, all2_imp b4 fun a ha b ⟨t, h1, h2⟩ => ?_, all2_imp b5 fun a ha b ⟨t, h1, h2⟩ => ?_⟩
    · exact (C78_VEvent a b (h.events a ha) t h1).1 h2
    · exact (C78_VFreebusy a b (h.freebusy a ha) t h1).1 h2
    · exact (C78_VJournal a b (h.journals a ha) t h1).1 h2
    · exact (C78_VTodo a b (h.todo a ha) t h1).1 h2
    · exact (C78_VTimezone a b (h.timezones a ha) t h1).1 h2
  · intro hw
    rw [ical_eq rfl] at ht
    obtain ⟨u, hu, _, hr, _⟩ := VCalendar.text_echo h hw.alarms (all2_left hw.events fun _ _ k => k.alarms)
      (all2_left hw.timezones fun _ _ k => ⟨k.oneStandard, k.oneDaylight, k.alone⟩) hw.oneEvent hw.oneFreebusy hw.oneJournal hw.oneTodo hw.oneTimezone hw.alone ht
    obtain ⟨cs, hr⟩ := hr w hw []
    exact (C19_VCalendar t w).2 ⟨cs, _, by rw [hu.un]; simpa using hr⟩

/-! ## Alarms -/

theorem escape_eq_plain {s o : Str} (h : escape s = o) (ho : '\\' ∉ o) : s = o := by
  induction s generalizing o with
  | nil => exact h
  | cons c s ih =>
    rw [escape_cons] at h
    unfold escChar at h
    split at h
    · subst h; simp at ho
    · split at h
      · subst h; simp at ho
      · split at h
        · subst h; simp at ho
        · subst h
          simp only [List.cons_append, List.nil_append, List.mem_cons, not_or] at ho ⊢
          exact congrArg (c :: ·) (ih rfl ho.2)

/-- The text of an alarm: its property lines, and the extension properties, between those of `VALARM`. -/
theorem Comp.alarm_tidy {fs : List Field} (hf : fs.all Field.plain = true) {name : Str} (hn : IsName name) {c : Comp fs} {sx si : Str}
    (hx : SMap.ical c.xProp = .ok sx) (hcx : Clean sx) (hi : SMap.ical c.ianaProp = .ok si) (hci : Clean si)
    {ls : List ContentLine} (hw : Slots.Written fs c.slots ls) {t : Str} (hfr : ∀ s, c.ical name = .ok s → Framed name s)
    (h : (c.ical name).map VAlarm.reframe = .ok t) :
    ∃ u, Piece t u ∧ ∀ r, LeafText c!"VALARM" (u ++ r) (ls ++ (lineOf c!"X-PROP" [] sx ++ lineOf c!"IANA-PROP" [] si)) r := by
  obtain ⟨s, hs, rfl⟩ := map_eq_ok.1 h
  obtain ⟨body0, hend, e0⟩ := hfr s hs
  obtain ⟨body, x, i, hb, hx', hi', rfl⟩ := Comp.framed hs
  have e1 : body0 = body ++ x ++ i := by
    have : c!"BEGIN:" ++ name ++ c!"\r\n" ++ (body ++ x ++ i) ++ (c!"END:" ++ name ++ c!"\r\n") =
        c!"BEGIN:" ++ name ++ c!"\r\n" ++ body0 ++ (c!"END:" ++ name ++ c!"\r\n") := by simpa using e0
    exact (List.append_cancel_left (List.append_cancel_right this)).symm
  have hlf : '\n' ∉ name := fun h => absurd (hn _ h) (not_nameChar (by simp))
  rw [e0, reframe_eq hlf hend, e1]
  obtain ⟨u, hu, hwr⟩ := hw.ser hf hb
  obtain ⟨ux, hux, hwx⟩ := @field_written _ Comp.extSer rfl c!"X-PROP" c.xProp [] sx x ⟨isName_lit (by decide), by decide, by decide⟩ (by decide) (written_ext hx hcx) hx'
  obtain ⟨ui, hui, hwi⟩ := @field_written _ Comp.extSer rfl c!"IANA-PROP" c.ianaProp [] si i ⟨isName_lit (by decide), by decide, by decide⟩ (by decide) (written_ext hi hci) hi'
  have hp := ((piece_begin c!"VALARM" (isName_lit (by decide))).append ((hu.append hux).append hui)).append (piece_end c!"VALARM" (isName_lit (by decide)))
  refine ⟨_, by simpa [List.append_assoc] using hp, fun r => ?_⟩
  refine ⟨u ++ ux ++ ui ++ (c!"END:VALARM\r\n" ++ r), by simp, ?_⟩
  rw [← List.append_assoc ls]
  exact ((hwr.append hwx).append hwi).stop (rest := c!"END:VALARM\r\n" ++ r) (.inr ⟨c!"VALARM\r\n" ++ r, by simp⟩)

/-- The first `ACTION` line holds the action. -/
theorem firstAction_tidy {fs : List Field} {p : ContentLine → Res Text} {a : Text} {vs : Slots fs} (hd : c!"ACTION" ∉ fs.map Field.name)
    {ls post : List ContentLine} (h : Slots.Written (.req c!"ACTION" Text inferInstance p :: fs) (a, vs) ls) (hpost : named c!"ACTION" post = []) :
    firstAction (ls ++ post) = if a.text = [] then none else some (escape a.text) := by
  obtain ⟨l, l', ⟨m, t, hw, rfl⟩, h2, rfl⟩ := h
  have e : t = escape a.text := (Res.ok.inj hw.ical).symm
  subst e
  have hl' : named c!"ACTION" l' = [] := by
    rw [named, List.filter_eq_nil_iff]
    intro x hx
    have hk := h2.keys x hx
    simp only [decide_eq_true_eq]
    intro e
    rw [e] at hk
    exact hd hk
  unfold firstAction
  rw [Slots.named_append, Slots.named_append, hl', hpost]
  by_cases ha : a.text = []
  · rw [if_pos ha, lineOf, if_pos (by rw [ha]; rfl)]
    rfl
  · rw [if_neg ha, lineOf, if_neg (escape_ne_nil ha)]
    rfl

theorem named_ext (sx si : Str) : named c!"ACTION" (lineOf c!"X-PROP" [] sx ++ lineOf c!"IANA-PROP" [] si) = [] := by
  rw [Slots.named_append]
  unfold lineOf named
  split <;> split <;> simp

theorem ite_kind {a : Text} {k : Str} (hk' : '\\' ∉ k) (hk : escape k = k) (hne : k ≠ []) : (if a.text = [] then none else some (escape a.text)) = some k ↔ a.text = k := by
  constructor
  · intro h
    split at h
    · cases h
    · exact escape_eq_plain (Option.some.inj h) hk'
  · rintro rfl
    rw [if_neg hne, hk]

theorem Audio.alarm_echo {v : Audio} (h : TidyAudio v) {t : Str} (ht : Ser.ical (VAlarm.audio v) = .ok t) :
    ∃ u ls, Piece t u ∧ (∀ r, LeafText c!"VALARM" (u ++ r) ls r) ∧ (∀ w, AudioFrom ls w ↔ Back.AudioProps v w) ∧
      firstAction ls = if v.action.text = [] then none else some (escape v.action.text) := by
  obtain ⟨ls, sx, si, hl, hx, hcx, hi, hci, hE⟩ := Audio.lines_echo h
  obtain ⟨u, hu, hr⟩ := Comp.alarm_tidy (c := v.toComp) Audio.plain (isName_lit (s := c!"AUDIO") (by decide)) hx hcx hi hci hl
    (fun s hs => C43_Audio v s ((ical_eq rfl).trans hs)) ht
  exact ⟨u, _, hu, hr, hE, firstAction_tidy (by simp [Field.name]) hl (named_ext sx si)⟩

theorem Display.alarm_echo {v : Display} (h : TidyDisplay v) {t : Str} (ht : Ser.ical (VAlarm.display v) = .ok t) :
    ∃ u ls, Piece t u ∧ (∀ r, LeafText c!"VALARM" (u ++ r) ls r) ∧ (∀ w, DisplayFrom ls w ↔ Back.DisplayProps v w) ∧
      firstAction ls = if v.action.text = [] then none else some (escape v.action.text) := by
  obtain ⟨ls, sx, si, hl, hx, hcx, hi, hci, hE⟩ := Display.lines_echo h
  obtain ⟨u, hu, hr⟩ := Comp.alarm_tidy (c := v.toComp) Display.plain (isName_lit (s := c!"DISPLAY") (by decide)) hx hcx hi hci hl
    (fun s hs => C43_Display v s ((ical_eq rfl).trans hs)) ht
  exact ⟨u, _, hu, hr, hE, firstAction_tidy (by simp [Field.name]) hl (named_ext sx si)⟩

theorem Email.alarm_echo {v : Email} (h : TidyEmail v) {t : Str} (ht : Ser.ical (VAlarm.email v) = .ok t) :
    ∃ u ls, Piece t u ∧ (∀ r, LeafText c!"VALARM" (u ++ r) ls r) ∧ (∀ w, EmailFrom ls w ↔ Back.EmailProps v w) ∧
      firstAction ls = if v.action.text = [] then none else some (escape v.action.text) := by
  obtain ⟨ls, sx, si, hl, hx, hcx, hi, hci, hE⟩ := Email.lines_echo h
  obtain ⟨u, hu, hr⟩ := Comp.alarm_tidy (c := v.toComp) Email.plain (isName_lit (s := c!"EMAIL") (by decide)) hx hcx hi hci hl
    (fun s hs => C43_Email v s ((ical_eq rfl).trans hs)) ht
  exact ⟨u, _, hu, hr, hE, firstAction_tidy (by simp [Field.name]) hl (named_ext sx si)⟩

theorem alarm_kind {v w : VAlarm} {ls : List ContentLine}
    (hf : firstAction ls = if (Back.action v).text = [] then none else some (escape (Back.action v).text)) :
    firstAction ls = some (Back.kind w) ↔ (Back.action v).text = Back.kind w := by
  rw [hf]
  cases w
  · exact ite_kind (k := c!"AUDIO") (by decide) (by decide) (by decide)
  · exact ite_kind (k := c!"DISPLAY") (by decide) (by decide) (by decide)
  · exact ite_kind (k := c!"EMAIL") (by decide) (by decide) (by decide)

theorem VAlarm.alarm_echo {v : VAlarm} (h : TidyVAlarm v) {t : Str} (ht : Ser.ical v = .ok t) :
    ∃ ls, (∀ w, VAlarm.ofStr t = .ok w ↔ VAlarmFrom ls w) ∧
      firstAction ls = (if (Back.action v).text = [] then none else some (escape (Back.action v).text)) ∧
      match v with
      | .audio a => ∀ w, AudioFrom ls w ↔ Back.AudioProps a w
      | .display a => ∀ w, DisplayFrom ls w ↔ Back.DisplayProps a w
      | .email a => ∀ w, EmailFrom ls w ↔ Back.EmailProps a w := by
  cases v with
  | audio a =>
    obtain ⟨u, ls, hu, hr, hE, hf⟩ := Audio.alarm_echo h ht
    exact ⟨ls, alarm_lines hu hr, hf, hE⟩
  | display a =>
    obtain ⟨u, ls, hu, hr, hE, hf⟩ := Display.alarm_echo h ht
    exact ⟨ls, alarm_lines hu hr, hf, hE⟩
  | email a =>
    obtain ⟨u, ls, hu, hr, hE, hf⟩ := Email.alarm_echo h ht
    exact ⟨ls, alarm_lines hu hr, hf, hE⟩

/-- **C78** for an alarm: it is only read as an alarm of the kind that its action says. -/
theorem C78_VAlarm_kind (v w : VAlarm) (h : TidyVAlarm v) (t : Str) (ht : ical v = .ok t) (hw : VAlarm.ofStr t = .ok w) :
    (Back.action v).text = Back.kind w := by
  rw [ical_eq rfl] at ht
  obtain ⟨ls, hr, hf, _⟩ := VAlarm.alarm_echo h ht
  refine (alarm_kind hf).1 ?_
  have := (hr w).1 hw
  cases w <;> exact this.1

/-- **C78** for an alarm: what it is read as, property by property, if its action says of which kind it is. -/
theorem C78_VAlarm (v w : VAlarm) (h : TidyVAlarm v) (ha : (Back.action v).text = Back.kind v) (t : Str) (ht : ical v = .ok t) :
    VAlarm.ofStr t = .ok w ↔ Back.SameKind v w := by
  rw [ical_eq rfl] at ht
  obtain ⟨ls, hr, hf, hp⟩ := VAlarm.alarm_echo h ht
  have hk := (alarm_kind (w := v) hf).2 ha
  rw [hr]
  cases v <;> cases w <;> simp only [VAlarmFrom, Back.SameKind, hk, Back.kind, Option.some.injEq, true_and, iff_false, not_and]
  all_goals first
    | exact hp _
    | exact fun e => absurd e (by decide)

end

/-! ### The hypotheses are met, and what is read is not always what was written -/

section Examples

attribute [local instance] utc

theorem written_and_read {α : Type} [Ser α] {ofStr : Str → Res α} {v : α} (h : ((ical v).bind ofStr).isOk = true) :
    ∃ t w, ical v = .ok t ∧ ofStr t = .ok w := by
  cases h1 : ical v with
  | ok t =>
    rw [h1] at h
    cases h2 : ofStr t with
    | ok w => exact ⟨t, w, rfl, h2⟩
    | err e => simp [Res.bind, h2, Res.isOk] at h
    | panic => simp [Res.bind, h2, Res.isOk] at h
  | err e => simp [Res.bind, h1, Res.isOk] at h
  | panic => simp [Res.bind, h1, Res.isOk] at h

/-- A to-do with two attachments, an empty summary and an extension property: the attachments become one, the summary disappears. -/
example : ∃ t w, ical sampleTidyTodo = .ok t ∧ VTodo.ofStr t = .ok w ∧ Back.VTodoProps sampleTidyTodo w ∧ w.summary = none ∧ w.attach ≠ sampleTidyTodo.attach := by
  obtain ⟨t, w, h1, h2⟩ := written_and_read (v := sampleTidyTodo) (ofStr := VTodo.ofStr) (by decide +kernel)
  have h3 := (C78_VTodo _ w sampleTidyTodo_tidy t h1).1 h2
  refine ⟨t, w, h1, h2, h3, ?_, ?_⟩
  · obtain ⟨s, ⟨ps, hw⟩, h | ⟨hs, _⟩⟩ := h3.summary
    · exact h.2
    · have := hw.2
      cases this
      exact absurd rfl hs
  · obtain ⟨ts, _, b, _, h⟩ := h3.attach
    rw [h]
    intro e
    cases e

/-- A calendar of a to-do, and one with an extension property, are read. -/
example : ∃ w, Back.VCalendarBack (sampleTodoCalendar [sampleTidyTodo] []) w := by
  obtain ⟨t, w, h1, h2⟩ := written_and_read (v := sampleTodoCalendar [sampleTidyTodo] []) (ofStr := VCalendar.ofStr) (by decide +kernel)
  exact ⟨w, (C78_VCalendar _ w (sampleTodoCalendar_deep (by intro a ha; simp at ha; subst ha; exact sampleTidyTodo_tidy) (by intro a ha; cases ha)) t h1).1 h2⟩

/-- An event without alarms is read. -/
example : ∃ w, Back.VEventBack (sampleAlarmEvent []) w := by
  obtain ⟨t, w, h1, h2⟩ := written_and_read (v := sampleAlarmEvent []) (ofStr := VEvent.ofStr) (by decide +kernel)
  exact ⟨w, (C78_VEvent _ w (sampleAlarmEvent_deep (by intro a ha; cases ha)) t h1).1 h2⟩

/-- A time zone with one part is read. -/
example : ∃ w, Back.VTimezoneBack (sampleTidyZone [sampleTidyStandard] []) w := by
  obtain ⟨t, w, h1, h2⟩ := written_and_read (v := sampleTidyZone [sampleTidyStandard] []) (ofStr := VTimezone.ofStr) (by decide +kernel)
  exact ⟨w, (C78_VTimezone _ w (sampleTidyZone_deep (by intro a ha; simp at ha; subst ha; exact sampleTidyStandard_tidy) (by intro a ha; cases ha)) t h1).1 h2⟩

/-- An alarm is read. -/
example : (Back.action sampleTidyAlarm).text = Back.kind sampleTidyAlarm ∧ ∃ w, Back.SameKind sampleTidyAlarm w := by
  obtain ⟨t, w, h1, h2⟩ := written_and_read (v := sampleTidyAlarm) (ofStr := VAlarm.ofStr) (by decide +kernel)
  exact ⟨rfl, w, (C78_VAlarm _ w sampleTidyAlarm_tidy rfl t h1).1 h2⟩

end Examples

end Ikal
