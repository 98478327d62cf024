import Verif.Props.Parse
import Verif.TestPlatform

/-!
# What a component that was read holds, property by property (C14, C15, C16)

Consequences of the `C14_*_iff` theorems for each component, clause by clause: `named n ls` are the lines with the name `n` in document order,
`lastNamed n ls` the last of them.
-/

namespace Ikal

open Spec

section
variable [Platform]

set_option linter.unusedSectionVars false

theorem Spec.IsReq.last {α : Type} {ls : List ContentLine} {n : Str} {p : ContentLine → Res α} {v : α} (h : IsReq ls n p v) :
    (lastNamed n ls).map p = some (.ok v) := by
  obtain ⟨l, h1, h2⟩ := h
  rw [h1, Option.map_some, h2]

theorem Spec.IsOpt.last {α : Type} {ls : List ContentLine} {n : Str} {p : ContentLine → Res α} {v : Option α} (h : IsOpt ls n p v) :
    (lastNamed n ls).map p = v.map .ok := by
  obtain ⟨-, h1, h2⟩ := h
  cases hl : lastNamed n ls with
  | none => rw [h1 hl]; rfl
  | some l => obtain ⟨a, h3, h4⟩ := h2 l hl; rw [Option.map_some, h3, h4]; rfl

/-- The extension maps: every line of an unknown name is in the map for its kind of name, unless another line of that name follows, and there is
nothing else in them. -/
def Spec.KeptExtensions (known : List Str) (ls : List ContentLine) (x iana : SMap ContentLine) : Prop :=
  ∀ k, (k ∈ known → x.get? k = none ∧ iana.get? k = none) ∧
    (k ∉ known → c!"X-" <+: k → x.get? k = lastNamed k ls ∧ iana.get? k = none) ∧
    (k ∉ known → ¬ c!"X-" <+: k → x.get? k = none ∧ iana.get? k = lastNamed k ls)

theorem Spec.KeptExtensions.of {known : List Str} {ls : List ContentLine} {x iana : SMap ContentLine} (hx : IsExt known IsX ls x)
    (hi : IsExt known (fun k => ¬ IsX k) ls iana) : KeptExtensions known ls x iana := by
  intro k
  refine ⟨fun h => ⟨hx.2.2 k (.inl h), hi.2.2 k (.inl h)⟩, fun h h2 => ⟨hx.2.1 k h h2, hi.2.2 k (.inr fun h3 => h3 h2)⟩,
    fun h h2 => ⟨hx.2.2 k (.inr h2), hi.2.1 k h h2⟩⟩

/-- **C14** for `Audio`: the value is that of the last line, and there is none exactly if there is no line. -/
theorem C14_Audio (ls : List ContentLine) (v : Audio) (h0 : Audio.tryFrom ls = .ok v) :
    (lastNamed c!"ACTION" ls).map textProp = some (.ok v.action) ∧
    (lastNamed c!"TRIGGER" ls).map Ikal.trigger = some (.ok v.trigger) ∧
    (lastNamed c!"DURATION" ls).map Ikal.duration = v.duration.map .ok ∧
    (lastNamed c!"REPEAT" ls).map u32Prop = v.repeat_.map .ok := by
  have h := (C14_Audio_iff ls v).1 h0
  exact ⟨h.action.last, h.trigger.last, h.duration.last, h.repeat_.last⟩

/-- **C15** for `Audio`: the values of all lines, in document order. -/
theorem C15_Audio (ls : List ContentLine) (v : Audio) (h0 : Audio.tryFrom ls = .ok v) :
    (named c!"ATTACH" ls).map textProp = v.attach.map .ok := by
  have h := (C14_Audio_iff ls v).1 h0
  exact h.attach

/-- **C16** for `Audio`: unknown properties are kept, in the map of their kind. -/
theorem C16_Audio (ls : List ContentLine) (v : Audio) (h0 : Audio.tryFrom ls = .ok v) :
    KeptExtensions [c!"ACTION", c!"TRIGGER", c!"DURATION", c!"REPEAT", c!"ATTACH"]
      ls v.xProp v.ianaProp := by
  have h := (C14_Audio_iff ls v).1 h0
  exact .of h.xProp h.ianaProp

/-- **C14** for `Display`: the value is that of the last line, and there is none exactly if there is no line. -/
theorem C14_Display (ls : List ContentLine) (v : Display) (h0 : Display.tryFrom ls = .ok v) :
    (lastNamed c!"ACTION" ls).map textProp = some (.ok v.action) ∧
    (lastNamed c!"TRIGGER" ls).map Ikal.trigger = some (.ok v.trigger) ∧
    (lastNamed c!"DESCRIPTION" ls).map textProp = some (.ok v.description) ∧
    (lastNamed c!"DURATION" ls).map Ikal.duration = v.duration.map .ok ∧
    (lastNamed c!"REPEAT" ls).map u32Prop = v.repeat_.map .ok := by
  have h := (C14_Display_iff ls v).1 h0
  exact ⟨h.action.last, h.trigger.last, h.description.last, h.duration.last, h.repeat_.last⟩

/-- **C16** for `Display`: unknown properties are kept, in the map of their kind. -/
theorem C16_Display (ls : List ContentLine) (v : Display) (h0 : Display.tryFrom ls = .ok v) :
    KeptExtensions [c!"ACTION", c!"TRIGGER", c!"DESCRIPTION", c!"DURATION", c!"REPEAT"]
      ls v.xProp v.ianaProp := by
  have h := (C14_Display_iff ls v).1 h0
  exact .of h.xProp h.ianaProp

/-- **C14** for `Email`: the value is that of the last line, and there is none exactly if there is no line. -/
theorem C14_Email (ls : List ContentLine) (v : Email) (h0 : Email.tryFrom ls = .ok v) :
    (lastNamed c!"ACTION" ls).map textProp = some (.ok v.action) ∧
    (lastNamed c!"TRIGGER" ls).map Ikal.trigger = some (.ok v.trigger) ∧
    (lastNamed c!"DESCRIPTION" ls).map textProp = some (.ok v.description) ∧
    (lastNamed c!"SUMMARY" ls).map textProp = some (.ok v.summary) ∧
    (lastNamed c!"DURATION" ls).map Ikal.duration = v.duration.map .ok ∧
    (lastNamed c!"REPEAT" ls).map u32Prop = v.repeat_.map .ok := by
  have h := (C14_Email_iff ls v).1 h0
  exact ⟨h.action.last, h.trigger.last, h.description.last, h.summary.last, h.duration.last, h.repeat_.last⟩

/-- **C15** for `Email`: the values of all lines, in document order. -/
theorem C15_Email (ls : List ContentLine) (v : Email) (h0 : Email.tryFrom ls = .ok v) :
    (named c!"ATTENDEE" ls).map uriProp = v.attendee.map .ok ∧
    (named c!"ATTACH" ls).map textProp = v.attach.map .ok := by
  have h := (C14_Email_iff ls v).1 h0
  exact ⟨h.attendee, h.attach⟩

/-- **C16** for `Email`: unknown properties are kept, in the map of their kind. -/
theorem C16_Email (ls : List ContentLine) (v : Email) (h0 : Email.tryFrom ls = .ok v) :
    KeptExtensions [c!"ACTION", c!"TRIGGER", c!"DESCRIPTION", c!"SUMMARY", c!"ATTENDEE", c!"DURATION", c!"REPEAT", c!"ATTACH"]
      ls v.xProp v.ianaProp := by
  have h := (C14_Email_iff ls v).1 h0
  exact .of h.xProp h.ianaProp

/-- **C14** for `VEvent`: the value is that of the last line, and there is none exactly if there is no line. -/
theorem C14_VEvent (ls : List ContentLine) (v : VEvent) (h0 : VEvent.tryFrom ls = .ok v) :
    (lastNamed c!"DTSTAMP" ls).map dateTimeProp = some (.ok v.dtstamp) ∧
    (lastNamed c!"UID" ls).map textProp = some (.ok v.uid) ∧
    (lastNamed c!"DTSTART" ls).map dateProp = some (.ok v.dtstart) ∧
    (lastNamed c!"CLASS" ls).map classProp = v.class_.map .ok ∧
    (lastNamed c!"CREATED" ls).map dateTimeProp = v.created.map .ok ∧
    (lastNamed c!"DESCRIPTION" ls).map textProp = v.description.map .ok ∧
    (lastNamed c!"GEO" ls).map Ikal.geo = v.geo.map .ok ∧
    (lastNamed c!"LAST-MODIFIED" ls).map dateTimeProp = v.lastModified.map .ok ∧
    (lastNamed c!"LOCATION" ls).map textProp = v.location.map .ok ∧
    (lastNamed c!"ORGANIZER" ls).map uriProp = v.organizer.map .ok ∧
    (lastNamed c!"PRIORITY" ls).map Ikal.priority = v.priority.map .ok ∧
    (lastNamed c!"SEQUENCE" ls).map u32Prop = v.sequence.map .ok ∧
    (lastNamed c!"STATUS" ls).map Ikal.status = v.status.map .ok ∧
    (lastNamed c!"SUMMARY" ls).map textProp = v.summary.map .ok ∧
    (lastNamed c!"TRANSP" ls).map Ikal.transp = v.transp.map .ok ∧
    (lastNamed c!"URL" ls).map uriProp = v.url.map .ok ∧
    (lastNamed c!"RECURID" ls).map dateProp = v.recurid.map .ok ∧
    (lastNamed c!"RRULE" ls).map Ikal.rrule = v.rrule.map .ok ∧
    (lastNamed c!"DTEND" ls).map dateProp = v.dtend.map .ok ∧
    (lastNamed c!"DURATION" ls).map Ikal.duration = v.duration.map .ok := by
  have h := (C14_VEvent_iff ls v).1 h0
  exact ⟨h.dtstamp.last, h.uid.last, h.dtstart.last, h.class_.last, h.created.last, h.description.last, h.geo.last, h.lastModified.last, h.location.last, h.organizer.last, h.priority.last, h.sequence.last, h.status.last, h.summary.last, h.transp.last, h.url.last, h.recurid.last, h.rrule.last, h.dtend.last, h.duration.last⟩

/-- **C15** for `VEvent`: the values of all lines, in document order. -/
theorem C15_VEvent (ls : List ContentLine) (v : VEvent) (h0 : VEvent.tryFrom ls = .ok v) :
    (named c!"ATTACH" ls).map textProp = v.attach.map .ok ∧
    (named c!"ATTENDEE" ls).map uriProp = v.attendee.map .ok ∧
    (∃ vss : List (List _), (named c!"CATEGORIES" ls).map textListProp = vss.map .ok ∧ v.categories = vss.flatten) ∧
    (named c!"COMMENT" ls).map textProp = v.comment.map .ok ∧
    (named c!"CONTACT" ls).map textProp = v.contact.map .ok ∧
    (∃ vss : List (List _), (named c!"EXDATE" ls).map Ikal.exdate = vss.map .ok ∧ v.exdate = vss.flatten) ∧
    (named c!"RSTATUS" ls).map Ikal.rstatus = v.rstatus.map .ok ∧
    (named c!"RELATED-TO" ls).map textProp = v.relatedTo.map .ok ∧
    (∃ vss : List (List _), (named c!"RESOURCES" ls).map textListProp = vss.map .ok ∧ v.resources = vss.flatten) ∧
    (named c!"RDATE" ls).map Ikal.rdate = v.rdate.map .ok := by
  have h := (C14_VEvent_iff ls v).1 h0
  exact ⟨h.attach, h.attendee, h.categories, h.comment, h.contact, h.exdate, h.rstatus, h.relatedTo, h.resources, h.rdate⟩

/-- **C16** for `VEvent`: unknown properties are kept, in the map of their kind. -/
theorem C16_VEvent (ls : List ContentLine) (v : VEvent) (h0 : VEvent.tryFrom ls = .ok v) :
    KeptExtensions [c!"DTSTAMP", c!"UID", c!"DTSTART", c!"CLASS", c!"CREATED", c!"DESCRIPTION", c!"GEO", c!"LAST-MODIFIED", c!"LOCATION", c!"ORGANIZER", c!"PRIORITY", c!"SEQUENCE", c!"STATUS", c!"SUMMARY", c!"TRANSP", c!"URL", c!"RECURID", c!"RRULE", c!"DTEND", c!"DURATION", c!"ATTACH", c!"ATTENDEE", c!"CATEGORIES", c!"COMMENT", c!"CONTACT", c!"EXDATE", c!"RSTATUS", c!"RELATED-TO", c!"RESOURCES", c!"RDATE"]
      ls v.xProp v.ianaProp := by
  have h := (C14_VEvent_iff ls v).1 h0
  exact .of h.xProp h.ianaProp

/-- **C14** for `VFreebusy`: the value is that of the last line, and there is none exactly if there is no line. -/
theorem C14_VFreebusy (ls : List ContentLine) (v : VFreebusy) (h0 : VFreebusy.tryFrom ls = .ok v) :
    (lastNamed c!"DTSTAMP" ls).map dateTimeProp = some (.ok v.dtstamp) ∧
    (lastNamed c!"UID" ls).map textProp = some (.ok v.uid) ∧
    (lastNamed c!"CONTACT" ls).map textProp = v.contact.map .ok ∧
    (lastNamed c!"DTSTART" ls).map dateProp = v.dtstart.map .ok ∧
    (lastNamed c!"DTEND" ls).map dateProp = v.dtend.map .ok ∧
    (lastNamed c!"ORGANIZER" ls).map uriProp = v.organizer.map .ok ∧
    (lastNamed c!"URL" ls).map uriProp = v.url.map .ok := by
  have h := (C14_VFreebusy_iff ls v).1 h0
  exact ⟨h.dtstamp.last, h.uid.last, h.contact.last, h.dtstart.last, h.dtend.last, h.organizer.last, h.url.last⟩

/-- **C15** for `VFreebusy`: the values of all lines, in document order. -/
theorem C15_VFreebusy (ls : List ContentLine) (v : VFreebusy) (h0 : VFreebusy.tryFrom ls = .ok v) :
    (named c!"ATTENDEE" ls).map uriProp = v.attendee.map .ok ∧
    (named c!"COMMENT" ls).map textProp = v.comment.map .ok ∧
    (∃ vss : List (List _), (named c!"FREEBUSY" ls).map Ikal.freebusy = vss.map .ok ∧ v.freebusy = vss.flatten) ∧
    (named c!"RSTATUS" ls).map Ikal.rstatus = v.rstatus.map .ok := by
  have h := (C14_VFreebusy_iff ls v).1 h0
  exact ⟨h.attendee, h.comment, h.freebusy, h.rstatus⟩

/-- **C16** for `VFreebusy`: unknown properties are kept, in the map of their kind. -/
theorem C16_VFreebusy (ls : List ContentLine) (v : VFreebusy) (h0 : VFreebusy.tryFrom ls = .ok v) :
    KeptExtensions [c!"DTSTAMP", c!"UID", c!"CONTACT", c!"DTSTART", c!"DTEND", c!"ORGANIZER", c!"URL", c!"ATTENDEE", c!"COMMENT", c!"FREEBUSY", c!"RSTATUS"]
      ls v.xProp v.ianaProp := by
  have h := (C14_VFreebusy_iff ls v).1 h0
  exact .of h.xProp h.ianaProp

/-- **C14** for `VJournal`: the value is that of the last line, and there is none exactly if there is no line. -/
theorem C14_VJournal (ls : List ContentLine) (v : VJournal) (h0 : VJournal.tryFrom ls = .ok v) :
    (lastNamed c!"DTSTAMP" ls).map dateTimeProp = some (.ok v.dtstamp) ∧
    (lastNamed c!"UID" ls).map textProp = some (.ok v.uid) ∧
    (lastNamed c!"CLASS" ls).map classProp = v.class_.map .ok ∧
    (lastNamed c!"CREATED" ls).map dateTimeProp = v.created.map .ok ∧
    (lastNamed c!"DTSTART" ls).map dateProp = some (.ok v.dtstart) ∧
    (lastNamed c!"LAST-MODIFIED" ls).map dateTimeProp = v.lastModified.map .ok ∧
    (lastNamed c!"ORGANIZER" ls).map uriProp = v.organizer.map .ok ∧
    (lastNamed c!"RECURID" ls).map dateProp = v.recurid.map .ok ∧
    (lastNamed c!"SEQUENCE" ls).map u32Prop = v.sequence.map .ok ∧
    (lastNamed c!"STATUS" ls).map Ikal.status = v.status.map .ok ∧
    (lastNamed c!"SUMMARY" ls).map textProp = v.summary.map .ok ∧
    (lastNamed c!"URL" ls).map uriProp = v.url.map .ok ∧
    (lastNamed c!"RRULE" ls).map Ikal.rrule = v.rrule.map .ok := by
  have h := (C14_VJournal_iff ls v).1 h0
  exact ⟨h.dtstamp.last, h.uid.last, h.class_.last, h.created.last, h.dtstart.last, h.lastModified.last, h.organizer.last, h.recurid.last, h.sequence.last, h.status.last, h.summary.last, h.url.last, h.rrule.last⟩

/-- **C15** for `VJournal`: the values of all lines, in document order. -/
theorem C15_VJournal (ls : List ContentLine) (v : VJournal) (h0 : VJournal.tryFrom ls = .ok v) :
    (named c!"ATTACH" ls).map textProp = v.attach.map .ok ∧
    (named c!"ATTENDEE" ls).map uriProp = v.attendee.map .ok ∧
    (∃ vss : List (List _), (named c!"CATEGORIES" ls).map textListProp = vss.map .ok ∧ v.categories = vss.flatten) ∧
    (named c!"COMMENT" ls).map textProp = v.comment.map .ok ∧
    (named c!"CONTACT" ls).map textProp = v.contact.map .ok ∧
    (named c!"DESCRIPTION" ls).map textProp = v.description.map .ok ∧
    (∃ vss : List (List _), (named c!"EXDATE" ls).map Ikal.exdate = vss.map .ok ∧ v.exdate = vss.flatten) ∧
    (named c!"RELATED-TO" ls).map textProp = v.relatedTo.map .ok ∧
    (named c!"RDATE" ls).map Ikal.rdate = v.rdate.map .ok ∧
    (named c!"RSTATUS" ls).map Ikal.rstatus = v.rstatus.map .ok := by
  have h := (C14_VJournal_iff ls v).1 h0
  exact ⟨h.attach, h.attendee, h.categories, h.comment, h.contact, h.description, h.exdate, h.relatedTo, h.rdate, h.rstatus⟩

/-- **C16** for `VJournal`: unknown properties are kept, in the map of their kind. -/
theorem C16_VJournal (ls : List ContentLine) (v : VJournal) (h0 : VJournal.tryFrom ls = .ok v) :
    KeptExtensions [c!"DTSTAMP", c!"UID", c!"CLASS", c!"CREATED", c!"DTSTART", c!"LAST-MODIFIED", c!"ORGANIZER", c!"RECURID", c!"SEQUENCE", c!"STATUS", c!"SUMMARY", c!"URL", c!"RRULE", c!"ATTACH", c!"ATTENDEE", c!"CATEGORIES", c!"COMMENT", c!"CONTACT", c!"DESCRIPTION", c!"EXDATE", c!"RELATED-TO", c!"RDATE", c!"RSTATUS"]
      ls v.xProp v.ianaProp := by
  have h := (C14_VJournal_iff ls v).1 h0
  exact .of h.xProp h.ianaProp

/-- **C14** for `Standard`: the value is that of the last line, and there is none exactly if there is no line. -/
theorem C14_Standard (ls : List ContentLine) (v : Standard) (h0 : Standard.tryFrom ls = .ok v) :
    (lastNamed c!"DTSTART" ls).map dateProp = some (.ok v.dtstart) ∧
    (lastNamed c!"TZOFFSETTO" ls).map offsetProp = some (.ok v.tzoffsetto) ∧
    (lastNamed c!"TZOFFSETFROM" ls).map offsetProp = some (.ok v.tzoffsetfrom) ∧
    (lastNamed c!"RRULE" ls).map Ikal.rrule = v.rrule.map .ok := by
  have h := (C14_Standard_iff ls v).1 h0
  exact ⟨h.dtstart.last, h.tzoffsetto.last, h.tzoffsetfrom.last, h.rrule.last⟩

/-- **C15** for `Standard`: the values of all lines, in document order. -/
theorem C15_Standard (ls : List ContentLine) (v : Standard) (h0 : Standard.tryFrom ls = .ok v) :
    (named c!"COMMENT" ls).map textProp = v.comment.map .ok ∧
    (named c!"RDATE" ls).map Ikal.rdate = v.rdate.map .ok ∧
    (named c!"TZNAME" ls).map textProp = v.tzname.map .ok := by
  have h := (C14_Standard_iff ls v).1 h0
  exact ⟨h.comment, h.rdate, h.tzname⟩

/-- **C16** for `Standard`: unknown properties are kept, in the map of their kind. -/
theorem C16_Standard (ls : List ContentLine) (v : Standard) (h0 : Standard.tryFrom ls = .ok v) :
    KeptExtensions [c!"DTSTART", c!"TZOFFSETTO", c!"TZOFFSETFROM", c!"RRULE", c!"COMMENT", c!"RDATE", c!"TZNAME"]
      ls v.xProp v.ianaProp := by
  have h := (C14_Standard_iff ls v).1 h0
  exact .of h.xProp h.ianaProp

/-- **C14** for `Daylight`: the value is that of the last line, and there is none exactly if there is no line. -/
theorem C14_Daylight (ls : List ContentLine) (v : Daylight) (h0 : Daylight.tryFrom ls = .ok v) :
    (lastNamed c!"DTSTART" ls).map dateProp = some (.ok v.dtstart) ∧
    (lastNamed c!"TZOFFSETTO" ls).map offsetProp = some (.ok v.tzoffsetto) ∧
    (lastNamed c!"TZOFFSETFROM" ls).map offsetProp = some (.ok v.tzoffsetfrom) ∧
    (lastNamed c!"RRULE" ls).map Ikal.rrule = v.rrule.map .ok := by
  have h := (C14_Daylight_iff ls v).1 h0
  exact ⟨h.dtstart.last, h.tzoffsetto.last, h.tzoffsetfrom.last, h.rrule.last⟩

/-- **C15** for `Daylight`: the values of all lines, in document order. -/
theorem C15_Daylight (ls : List ContentLine) (v : Daylight) (h0 : Daylight.tryFrom ls = .ok v) :
    (named c!"COMMENT" ls).map textProp = v.comment.map .ok ∧
    (named c!"RDATE" ls).map Ikal.rdate = v.rdate.map .ok ∧
    (named c!"TZNAME" ls).map textProp = v.tzname.map .ok := by
  have h := (C14_Daylight_iff ls v).1 h0
  exact ⟨h.comment, h.rdate, h.tzname⟩

/-- **C16** for `Daylight`: unknown properties are kept, in the map of their kind. -/
theorem C16_Daylight (ls : List ContentLine) (v : Daylight) (h0 : Daylight.tryFrom ls = .ok v) :
    KeptExtensions [c!"DTSTART", c!"TZOFFSETTO", c!"TZOFFSETFROM", c!"RRULE", c!"COMMENT", c!"RDATE", c!"TZNAME"]
      ls v.xProp v.ianaProp := by
  have h := (C14_Daylight_iff ls v).1 h0
  exact .of h.xProp h.ianaProp

/-- **C14** for `VTimezone`: the value is that of the last line, and there is none exactly if there is no line. -/
theorem C14_VTimezone (ls : List ContentLine) (v : VTimezone) (h0 : VTimezone.tryFrom ls = .ok v) :
    (lastNamed c!"TZID" ls).map textProp = some (.ok v.tzid) ∧
    (lastNamed c!"LAST-MODIFIED" ls).map dateTimeProp = v.lastModified.map .ok ∧
    (lastNamed c!"TZURL" ls).map uriProp = v.tzurl.map .ok := by
  have h := (C14_VTimezone_iff ls v).1 h0
  exact ⟨h.tzid.last, h.lastModified.last, h.tzurl.last⟩

/-- **C16** for `VTimezone`: unknown properties are kept, in the map of their kind. -/
theorem C16_VTimezone (ls : List ContentLine) (v : VTimezone) (h0 : VTimezone.tryFrom ls = .ok v) :
    KeptExtensions [c!"TZID", c!"LAST-MODIFIED", c!"TZURL"]
      ls v.xProp v.ianaProp := by
  have h := (C14_VTimezone_iff ls v).1 h0
  exact .of h.xProp h.ianaProp

/-- **C14** for `VTodo`: the value is that of the last line, and there is none exactly if there is no line. -/
theorem C14_VTodo (ls : List ContentLine) (v : VTodo) (h0 : VTodo.tryFrom ls = .ok v) :
    (lastNamed c!"DTSTAMP" ls).map dateTimeProp = some (.ok v.dtstamp) ∧
    (lastNamed c!"UID" ls).map textProp = some (.ok v.uid) ∧
    (lastNamed c!"CLASS" ls).map classProp = v.class_.map .ok ∧
    (lastNamed c!"COMPLETED" ls).map dateTimeProp = v.completed.map .ok ∧
    (lastNamed c!"CREATED" ls).map dateTimeProp = v.created.map .ok ∧
    (lastNamed c!"DTSTART" ls).map dateProp = v.dtstart.map .ok ∧
    (lastNamed c!"GEO" ls).map Ikal.geo = v.geo.map .ok ∧
    (lastNamed c!"LAST-MODIFIED" ls).map dateTimeProp = v.lastModified.map .ok ∧
    (lastNamed c!"LOCATION" ls).map textProp = v.location.map .ok ∧
    (lastNamed c!"ORGANIZER" ls).map uriProp = v.organizer.map .ok ∧
    (lastNamed c!"PERCENT-COMPLETE" ls).map Ikal.percentComplete = v.percentComplete.map .ok ∧
    (lastNamed c!"PRIORITY" ls).map Ikal.priority = v.priority.map .ok ∧
    (lastNamed c!"RECURID" ls).map dateProp = v.recurid.map .ok ∧
    (lastNamed c!"SEQUENCE" ls).map u32Prop = v.sequence.map .ok ∧
    (lastNamed c!"STATUS" ls).map Ikal.status = v.status.map .ok ∧
    (lastNamed c!"SUMMARY" ls).map textProp = v.summary.map .ok ∧
    (lastNamed c!"URL" ls).map uriProp = v.url.map .ok ∧
    (lastNamed c!"RRULE" ls).map Ikal.rrule = v.rrule.map .ok ∧
    (lastNamed c!"DUE" ls).map dateProp = v.due.map .ok ∧
    (lastNamed c!"DURATION" ls).map Ikal.duration = v.duration.map .ok := by
  have h := (C14_VTodo_iff ls v).1 h0
  exact ⟨h.dtstamp.last, h.uid.last, h.class_.last, h.completed.last, h.created.last, h.dtstart.last, h.geo.last, h.lastModified.last, h.location.last, h.organizer.last, h.percentComplete.last, h.priority.last, h.recurid.last, h.sequence.last, h.status.last, h.summary.last, h.url.last, h.rrule.last, h.due.last, h.duration.last⟩

/-- **C15** for `VTodo`: the values of all lines, in document order. -/
theorem C15_VTodo (ls : List ContentLine) (v : VTodo) (h0 : VTodo.tryFrom ls = .ok v) :
    (named c!"ATTACH" ls).map textProp = v.attach.map .ok ∧
    (named c!"ATTENDEE" ls).map uriProp = v.attendee.map .ok ∧
    (∃ vss : List (List _), (named c!"CATEGORIES" ls).map textListProp = vss.map .ok ∧ v.categories = vss.flatten) ∧
    (named c!"COMMENT" ls).map textProp = v.comment.map .ok ∧
    (named c!"CONTACT" ls).map textProp = v.contact.map .ok ∧
    (∃ vss : List (List _), (named c!"EXDATE" ls).map Ikal.exdate = vss.map .ok ∧ v.exdate = vss.flatten) ∧
    (named c!"RSTATUS" ls).map Ikal.rstatus = v.rstatus.map .ok ∧
    (named c!"RELATED-TO" ls).map textProp = v.relatedTo.map .ok ∧
    (∃ vss : List (List _), (named c!"RESOURCES" ls).map textListProp = vss.map .ok ∧ v.resources = vss.flatten) ∧
    (named c!"RDATE" ls).map Ikal.rdate = v.rdate.map .ok := by
  have h := (C14_VTodo_iff ls v).1 h0
  exact ⟨h.attach, h.attendee, h.categories, h.comment, h.contact, h.exdate, h.rstatus, h.relatedTo, h.resources, h.rdate⟩

/-- **C16** for `VTodo`: unknown properties are kept, in the map of their kind. -/
theorem C16_VTodo (ls : List ContentLine) (v : VTodo) (h0 : VTodo.tryFrom ls = .ok v) :
    KeptExtensions [c!"DTSTAMP", c!"UID", c!"CLASS", c!"COMPLETED", c!"CREATED", c!"DTSTART", c!"GEO", c!"LAST-MODIFIED", c!"LOCATION", c!"ORGANIZER", c!"PERCENT-COMPLETE", c!"PRIORITY", c!"RECURID", c!"SEQUENCE", c!"STATUS", c!"SUMMARY", c!"URL", c!"RRULE", c!"DUE", c!"DURATION", c!"ATTACH", c!"ATTENDEE", c!"CATEGORIES", c!"COMMENT", c!"CONTACT", c!"EXDATE", c!"RSTATUS", c!"RELATED-TO", c!"RESOURCES", c!"RDATE"]
      ls v.xProp v.ianaProp := by
  have h := (C14_VTodo_iff ls v).1 h0
  exact .of h.xProp h.ianaProp

/-- **C14** for `VCalendar`: the value is that of the last line, and there is none exactly if there is no line. -/
theorem C14_VCalendar (ls : List ContentLine) (v : VCalendar) (h0 : VCalendar.tryFrom ls = .ok v) :
    (lastNamed c!"PRODID" ls).map textProp = some (.ok v.prodid) ∧
    (lastNamed c!"VERSION" ls).map textProp = some (.ok v.version) ∧
    (lastNamed c!"CALSCALE" ls).map textProp = v.calscale.map .ok ∧
    (lastNamed c!"METHOD" ls).map textProp = v.method.map .ok := by
  have h := (C14_VCalendar_iff ls v).1 h0
  exact ⟨h.prodid.last, h.version.last, h.calscale.last, h.method.last⟩

/-- **C16** for `VCalendar`: unknown properties are kept, in the map of their kind. -/
theorem C16_VCalendar (ls : List ContentLine) (v : VCalendar) (h0 : VCalendar.tryFrom ls = .ok v) :
    KeptExtensions [c!"PRODID", c!"VERSION", c!"CALSCALE", c!"METHOD"]
      ls v.xProp v.ianaProp := by
  have h := (C14_VCalendar_iff ls v).1 h0
  exact .of h.xProp h.ianaProp

end
section Examples
attribute [local instance] utc

/-- The lines of a to-do with two `LOCATION`s, two `CATEGORIES`, two `COMMENT`s, an unknown name twice and an experimental one. -/
def todoLines : List ContentLine := [⟨c!"DTSTAMP", [], c!"20200101T000000"⟩, ⟨c!"UID", [], c!"1"⟩, ⟨c!"LOCATION", [], c!"here"⟩,
  ⟨c!"CATEGORIES", [], c!"a,b"⟩, ⟨c!"X-A", [(c!"P", c!"q")], c!"x"⟩, ⟨c!"COMMENT", [], c!"one"⟩, ⟨c!"NAME", [], c!"1"⟩, ⟨c!"LOCATION", [], c!"there"⟩,
  ⟨c!"CATEGORIES", [], c!"c"⟩, ⟨c!"COMMENT", [], c!"two"⟩, ⟨c!"NAME", [], c!"2"⟩]

/-- These lines are accepted, so that the theorems apply to them; and this is what they say. -/
example : ∃ v, VTodo.tryFrom todoLines = .ok v ∧ v.location.map (·.text) = some c!"there" ∧ v.geo.isNone = true ∧
    v.categories.map (·.text) = [c!"a", c!"b", c!"c"] ∧ v.comment.map (·.text) = [c!"one", c!"two"] ∧
    v.xProp = [(c!"X-A", ⟨c!"X-A", [(c!"P", c!"q")], c!"x"⟩)] ∧ v.ianaProp = [(c!"NAME", ⟨c!"NAME", [], c!"2"⟩)] := by
  refine ⟨_, rfl, ?_⟩
  decide +kernel

end Examples

end Ikal
