import Verif.Props.Component
import Verif.TestPlatform

/-!
# C18, second half: an earlier line of a required property does not matter

`C18_X_earlier`: in a component `X`, a line of a required property that is followed by another line of the same property can be
removed, or be any other line of that property, and the result is the same.
-/

namespace Ikal

open Nom Spec

/-- The two lists have the same lines but for lines of the name `n`, of which they have the same last one. -/
def SameBut (n : Str) (ls ls' : List ContentLine) : Prop :=
  (∀ k, k ≠ n → named k ls = named k ls') ∧ lastNamed n ls = lastNamed n ls'

theorem SameBut.symm {n : Str} {ls ls' : List ContentLine} (h : SameBut n ls ls') : SameBut n ls' ls :=
  ⟨fun k hk => (h.1 k hk).symm, h.2.symm⟩

theorem SameBut.last {n : Str} {ls ls' : List ContentLine} (h : SameBut n ls ls') (k : Str) :
    lastNamed k ls = lastNamed k ls' := by
  by_cases hk : k = n
  · rw [hk]; exact h.2
  · unfold lastNamed; rw [h.1 k hk]

theorem sameBut_remove (a b : List ContentLine) (l : ContentLine) (hb : ∃ x ∈ b, x.key = l.key) :
    SameBut l.key (a ++ l :: b) (a ++ b) := by
  constructor
  · intro k hk
    have : ¬ (l.key = k) := fun h => hk h.symm
    simp [named, this]
  · obtain ⟨x, hx, hk⟩ := hb
    have hne : b.filter (fun y => decide (y.key = l.key)) ≠ [] := by
      intro h0
      have : x ∈ b.filter (fun y => decide (y.key = l.key)) := by simp [hx, hk]
      rw [h0] at this
      exact absurd this (by simp)
    obtain ⟨c, cs, h1⟩ := List.exists_cons_of_ne_nil hne
    simp [lastNamed, named, List.filter_append, List.filter_cons, h1, List.getLast?_append, List.getLast?_cons]

theorem Spec.IsReq.sameBut {α : Type} {ls ls' : List ContentLine} {k : Str} (h : SameBut k ls ls') {n : Str} {p : ContentLine → Res α} {v : α}
    (hv : IsReq ls n p v) : IsReq ls' n p v := by unfold IsReq at *; rw [← h.last]; exact hv

theorem Spec.IsOpt.sameBut {α : Type} {ls ls' : List ContentLine} {k : Str} (h : SameBut k ls ls') {n : Str} (hn : n ≠ k) {p : ContentLine → Res α} {v : Option α}
    (hv : IsOpt ls n p v) : IsOpt ls' n p v := by unfold IsOpt at *; rw [← h.last, ← h.1 n hn]; exact hv

theorem Spec.IsPush.sameBut {α : Type} {ls ls' : List ContentLine} {k : Str} (h : SameBut k ls ls') {n : Str} (hn : n ≠ k) {p : ContentLine → Res α} {v : List α}
    (hv : IsPush ls n p v) : IsPush ls' n p v := by unfold IsPush at *; rw [← h.1 n hn]; exact hv

theorem Spec.IsAppend.sameBut {α : Type} {ls ls' : List ContentLine} {k : Str} (h : SameBut k ls ls') {n : Str} (hn : n ≠ k) {p : ContentLine → Res (List α)} {v : List α}
    (hv : IsAppend ls n p v) : IsAppend ls' n p v := by unfold IsAppend at *; rw [← h.1 n hn]; exact hv

theorem Spec.IsExt.sameBut {ls ls' : List ContentLine} {k : Str} (h : SameBut k ls ls') {ns : List Str} {sel : Str → Prop} {m : SMap ContentLine}
    (hv : IsExt ns sel ls m) : IsExt ns sel ls' m :=
  ⟨hv.1, fun k h1 h2 => by rw [← h.last]; exact hv.2.1 k h1 h2, hv.2.2⟩

section

variable [Platform]

theorem Audio.tryFrom_sameBut {ls ls' : List ContentLine} {n : Str} (hn : n ∈ ([c!"ACTION", c!"TRIGGER"] : List Str))
    (hs : SameBut n ls ls') (v : Audio) : Audio.tryFrom ls = .ok v ↔ Audio.tryFrom ls' = .ok v := by
  have hd : ∀ n ∈ ([c!"ACTION", c!"TRIGGER"] : List Str), ∀ m ∈ ([c!"DURATION", c!"REPEAT", c!"ATTACH"] : List Str), m ≠ n := by
    decide +kernel
  have key : ∀ a b, SameBut n a b → AudioFrom a v → AudioFrom b v := fun a b hab h =>
    ⟨h.action.sameBut hab, h.trigger.sameBut hab, h.duration.sameBut hab (hd _ hn _ (by simp)), h.repeat_.sameBut hab (hd _ hn _ (by simp)), h.attach.sameBut hab (hd _ hn _ (by simp)), h.xProp.sameBut hab, h.ianaProp.sameBut hab⟩
  rw [C14_Audio_iff, C14_Audio_iff]
  exact ⟨key _ _ hs, key _ _ hs.symm⟩

/-- **C18** for `Audio`: a line of a required property that another one follows, readable or not, is as if it were not there. -/
theorem C18_Audio_earlier (a b : List ContentLine) (l : ContentLine) (hn : l.key ∈ ([c!"ACTION", c!"TRIGGER"] : List Str))
    (hb : ∃ x ∈ b, x.key = l.key) (v : Audio) :
    Audio.tryFrom (a ++ l :: b) = .ok v ↔ Audio.tryFrom (a ++ b) = .ok v :=
  Audio.tryFrom_sameBut hn (sameBut_remove a b l hb) v

theorem Display.tryFrom_sameBut {ls ls' : List ContentLine} {n : Str} (hn : n ∈ ([c!"ACTION", c!"TRIGGER", c!"DESCRIPTION"] : List Str))
    (hs : SameBut n ls ls') (v : Display) : Display.tryFrom ls = .ok v ↔ Display.tryFrom ls' = .ok v := by
  have hd : ∀ n ∈ ([c!"ACTION", c!"TRIGGER", c!"DESCRIPTION"] : List Str), ∀ m ∈ ([c!"DURATION", c!"REPEAT"] : List Str), m ≠ n := by
    decide +kernel
  have key : ∀ a b, SameBut n a b → DisplayFrom a v → DisplayFrom b v := fun a b hab h =>
    ⟨h.action.sameBut hab, h.trigger.sameBut hab, h.description.sameBut hab, h.duration.sameBut hab (hd _ hn _ (by simp)), h.repeat_.sameBut hab (hd _ hn _ (by simp)), h.xProp.sameBut hab, h.ianaProp.sameBut hab⟩
  rw [C14_Display_iff, C14_Display_iff]
  exact ⟨key _ _ hs, key _ _ hs.symm⟩

/-- **C18** for `Display`: a line of a required property that another one follows, readable or not, is as if it were not there. -/
theorem C18_Display_earlier (a b : List ContentLine) (l : ContentLine) (hn : l.key ∈ ([c!"ACTION", c!"TRIGGER", c!"DESCRIPTION"] : List Str))
    (hb : ∃ x ∈ b, x.key = l.key) (v : Display) :
    Display.tryFrom (a ++ l :: b) = .ok v ↔ Display.tryFrom (a ++ b) = .ok v :=
  Display.tryFrom_sameBut hn (sameBut_remove a b l hb) v

theorem Email.tryFrom_sameBut {ls ls' : List ContentLine} {n : Str} (hn : n ∈ ([c!"ACTION", c!"TRIGGER", c!"DESCRIPTION", c!"SUMMARY"] : List Str))
    (hs : SameBut n ls ls') (v : Email) : Email.tryFrom ls = .ok v ↔ Email.tryFrom ls' = .ok v := by
  have hd : ∀ n ∈ ([c!"ACTION", c!"TRIGGER", c!"DESCRIPTION", c!"SUMMARY"] : List Str), ∀ m ∈ ([c!"ATTENDEE", c!"DURATION", c!"REPEAT", c!"ATTACH"] : List Str), m ≠ n := by
    decide +kernel
  have key : ∀ a b, SameBut n a b → EmailFrom a v → EmailFrom b v := fun a b hab h =>
    ⟨h.action.sameBut hab, h.trigger.sameBut hab, h.description.sameBut hab, h.summary.sameBut hab, h.attendee.sameBut hab (hd _ hn _ (by simp)), h.duration.sameBut hab (hd _ hn _ (by simp)), h.repeat_.sameBut hab (hd _ hn _ (by simp)), h.attach.sameBut hab (hd _ hn _ (by simp)), h.xProp.sameBut hab, h.ianaProp.sameBut hab⟩
  rw [C14_Email_iff, C14_Email_iff]
  exact ⟨key _ _ hs, key _ _ hs.symm⟩

/-- **C18** for `Email`: a line of a required property that another one follows, readable or not, is as if it were not there. -/
theorem C18_Email_earlier (a b : List ContentLine) (l : ContentLine) (hn : l.key ∈ ([c!"ACTION", c!"TRIGGER", c!"DESCRIPTION", c!"SUMMARY"] : List Str))
    (hb : ∃ x ∈ b, x.key = l.key) (v : Email) :
    Email.tryFrom (a ++ l :: b) = .ok v ↔ Email.tryFrom (a ++ b) = .ok v :=
  Email.tryFrom_sameBut hn (sameBut_remove a b l hb) v

theorem VEvent.tryFrom_sameBut {ls ls' : List ContentLine} {n : Str} (hn : n ∈ ([c!"DTSTAMP", c!"UID", c!"DTSTART"] : List Str))
    (hs : SameBut n ls ls') (v : VEvent) : VEvent.tryFrom ls = .ok v ↔ VEvent.tryFrom ls' = .ok v := by
  have hd : ∀ n ∈ ([c!"DTSTAMP", c!"UID", c!"DTSTART"] : List Str), ∀ m ∈ ([c!"CLASS", c!"CREATED", c!"DESCRIPTION", c!"GEO", c!"LAST-MODIFIED", c!"LOCATION", c!"ORGANIZER", c!"PRIORITY", c!"SEQUENCE", c!"STATUS", c!"SUMMARY", c!"TRANSP", c!"URL", c!"RECURID", c!"RRULE", c!"DTEND", c!"DURATION", c!"ATTACH", c!"ATTENDEE", c!"CATEGORIES", c!"COMMENT", c!"CONTACT", c!"EXDATE", c!"RSTATUS", c!"RELATED-TO", c!"RESOURCES", c!"RDATE"] : List Str), m ≠ n := by
    decide +kernel
  have key : ∀ a b, SameBut n a b → VEventFrom a v → VEventFrom b v := fun a b hab h =>
    ⟨h.dtstamp.sameBut hab, h.uid.sameBut hab, h.dtstart.sameBut hab, h.class_.sameBut hab (hd _ hn _ (by simp)), h.created.sameBut hab (hd _ hn _ (by simp)), h.description.sameBut hab (hd _ hn _ (by simp)), h.geo.sameBut hab (hd _ hn _ (by simp)), h.lastModified.sameBut hab (hd _ hn _ (by simp)), h.location.sameBut hab (hd _ hn _ (by simp)), h.organizer.sameBut hab (hd _ hn _ (by simp)), h.priority.sameBut hab (hd _ hn _ (by simp)), h.sequence.sameBut hab (hd _ hn _ (by simp)), h.status.sameBut hab (hd _ hn _ (by simp)), h.summary.sameBut hab (hd _ hn _ (by simp)), h.transp.sameBut hab (hd _ hn _ (by simp)), h.url.sameBut hab (hd _ hn _ (by simp)), h.recurid.sameBut hab (hd _ hn _ (by simp)), h.rrule.sameBut hab (hd _ hn _ (by simp)), h.dtend.sameBut hab (hd _ hn _ (by simp)), h.duration.sameBut hab (hd _ hn _ (by simp)), h.attach.sameBut hab (hd _ hn _ (by simp)), h.attendee.sameBut hab (hd _ hn _ (by simp)), h.categories.sameBut hab (hd _ hn _ (by simp)), h.comment.sameBut hab (hd _ hn _ (by simp)), h.contact.sameBut hab (hd _ hn _ (by simp)), h.exdate.sameBut hab (hd _ hn _ (by simp)), h.rstatus.sameBut hab (hd _ hn _ (by simp)), h.relatedTo.sameBut hab (hd _ hn _ (by simp)), h.resources.sameBut hab (hd _ hn _ (by simp)), h.rdate.sameBut hab (hd _ hn _ (by simp)), h.alarms, h.xProp.sameBut hab, h.ianaProp.sameBut hab⟩
  rw [C14_VEvent_iff, C14_VEvent_iff]
  exact ⟨key _ _ hs, key _ _ hs.symm⟩

/-- **C18** for `VEvent`: a line of a required property that another one follows, readable or not, is as if it were not there. -/
theorem C18_VEvent_earlier (a b : List ContentLine) (l : ContentLine) (hn : l.key ∈ ([c!"DTSTAMP", c!"UID", c!"DTSTART"] : List Str))
    (hb : ∃ x ∈ b, x.key = l.key) (v : VEvent) :
    VEvent.tryFrom (a ++ l :: b) = .ok v ↔ VEvent.tryFrom (a ++ b) = .ok v :=
  VEvent.tryFrom_sameBut hn (sameBut_remove a b l hb) v

theorem VFreebusy.tryFrom_sameBut {ls ls' : List ContentLine} {n : Str} (hn : n ∈ ([c!"DTSTAMP", c!"UID"] : List Str))
    (hs : SameBut n ls ls') (v : VFreebusy) : VFreebusy.tryFrom ls = .ok v ↔ VFreebusy.tryFrom ls' = .ok v := by
  have hd : ∀ n ∈ ([c!"DTSTAMP", c!"UID"] : List Str), ∀ m ∈ ([c!"CONTACT", c!"DTSTART", c!"DTEND", c!"ORGANIZER", c!"URL", c!"ATTENDEE", c!"COMMENT", c!"FREEBUSY", c!"RSTATUS"] : List Str), m ≠ n := by
    decide +kernel
  have key : ∀ a b, SameBut n a b → VFreebusyFrom a v → VFreebusyFrom b v := fun a b hab h =>
    ⟨h.dtstamp.sameBut hab, h.uid.sameBut hab, h.contact.sameBut hab (hd _ hn _ (by simp)), h.dtstart.sameBut hab (hd _ hn _ (by simp)), h.dtend.sameBut hab (hd _ hn _ (by simp)), h.organizer.sameBut hab (hd _ hn _ (by simp)), h.url.sameBut hab (hd _ hn _ (by simp)), h.attendee.sameBut hab (hd _ hn _ (by simp)), h.comment.sameBut hab (hd _ hn _ (by simp)), h.freebusy.sameBut hab (hd _ hn _ (by simp)), h.rstatus.sameBut hab (hd _ hn _ (by simp)), h.xProp.sameBut hab, h.ianaProp.sameBut hab⟩
  rw [C14_VFreebusy_iff, C14_VFreebusy_iff]
  exact ⟨key _ _ hs, key _ _ hs.symm⟩

/-- **C18** for `VFreebusy`: a line of a required property that another one follows, readable or not, is as if it were not there. -/
theorem C18_VFreebusy_earlier (a b : List ContentLine) (l : ContentLine) (hn : l.key ∈ ([c!"DTSTAMP", c!"UID"] : List Str))
    (hb : ∃ x ∈ b, x.key = l.key) (v : VFreebusy) :
    VFreebusy.tryFrom (a ++ l :: b) = .ok v ↔ VFreebusy.tryFrom (a ++ b) = .ok v :=
  VFreebusy.tryFrom_sameBut hn (sameBut_remove a b l hb) v

theorem VJournal.tryFrom_sameBut {ls ls' : List ContentLine} {n : Str} (hn : n ∈ ([c!"DTSTAMP", c!"UID", c!"DTSTART"] : List Str))
    (hs : SameBut n ls ls') (v : VJournal) : VJournal.tryFrom ls = .ok v ↔ VJournal.tryFrom ls' = .ok v := by
  have hd : ∀ n ∈ ([c!"DTSTAMP", c!"UID", c!"DTSTART"] : List Str), ∀ m ∈ ([c!"CLASS", c!"CREATED", c!"LAST-MODIFIED", c!"ORGANIZER", c!"RECURID", c!"SEQUENCE", c!"STATUS", c!"SUMMARY", c!"URL", c!"RRULE", c!"ATTACH", c!"ATTENDEE", c!"CATEGORIES", c!"COMMENT", c!"CONTACT", c!"DESCRIPTION", c!"EXDATE", c!"RELATED-TO", c!"RDATE", c!"RSTATUS"] : List Str), m ≠ n := by
    decide +kernel
  have key : ∀ a b, SameBut n a b → VJournalFrom a v → VJournalFrom b v := fun a b hab h =>
    ⟨h.dtstamp.sameBut hab, h.uid.sameBut hab, h.class_.sameBut hab (hd _ hn _ (by simp)), h.created.sameBut hab (hd _ hn _ (by simp)), h.dtstart.sameBut hab, h.lastModified.sameBut hab (hd _ hn _ (by simp)), h.organizer.sameBut hab (hd _ hn _ (by simp)), h.recurid.sameBut hab (hd _ hn _ (by simp)), h.sequence.sameBut hab (hd _ hn _ (by simp)), h.status.sameBut hab (hd _ hn _ (by simp)), h.summary.sameBut hab (hd _ hn _ (by simp)), h.url.sameBut hab (hd _ hn _ (by simp)), h.rrule.sameBut hab (hd _ hn _ (by simp)), h.attach.sameBut hab (hd _ hn _ (by simp)), h.attendee.sameBut hab (hd _ hn _ (by simp)), h.categories.sameBut hab (hd _ hn _ (by simp)), h.comment.sameBut hab (hd _ hn _ (by simp)), h.contact.sameBut hab (hd _ hn _ (by simp)), h.description.sameBut hab (hd _ hn _ (by simp)), h.exdate.sameBut hab (hd _ hn _ (by simp)), h.relatedTo.sameBut hab (hd _ hn _ (by simp)), h.rdate.sameBut hab (hd _ hn _ (by simp)), h.rstatus.sameBut hab (hd _ hn _ (by simp)), h.xProp.sameBut hab, h.ianaProp.sameBut hab⟩
  rw [C14_VJournal_iff, C14_VJournal_iff]
  exact ⟨key _ _ hs, key _ _ hs.symm⟩

/-- **C18** for `VJournal`: a line of a required property that another one follows, readable or not, is as if it were not there. -/
theorem C18_VJournal_earlier (a b : List ContentLine) (l : ContentLine) (hn : l.key ∈ ([c!"DTSTAMP", c!"UID", c!"DTSTART"] : List Str))
    (hb : ∃ x ∈ b, x.key = l.key) (v : VJournal) :
    VJournal.tryFrom (a ++ l :: b) = .ok v ↔ VJournal.tryFrom (a ++ b) = .ok v :=
  VJournal.tryFrom_sameBut hn (sameBut_remove a b l hb) v

theorem Standard.tryFrom_sameBut {ls ls' : List ContentLine} {n : Str} (hn : n ∈ ([c!"DTSTART", c!"TZOFFSETTO", c!"TZOFFSETFROM"] : List Str))
    (hs : SameBut n ls ls') (v : Standard) : Standard.tryFrom ls = .ok v ↔ Standard.tryFrom ls' = .ok v := by
  have hd : ∀ n ∈ ([c!"DTSTART", c!"TZOFFSETTO", c!"TZOFFSETFROM"] : List Str), ∀ m ∈ ([c!"RRULE", c!"COMMENT", c!"RDATE", c!"TZNAME"] : List Str), m ≠ n := by
    decide +kernel
  have key : ∀ a b, SameBut n a b → StandardFrom a v → StandardFrom b v := fun a b hab h =>
    ⟨h.dtstart.sameBut hab, h.tzoffsetto.sameBut hab, h.tzoffsetfrom.sameBut hab, h.rrule.sameBut hab (hd _ hn _ (by simp)), h.comment.sameBut hab (hd _ hn _ (by simp)), h.rdate.sameBut hab (hd _ hn _ (by simp)), h.tzname.sameBut hab (hd _ hn _ (by simp)), h.xProp.sameBut hab, h.ianaProp.sameBut hab⟩
  rw [C14_Standard_iff, C14_Standard_iff]
  exact ⟨key _ _ hs, key _ _ hs.symm⟩

/-- **C18** for `Standard`: a line of a required property that another one follows, readable or not, is as if it were not there. -/
theorem C18_Standard_earlier (a b : List ContentLine) (l : ContentLine) (hn : l.key ∈ ([c!"DTSTART", c!"TZOFFSETTO", c!"TZOFFSETFROM"] : List Str))
    (hb : ∃ x ∈ b, x.key = l.key) (v : Standard) :
    Standard.tryFrom (a ++ l :: b) = .ok v ↔ Standard.tryFrom (a ++ b) = .ok v :=
  Standard.tryFrom_sameBut hn (sameBut_remove a b l hb) v

theorem Daylight.tryFrom_sameBut {ls ls' : List ContentLine} {n : Str} (hn : n ∈ ([c!"DTSTART", c!"TZOFFSETTO", c!"TZOFFSETFROM"] : List Str))
    (hs : SameBut n ls ls') (v : Daylight) : Daylight.tryFrom ls = .ok v ↔ Daylight.tryFrom ls' = .ok v := by
  have hd : ∀ n ∈ ([c!"DTSTART", c!"TZOFFSETTO", c!"TZOFFSETFROM"] : List Str), ∀ m ∈ ([c!"RRULE", c!"COMMENT", c!"RDATE", c!"TZNAME"] : List Str), m ≠ n := by
    decide +kernel
  have key : ∀ a b, SameBut n a b → DaylightFrom a v → DaylightFrom b v := fun a b hab h =>
    ⟨h.dtstart.sameBut hab, h.tzoffsetto.sameBut hab, h.tzoffsetfrom.sameBut hab, h.rrule.sameBut hab (hd _ hn _ (by simp)), h.comment.sameBut hab (hd _ hn _ (by simp)), h.rdate.sameBut hab (hd _ hn _ (by simp)), h.tzname.sameBut hab (hd _ hn _ (by simp)), h.xProp.sameBut hab, h.ianaProp.sameBut hab⟩
  rw [C14_Daylight_iff, C14_Daylight_iff]
  exact ⟨key _ _ hs, key _ _ hs.symm⟩

/-- **C18** for `Daylight`: a line of a required property that another one follows, readable or not, is as if it were not there. -/
theorem C18_Daylight_earlier (a b : List ContentLine) (l : ContentLine) (hn : l.key ∈ ([c!"DTSTART", c!"TZOFFSETTO", c!"TZOFFSETFROM"] : List Str))
    (hb : ∃ x ∈ b, x.key = l.key) (v : Daylight) :
    Daylight.tryFrom (a ++ l :: b) = .ok v ↔ Daylight.tryFrom (a ++ b) = .ok v :=
  Daylight.tryFrom_sameBut hn (sameBut_remove a b l hb) v

theorem VTimezone.tryFrom_sameBut {ls ls' : List ContentLine} {n : Str} (hn : n ∈ ([c!"TZID"] : List Str))
    (hs : SameBut n ls ls') (v : VTimezone) : VTimezone.tryFrom ls = .ok v ↔ VTimezone.tryFrom ls' = .ok v := by
  have hd : ∀ n ∈ ([c!"TZID"] : List Str), ∀ m ∈ ([c!"LAST-MODIFIED", c!"TZURL"] : List Str), m ≠ n := by
    decide +kernel
  have key : ∀ a b, SameBut n a b → VTimezoneFrom a v → VTimezoneFrom b v := fun a b hab h =>
    ⟨h.tzid.sameBut hab, h.lastModified.sameBut hab (hd _ hn _ (by simp)), h.tzurl.sameBut hab (hd _ hn _ (by simp)), h.standard, h.daylight, h.xProp.sameBut hab, h.ianaProp.sameBut hab⟩
  rw [C14_VTimezone_iff, C14_VTimezone_iff]
  exact ⟨key _ _ hs, key _ _ hs.symm⟩

/-- **C18** for `VTimezone`: a line of a required property that another one follows, readable or not, is as if it were not there. -/
theorem C18_VTimezone_earlier (a b : List ContentLine) (l : ContentLine) (hn : l.key ∈ ([c!"TZID"] : List Str))
    (hb : ∃ x ∈ b, x.key = l.key) (v : VTimezone) :
    VTimezone.tryFrom (a ++ l :: b) = .ok v ↔ VTimezone.tryFrom (a ++ b) = .ok v :=
  VTimezone.tryFrom_sameBut hn (sameBut_remove a b l hb) v

theorem VTodo.tryFrom_sameBut {ls ls' : List ContentLine} {n : Str} (hn : n ∈ ([c!"DTSTAMP", c!"UID"] : List Str))
    (hs : SameBut n ls ls') (v : VTodo) : VTodo.tryFrom ls = .ok v ↔ VTodo.tryFrom ls' = .ok v := by
  have hd : ∀ n ∈ ([c!"DTSTAMP", c!"UID"] : List Str), ∀ m ∈ ([c!"CLASS", c!"COMPLETED", c!"CREATED", c!"DTSTART", c!"GEO", c!"LAST-MODIFIED", c!"LOCATION", c!"ORGANIZER", c!"PERCENT-COMPLETE", c!"PRIORITY", c!"RECURID", c!"SEQUENCE", c!"STATUS", c!"SUMMARY", c!"URL", c!"RRULE", c!"DUE", c!"DURATION", c!"ATTACH", c!"ATTENDEE", c!"CATEGORIES", c!"COMMENT", c!"CONTACT", c!"EXDATE", c!"RSTATUS", c!"RELATED-TO", c!"RESOURCES", c!"RDATE"] : List Str), m ≠ n := by
    decide +kernel
  have key : ∀ a b, SameBut n a b → VTodoFrom a v → VTodoFrom b v := fun a b hab h =>
    ⟨h.dtstamp.sameBut hab, h.uid.sameBut hab, h.class_.sameBut hab (hd _ hn _ (by simp)), h.completed.sameBut hab (hd _ hn _ (by simp)), h.created.sameBut hab (hd _ hn _ (by simp)), h.dtstart.sameBut hab (hd _ hn _ (by simp)), h.geo.sameBut hab (hd _ hn _ (by simp)), h.lastModified.sameBut hab (hd _ hn _ (by simp)), h.location.sameBut hab (hd _ hn _ (by simp)), h.organizer.sameBut hab (hd _ hn _ (by simp)), h.percentComplete.sameBut hab (hd _ hn _ (by simp)), h.priority.sameBut hab (hd _ hn _ (by simp)), h.recurid.sameBut hab (hd _ hn _ (by simp)), h.sequence.sameBut hab (hd _ hn _ (by simp)), h.status.sameBut hab (hd _ hn _ (by simp)), h.summary.sameBut hab (hd _ hn _ (by simp)), h.url.sameBut hab (hd _ hn _ (by simp)), h.rrule.sameBut hab (hd _ hn _ (by simp)), h.due.sameBut hab (hd _ hn _ (by simp)), h.duration.sameBut hab (hd _ hn _ (by simp)), h.attach.sameBut hab (hd _ hn _ (by simp)), h.attendee.sameBut hab (hd _ hn _ (by simp)), h.categories.sameBut hab (hd _ hn _ (by simp)), h.comment.sameBut hab (hd _ hn _ (by simp)), h.contact.sameBut hab (hd _ hn _ (by simp)), h.exdate.sameBut hab (hd _ hn _ (by simp)), h.rstatus.sameBut hab (hd _ hn _ (by simp)), h.relatedTo.sameBut hab (hd _ hn _ (by simp)), h.resources.sameBut hab (hd _ hn _ (by simp)), h.rdate.sameBut hab (hd _ hn _ (by simp)), h.xProp.sameBut hab, h.ianaProp.sameBut hab⟩
  rw [C14_VTodo_iff, C14_VTodo_iff]
  exact ⟨key _ _ hs, key _ _ hs.symm⟩

/-- **C18** for `VTodo`: a line of a required property that another one follows, readable or not, is as if it were not there. -/
theorem C18_VTodo_earlier (a b : List ContentLine) (l : ContentLine) (hn : l.key ∈ ([c!"DTSTAMP", c!"UID"] : List Str))
    (hb : ∃ x ∈ b, x.key = l.key) (v : VTodo) :
    VTodo.tryFrom (a ++ l :: b) = .ok v ↔ VTodo.tryFrom (a ++ b) = .ok v :=
  VTodo.tryFrom_sameBut hn (sameBut_remove a b l hb) v

theorem VCalendar.tryFrom_sameBut {ls ls' : List ContentLine} {n : Str} (hn : n ∈ ([c!"PRODID", c!"VERSION"] : List Str))
    (hs : SameBut n ls ls') (v : VCalendar) : VCalendar.tryFrom ls = .ok v ↔ VCalendar.tryFrom ls' = .ok v := by
  have hd : ∀ n ∈ ([c!"PRODID", c!"VERSION"] : List Str), ∀ m ∈ ([c!"CALSCALE", c!"METHOD"] : List Str), m ≠ n := by
    decide +kernel
  have key : ∀ a b, SameBut n a b → VCalendarFrom a v → VCalendarFrom b v := fun a b hab h =>
    ⟨h.prodid.sameBut hab, h.version.sameBut hab, h.calscale.sameBut hab (hd _ hn _ (by simp)), h.method.sameBut hab (hd _ hn _ (by simp)), h.alarms, h.events, h.freebusy, h.journals, h.todo, h.timezones, h.xProp.sameBut hab, h.ianaProp.sameBut hab⟩
  rw [C14_VCalendar_iff, C14_VCalendar_iff]
  exact ⟨key _ _ hs, key _ _ hs.symm⟩

/-- **C18** for `VCalendar`: a line of a required property that another one follows, readable or not, is as if it were not there. -/
theorem C18_VCalendar_earlier (a b : List ContentLine) (l : ContentLine) (hn : l.key ∈ ([c!"PRODID", c!"VERSION"] : List Str))
    (hb : ∃ x ∈ b, x.key = l.key) (v : VCalendar) :
    VCalendar.tryFrom (a ++ l :: b) = .ok v ↔ VCalendar.tryFrom (a ++ b) = .ok v :=
  VCalendar.tryFrom_sameBut hn (sameBut_remove a b l hb) v

end

/-! ## A case -/

section
attribute [local instance] utc


/-- A to-do with two `DTSTAMP` lines, the first of them unreadable, meets the hypotheses, and is read. -/
example : (⟨c!"DTSTAMP", [], c!"nonsense"⟩ : ContentLine).key ∈ ([c!"DTSTAMP", c!"UID"] : List Str) ∧
    (∃ x ∈ ([⟨c!"UID", [], c!"1"⟩, ⟨c!"DTSTAMP", [], c!"20200101T000000"⟩] : List ContentLine), x.key = c!"DTSTAMP") ∧
    ((@VTodo.tryFrom utc ([] ++ ⟨c!"DTSTAMP", [], c!"nonsense"⟩ :: [⟨c!"UID", [], c!"1"⟩, ⟨c!"DTSTAMP", [], c!"20200101T000000"⟩])).map (·.dtstamp)
      = .ok (.naive ⟨⟨2020, 1, 1⟩, 0, 0⟩)) :=
  ⟨by simp, ⟨_, List.mem_cons_of_mem _ (List.mem_cons_self ..), rfl⟩, by decide +kernel⟩

/-- The last line counts: with the lines in the other order the to-do is refused. -/
example : ((@VTodo.tryFrom utc [⟨c!"UID", [], c!"1"⟩, ⟨c!"DTSTAMP", [], c!"20200101T000000"⟩, ⟨c!"DTSTAMP", [], c!"nonsense"⟩]).isOk) = false := by
  decide +kernel

end

end Ikal
