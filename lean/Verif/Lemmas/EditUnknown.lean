import Verif.Lemmas.Edit

/-!
# Lemmas for C106: lines of properties that are not known
-/

set_option linter.unusedSectionVars false

namespace Ikal
open Spec Spec.Edit Spec.Abnf

section
variable {n : Str} {ls ls' : List ContentLine} {α : Type}

theorem Spec.IsReq.at {p : ContentLine → Res α} {v : α} (hv : IsReq ls n p v) (h : named n ls = named n ls') : IsReq ls' n p v := by
  unfold IsReq lastNamed at *; rw [← h]; exact hv

theorem Spec.IsOpt.at {p : ContentLine → Res α} {v : Option α} (hv : IsOpt ls n p v) (h : named n ls = named n ls') : IsOpt ls' n p v := by
  unfold IsOpt lastNamed at *; rw [← h]; exact hv

theorem Spec.IsPush.at {p : ContentLine → Res α} {v : List α} (hv : IsPush ls n p v) (h : named n ls = named n ls') : IsPush ls' n p v := by
  unfold IsPush at *; rw [← h]; exact hv

theorem Spec.IsAppend.at {p : ContentLine → Res (List α)} {v : List α} (hv : IsAppend ls n p v) (h : named n ls = named n ls') : IsAppend ls' n p v := by
  unfold IsAppend at *; rw [← h]; exact hv

theorem exists_ext (known : List Str) (sel : Str → Prop) (ls : List ContentLine) : ∃ m, IsExt known sel ls m := by
  classical
  refine ⟨(ls.filter fun l => decide (l.key ∉ known ∧ sel l.key)).foldl (fun m l => SMap.insert m l.key l) [], ?_, fun k hk hs => ?_, fun k hk => ?_⟩
  · rw [Comp.foldl_insert_pairs]; exact SMap.foldl_wf _ _ SMap.wf_nil
  · rw [Comp.get?_ext, lastNamed, lastNamed, named, named, List.filter_filter]
    congr 1
    apply List.filter_congr
    intro l _
    by_cases hl : l.key = k
    · subst hl; simp [hk, hs]
    · simp [hl]
  · rw [Comp.get?_ext, lastNamed, named, List.filter_filter]
    rw [List.getLast?_eq_none_iff, List.filter_eq_nil_iff]
    intro l _
    by_cases hl : l.key = k
    · subst hl
      rcases hk with hk | hk <;> simp [hk]
    · simp [hl]
end

variable [Platform]

theorem unknown_Audio {k : Str} {ls ls' : List ContentLine} {v : Audio} (hk : Unknown Audio.members k) (h : ∀ n, n ≠ k → named n ls = named n ls')
    (hv : AudioFrom ls v) : ∃ w, AudioFrom ls' w := by
  simp only [Unknown, Audio.members, List.forall_mem_cons] at hk
  obtain ⟨k0, k1, k2, k3, k4, k5, k6, _⟩ := hk
  obtain ⟨x, hx⟩ := exists_ext _ IsX ls'
  obtain ⟨i, hi⟩ := exists_ext _ (fun k => ¬ IsX k) ls'
  exact ⟨{ v with xProp := x, ianaProp := i }, hv.action.at (h _ (k0 (by decide))), hv.trigger.at (h _ (k1 (by decide))), hv.duration.at (h _ (k2 (by decide))), hv.repeat_.at (h _ (k3 (by decide))), hv.attach.at (h _ (k4 (by decide))), hx, hi⟩

theorem unknown_Display {k : Str} {ls ls' : List ContentLine} {v : Display} (hk : Unknown Display.members k) (h : ∀ n, n ≠ k → named n ls = named n ls')
    (hv : DisplayFrom ls v) : ∃ w, DisplayFrom ls' w := by
  simp only [Unknown, Display.members, List.forall_mem_cons] at hk
  obtain ⟨k0, k1, k2, k3, k4, k5, k6, _⟩ := hk
  obtain ⟨x, hx⟩ := exists_ext _ IsX ls'
  obtain ⟨i, hi⟩ := exists_ext _ (fun k => ¬ IsX k) ls'
  exact ⟨{ v with xProp := x, ianaProp := i }, hv.action.at (h _ (k0 (by decide))), hv.trigger.at (h _ (k1 (by decide))), hv.description.at (h _ (k2 (by decide))), hv.duration.at (h _ (k3 (by decide))), hv.repeat_.at (h _ (k4 (by decide))), hx, hi⟩

theorem unknown_Email {k : Str} {ls ls' : List ContentLine} {v : Email} (hk : Unknown Email.members k) (h : ∀ n, n ≠ k → named n ls = named n ls')
    (hv : EmailFrom ls v) : ∃ w, EmailFrom ls' w := by
  simp only [Unknown, Email.members, List.forall_mem_cons] at hk
  obtain ⟨k0, k1, k2, k3, k4, k5, k6, k7, k8, k9, _⟩ := hk
  obtain ⟨x, hx⟩ := exists_ext _ IsX ls'
  obtain ⟨i, hi⟩ := exists_ext _ (fun k => ¬ IsX k) ls'
  exact ⟨{ v with xProp := x, ianaProp := i }, hv.action.at (h _ (k0 (by decide))), hv.trigger.at (h _ (k1 (by decide))), hv.description.at (h _ (k2 (by decide))), hv.summary.at (h _ (k3 (by decide))), hv.attendee.at (h _ (k4 (by decide))), hv.duration.at (h _ (k5 (by decide))), hv.repeat_.at (h _ (k6 (by decide))), hv.attach.at (h _ (k7 (by decide))), hx, hi⟩

theorem unknown_VEvent {k : Str} {ls ls' : List ContentLine} {v : VEvent} (hk : Unknown VEvent.members k) (h : ∀ n, n ≠ k → named n ls = named n ls')
    (hv : VEventFrom ls v) : ∃ w, VEventFrom ls' w := by
  simp only [Unknown, VEvent.members, List.forall_mem_cons] at hk
  obtain ⟨k0, k1, k2, k3, k4, k5, k6, k7, k8, k9, k10, k11, k12, k13, k14, k15, k16, k17, k18, k19, k20, k21, k22, k23, k24, k25, k26, k27, k28, k29, k30, k31, k32, _⟩ := hk
  obtain ⟨x, hx⟩ := exists_ext _ IsX ls'
  obtain ⟨i, hi⟩ := exists_ext _ (fun k => ¬ IsX k) ls'
  exact ⟨{ v with xProp := x, ianaProp := i }, hv.dtstamp.at (h _ (k0 (by decide))), hv.uid.at (h _ (k1 (by decide))), hv.dtstart.at (h _ (k2 (by decide))), hv.class_.at (h _ (k3 (by decide))), hv.created.at (h _ (k4 (by decide))), hv.description.at (h _ (k5 (by decide))), hv.geo.at (h _ (k6 (by decide))), hv.lastModified.at (h _ (k7 (by decide))), hv.location.at (h _ (k8 (by decide))), hv.organizer.at (h _ (k9 (by decide))), hv.priority.at (h _ (k10 (by decide))), hv.sequence.at (h _ (k11 (by decide))), hv.status.at (h _ (k12 (by decide))), hv.summary.at (h _ (k13 (by decide))), hv.transp.at (h _ (k14 (by decide))), hv.url.at (h _ (k15 (by decide))), hv.recurid.at (h _ (k16 (by decide))), hv.rrule.at (h _ (k17 (by decide))), hv.dtend.at (h _ (k18 (by decide))), hv.duration.at (h _ (k19 (by decide))), hv.attach.at (h _ (k20 (by decide))), hv.attendee.at (h _ (k21 (by decide))), hv.categories.at (h _ (k22 (by decide))), hv.comment.at (h _ (k23 (by decide))), hv.contact.at (h _ (k24 (by decide))), hv.exdate.at (h _ (k25 (by decide))), hv.rstatus.at (h _ (k26 (by decide))), hv.relatedTo.at (h _ (k27 (by decide))), hv.resources.at (h _ (k28 (by decide))), hv.rdate.at (h _ (k29 (by decide))), hv.alarms, hx, hi⟩

theorem unknown_VFreebusy {k : Str} {ls ls' : List ContentLine} {v : VFreebusy} (hk : Unknown VFreebusy.members k) (h : ∀ n, n ≠ k → named n ls = named n ls')
    (hv : VFreebusyFrom ls v) : ∃ w, VFreebusyFrom ls' w := by
  simp only [Unknown, VFreebusy.members, List.forall_mem_cons] at hk
  obtain ⟨k0, k1, k2, k3, k4, k5, k6, k7, k8, k9, k10, k11, k12, _⟩ := hk
  obtain ⟨x, hx⟩ := exists_ext _ IsX ls'
  obtain ⟨i, hi⟩ := exists_ext _ (fun k => ¬ IsX k) ls'
  exact ⟨{ v with xProp := x, ianaProp := i }, hv.dtstamp.at (h _ (k0 (by decide))), hv.uid.at (h _ (k1 (by decide))), hv.contact.at (h _ (k2 (by decide))), hv.dtstart.at (h _ (k3 (by decide))), hv.dtend.at (h _ (k4 (by decide))), hv.organizer.at (h _ (k5 (by decide))), hv.url.at (h _ (k6 (by decide))), hv.attendee.at (h _ (k7 (by decide))), hv.comment.at (h _ (k8 (by decide))), hv.freebusy.at (h _ (k9 (by decide))), hv.rstatus.at (h _ (k10 (by decide))), hx, hi⟩

theorem unknown_VJournal {k : Str} {ls ls' : List ContentLine} {v : VJournal} (hk : Unknown VJournal.members k) (h : ∀ n, n ≠ k → named n ls = named n ls')
    (hv : VJournalFrom ls v) : ∃ w, VJournalFrom ls' w := by
  simp only [Unknown, VJournal.members, List.forall_mem_cons] at hk
  obtain ⟨k0, k1, k2, k3, k4, k5, k6, k7, k8, k9, k10, k11, k12, k13, k14, k15, k16, k17, k18, k19, k20, k21, k22, k23, k24, _⟩ := hk
  obtain ⟨x, hx⟩ := exists_ext _ IsX ls'
  obtain ⟨i, hi⟩ := exists_ext _ (fun k => ¬ IsX k) ls'
  exact ⟨{ v with xProp := x, ianaProp := i }, hv.dtstamp.at (h _ (k0 (by decide))), hv.uid.at (h _ (k1 (by decide))), hv.class_.at (h _ (k2 (by decide))), hv.created.at (h _ (k3 (by decide))), hv.dtstart.at (h _ (k4 (by decide))), hv.lastModified.at (h _ (k5 (by decide))), hv.organizer.at (h _ (k6 (by decide))), hv.recurid.at (h _ (k7 (by decide))), hv.sequence.at (h _ (k8 (by decide))), hv.status.at (h _ (k9 (by decide))), hv.summary.at (h _ (k10 (by decide))), hv.url.at (h _ (k11 (by decide))), hv.rrule.at (h _ (k12 (by decide))), hv.attach.at (h _ (k13 (by decide))), hv.attendee.at (h _ (k14 (by decide))), hv.categories.at (h _ (k15 (by decide))), hv.comment.at (h _ (k16 (by decide))), hv.contact.at (h _ (k17 (by decide))), hv.description.at (h _ (k18 (by decide))), hv.exdate.at (h _ (k19 (by decide))), hv.relatedTo.at (h _ (k20 (by decide))), hv.rdate.at (h _ (k21 (by decide))), hv.rstatus.at (h _ (k22 (by decide))), hx, hi⟩

theorem unknown_Standard {k : Str} {ls ls' : List ContentLine} {v : Standard} (hk : Unknown Standard.members k) (h : ∀ n, n ≠ k → named n ls = named n ls')
    (hv : StandardFrom ls v) : ∃ w, StandardFrom ls' w := by
  simp only [Unknown, Standard.members, List.forall_mem_cons] at hk
  obtain ⟨k0, k1, k2, k3, k4, k5, k6, k7, k8, _⟩ := hk
  obtain ⟨x, hx⟩ := exists_ext _ IsX ls'
  obtain ⟨i, hi⟩ := exists_ext _ (fun k => ¬ IsX k) ls'
  exact ⟨{ v with xProp := x, ianaProp := i }, hv.dtstart.at (h _ (k0 (by decide))), hv.tzoffsetto.at (h _ (k1 (by decide))), hv.tzoffsetfrom.at (h _ (k2 (by decide))), hv.rrule.at (h _ (k3 (by decide))), hv.comment.at (h _ (k4 (by decide))), hv.rdate.at (h _ (k5 (by decide))), hv.tzname.at (h _ (k6 (by decide))), hx, hi⟩

theorem unknown_Daylight {k : Str} {ls ls' : List ContentLine} {v : Daylight} (hk : Unknown Daylight.members k) (h : ∀ n, n ≠ k → named n ls = named n ls')
    (hv : DaylightFrom ls v) : ∃ w, DaylightFrom ls' w := by
  simp only [Unknown, Daylight.members, List.forall_mem_cons] at hk
  obtain ⟨k0, k1, k2, k3, k4, k5, k6, k7, k8, _⟩ := hk
  obtain ⟨x, hx⟩ := exists_ext _ IsX ls'
  obtain ⟨i, hi⟩ := exists_ext _ (fun k => ¬ IsX k) ls'
  exact ⟨{ v with xProp := x, ianaProp := i }, hv.dtstart.at (h _ (k0 (by decide))), hv.tzoffsetto.at (h _ (k1 (by decide))), hv.tzoffsetfrom.at (h _ (k2 (by decide))), hv.rrule.at (h _ (k3 (by decide))), hv.comment.at (h _ (k4 (by decide))), hv.rdate.at (h _ (k5 (by decide))), hv.tzname.at (h _ (k6 (by decide))), hx, hi⟩

theorem unknown_VTimezone {k : Str} {ls ls' : List ContentLine} {v : VTimezone} (hk : Unknown VTimezone.members k) (h : ∀ n, n ≠ k → named n ls = named n ls')
    (hv : VTimezoneFrom ls v) : ∃ w, VTimezoneFrom ls' w := by
  simp only [Unknown, VTimezone.members, List.forall_mem_cons] at hk
  obtain ⟨k0, k1, k2, k3, k4, k5, k6, _⟩ := hk
  obtain ⟨x, hx⟩ := exists_ext _ IsX ls'
  obtain ⟨i, hi⟩ := exists_ext _ (fun k => ¬ IsX k) ls'
  exact ⟨{ v with xProp := x, ianaProp := i }, hv.tzid.at (h _ (k0 (by decide))), hv.lastModified.at (h _ (k1 (by decide))), hv.tzurl.at (h _ (k2 (by decide))), hv.standard, hv.daylight, hx, hi⟩

theorem unknown_VTodo {k : Str} {ls ls' : List ContentLine} {v : VTodo} (hk : Unknown VTodo.members k) (h : ∀ n, n ≠ k → named n ls = named n ls')
    (hv : VTodoFrom ls v) : ∃ w, VTodoFrom ls' w := by
  simp only [Unknown, VTodo.members, List.forall_mem_cons] at hk
  obtain ⟨k0, k1, k2, k3, k4, k5, k6, k7, k8, k9, k10, k11, k12, k13, k14, k15, k16, k17, k18, k19, k20, k21, k22, k23, k24, k25, k26, k27, k28, k29, k30, k31, _⟩ := hk
  obtain ⟨x, hx⟩ := exists_ext _ IsX ls'
  obtain ⟨i, hi⟩ := exists_ext _ (fun k => ¬ IsX k) ls'
  exact ⟨{ v with xProp := x, ianaProp := i }, hv.dtstamp.at (h _ (k0 (by decide))), hv.uid.at (h _ (k1 (by decide))), hv.class_.at (h _ (k2 (by decide))), hv.completed.at (h _ (k3 (by decide))), hv.created.at (h _ (k4 (by decide))), hv.dtstart.at (h _ (k5 (by decide))), hv.geo.at (h _ (k6 (by decide))), hv.lastModified.at (h _ (k7 (by decide))), hv.location.at (h _ (k8 (by decide))), hv.organizer.at (h _ (k9 (by decide))), hv.percentComplete.at (h _ (k10 (by decide))), hv.priority.at (h _ (k11 (by decide))), hv.recurid.at (h _ (k12 (by decide))), hv.sequence.at (h _ (k13 (by decide))), hv.status.at (h _ (k14 (by decide))), hv.summary.at (h _ (k15 (by decide))), hv.url.at (h _ (k16 (by decide))), hv.rrule.at (h _ (k17 (by decide))), hv.due.at (h _ (k18 (by decide))), hv.duration.at (h _ (k19 (by decide))), hv.attach.at (h _ (k20 (by decide))), hv.attendee.at (h _ (k21 (by decide))), hv.categories.at (h _ (k22 (by decide))), hv.comment.at (h _ (k23 (by decide))), hv.contact.at (h _ (k24 (by decide))), hv.exdate.at (h _ (k25 (by decide))), hv.rstatus.at (h _ (k26 (by decide))), hv.relatedTo.at (h _ (k27 (by decide))), hv.resources.at (h _ (k28 (by decide))), hv.rdate.at (h _ (k29 (by decide))), hx, hi⟩

theorem unknown_VCalendar {k : Str} {ls ls' : List ContentLine} {v : VCalendar} (hk : Unknown VCalendar.members k) (h : ∀ n, n ≠ k → named n ls = named n ls')
    (hv : VCalendarFrom ls v) : ∃ w, VCalendarFrom ls' w := by
  simp only [Unknown, VCalendar.members, List.forall_mem_cons] at hk
  obtain ⟨k0, k1, k2, k3, k4, k5, k6, k7, k8, k9, k10, k11, _⟩ := hk
  obtain ⟨x, hx⟩ := exists_ext _ IsX ls'
  obtain ⟨i, hi⟩ := exists_ext _ (fun k => ¬ IsX k) ls'
  exact ⟨{ v with xProp := x, ianaProp := i }, hv.prodid.at (h _ (k0 (by decide))), hv.version.at (h _ (k1 (by decide))), hv.calscale.at (h _ (k2 (by decide))), hv.method.at (h _ (k3 (by decide))), hv.alarms, hv.events, hv.freebusy, hv.journals, hv.todo, hv.timezones, hx, hi⟩

theorem unknown_VAlarm {k : Str} {ls ls' : List ContentLine} {v : VAlarm} (hk : Unknown Audio.members k ∧ Unknown Display.members k ∧ Unknown Email.members k)
    (h : ∀ n, n ≠ k → named n ls = named n ls') (hv : VAlarmFrom ls v) : ∃ w, VAlarmFrom ls' w := by
  have hn : c!"ACTION" ≠ k := hk.1 ⟨c!"action", .text, (·.action), fun x v => { v with action := x }⟩ (by simp [Audio.members]) RTy.noConfusion
  have ha := firstAction_only hn.symm h
  cases v with
  | audio a => obtain ⟨h1, h2⟩ := hv; obtain ⟨w, hw⟩ := unknown_Audio hk.1 h h2; exact ⟨.audio w, ha ▸ h1, hw⟩
  | display a => obtain ⟨h1, h2⟩ := hv; obtain ⟨w, hw⟩ := unknown_Display hk.2.1 h h2; exact ⟨.display w, ha ▸ h1, hw⟩
  | email a => obtain ⟨h1, h2⟩ := hv; obtain ⟨w, hw⟩ := unknown_Email hk.2.2 h h2; exact ⟨.email w, ha ▸ h1, hw⟩

theorem leaf_unknown {α : Type} {name n k : Str} {From : List ContentLine → α → Prop} {lines lines' : List Line} {parts : List Tree} (hl : OnlyLines k lines lines')
    (key : ∀ ls ls' v, (∀ n, n ≠ k → named n ls = named n ls') → From ls v → ∃ w, From ls' w) {v : α} (h : IsLeaf name From (.mk n lines parts) v) :
    ∃ w, IsLeaf name From (.mk n lines' parts) w := by
  obtain ⟨_, ls, e, h1, h2⟩ := h
  injection e with e1 e2 e3
  subst e1 e2 e3
  obtain ⟨ls', h1'⟩ := exists_block lines'
  obtain ⟨w, hw⟩ := key ls ls' v (named_only hl h1 h1') h2
  exact ⟨w, lines', ls', rfl, h1', hw⟩

theorem event_unknown {n k : Str} {lines lines' : List Line} {parts : List Tree} (hl : OnlyLines k lines lines') (hk : Unknown VEvent.members k) {v : VEvent}
    (h : IsEvent (.mk n lines parts) v) : ∃ w, IsEvent (.mk n lines' parts) w := by
  obtain ⟨_, ls, _, e, h1, h2, h3⟩ := h
  injection e with e1 e2 e3
  subst e1 e2 e3
  obtain ⟨ls', h1'⟩ := exists_block lines'
  rw [← full_VEvent] at h2
  obtain ⟨w, hw⟩ := unknown_VEvent hk (named_only hl h1 h1') h2
  have e : { w with alarms := [] } = w := by have := hw.alarms; cases w; simp_all
  rw [full_VEvent] at hw
  exact ⟨{ w with alarms := v.alarms }, lines', ls', parts, rfl, h1', (by simpa only [e] using hw), h3⟩

theorem timezone_unknown {n k : Str} {lines lines' : List Line} {parts : List Tree} (hl : OnlyLines k lines lines') (hk : Unknown VTimezone.members k) {v : VTimezone}
    (h : IsTimezone (.mk n lines parts) v) : ∃ w, IsTimezone (.mk n lines' parts) w := by
  obtain ⟨_, ls, _, ps, e, h1, h2, h3, h4, h5⟩ := h
  injection e with e1 e2 e3
  subst e1 e2 e3
  obtain ⟨ls', h1'⟩ := exists_block lines'
  rw [← full_VTimezone] at h2
  obtain ⟨w, hw⟩ := unknown_VTimezone hk (named_only hl h1 h1') h2
  have e : { w with standard := [], daylight := [] } = w := by have := hw.standard; have := hw.daylight; cases w; simp_all
  rw [full_VTimezone] at hw
  exact ⟨{ w with standard := v.standard, daylight := v.daylight }, lines', ls', parts, ps, rfl, h1', (by simpa only [e] using hw), h3, h4, h5⟩

theorem calendar_unknown {n k : Str} {lines lines' : List Line} {parts : List Tree} (hl : OnlyLines k lines lines') (hk : Unknown VCalendar.members k) {v : VCalendar}
    (h : IsCalendar (.mk n lines parts) v) : ∃ w, IsCalendar (.mk n lines' parts) w := by
  obtain ⟨_, ls, _, ps, e, h1, h2, h3, h4⟩ := h
  injection e with e1 e2 e3
  subst e1 e2 e3
  obtain ⟨ls', h1'⟩ := exists_block lines'
  rw [← full_VCalendar] at h2
  obtain ⟨w, hw⟩ := unknown_VCalendar hk (named_only hl h1 h1') h2
  have e : { w with alarms := [], events := [], freebusy := [], journals := [], todo := [], timezones := [] } = w := by
    have := hw.alarms; have := hw.events; have := hw.freebusy; have := hw.journals; have := hw.todo; have := hw.timezones; cases w; simp_all
  rw [full_VCalendar] at hw
  exact ⟨{ w with alarms := v.alarms, events := v.events, freebusy := v.freebusy, journals := v.journals, todo := v.todo, timezones := v.timezones }, lines', ls', parts, ps, rfl,
    h1', (by simpa only [e] using hw), h3, h4⟩

end Ikal
