import Verif.Props.Abnf
import Verif.Spec.Edit

/-!
# Lemmas for C106: edits
-/

set_option linter.unusedSectionVars false

namespace Ikal
open Spec Spec.Edit Spec.Abnf

section
variable {k n : Str} {ls ls' : List ContentLine} {α : Type}

theorem Spec.IsReq.same {p : ContentLine → Res α} {v w : α} (h : named n ls = named n ls') (hv : IsReq ls n p v) (hw : IsReq ls' n p w) : v = w := by
  obtain ⟨l, h1, h2⟩ := hv
  obtain ⟨l', h1', h2'⟩ := hw
  unfold lastNamed at h1 h1'
  rw [h, h1'] at h1
  injection h1 with h1
  subst h1
  rw [h2] at h2'
  injection h2'

theorem Spec.IsOpt.same {p : ContentLine → Res α} {v w : Option α} (h : named n ls = named n ls') (hv : IsOpt ls n p v) (hw : IsOpt ls' n p w) : v = w := by
  obtain ⟨_, h1, h2⟩ := hv
  obtain ⟨_, h1', h2'⟩ := hw
  unfold lastNamed at h1 h1' h2 h2'
  rw [h] at h1 h2
  cases hc : (named n ls').getLast? with
  | none => rw [h1 hc, h1' hc]
  | some l =>
    obtain ⟨a, e, rfl⟩ := h2 l hc
    obtain ⟨b, e', rfl⟩ := h2' l hc
    rw [e] at e'
    injection e' with e'
    rw [e']

theorem res_ok_inj {α : Type} : ∀ {as bs : List α}, as.map Res.ok = bs.map Res.ok → as = bs
  | [], [], _ => rfl
  | _ :: _, [], h => by simp at h
  | [], _ :: _, h => by simp at h
  | a :: as, b :: bs, h => by
    simp only [List.map_cons, List.cons.injEq, Res.ok.injEq] at h
    rw [h.1, res_ok_inj h.2]

theorem Spec.IsPush.same {p : ContentLine → Res α} {v w : List α} (h : named n ls = named n ls') (hv : IsPush ls n p v) (hw : IsPush ls' n p w) : v = w := by
  unfold IsPush at hv hw
  rw [h, hw] at hv
  exact (res_ok_inj hv).symm

theorem Spec.IsAppend.same {p : ContentLine → Res (List α)} {v w : List α} (h : named n ls = named n ls') (hv : IsAppend ls n p v) (hw : IsAppend ls' n p w) :
    v = w := by
  obtain ⟨a, h1, rfl⟩ := hv
  obtain ⟨b, h2, rfl⟩ := hw
  rw [h, h2] at h1
  rw [res_ok_inj h1]

theorem Spec.IsExt.kept {known : List Str} {sel : Str → Prop} {m m' : SMap ContentLine} (h : ∀ n, n ≠ k → named n ls = named n ls') (hv : IsExt known sel ls m)
    (hw : IsExt known sel ls' m') : ∀ n, n ≠ k → SMap.get? m n = SMap.get? m' n := by
  intro n hn
  by_cases hc : n ∉ known ∧ sel n
  · rw [hv.2.1 n hc.1 hc.2, hw.2.1 n hc.1 hc.2]; unfold lastNamed; rw [h n hn]
  · have : n ∈ known ∨ ¬ sel n := by
      by_cases hs : sel n
      · exact .inl (Classical.byContradiction fun hk => hc ⟨hk, hs⟩)
      · exact .inr hs
    rw [hv.2.2 n this, hw.2.2 n this]
end

variable [Platform]

theorem kept_Audio {k : Str} {ls ls' : List ContentLine} {v w : Audio} (h : ∀ n, n ≠ k → named n ls = named n ls')
    (hv : AudioFrom ls v) (hw : AudioFrom ls' w) : AllButProperty Audio.members k v w := by
  simp only [AllButProperty, Audio.members, List.forall_mem_cons]
  exact ⟨fun hk => IsReq.same (h c!"ACTION" hk) hv.action hw.action, fun hk => IsReq.same (h c!"TRIGGER" hk) hv.trigger hw.trigger, fun hk => IsOpt.same (h c!"DURATION" hk) hv.duration hw.duration, fun hk => IsOpt.same (h c!"REPEAT" hk) hv.repeat_ hw.repeat_, fun hk => IsPush.same (h c!"ATTACH" hk) hv.attach hw.attach, fun _ => IsExt.kept h hv.xProp hw.xProp, fun _ => IsExt.kept h hv.ianaProp hw.ianaProp, by simp⟩

theorem kept_Display {k : Str} {ls ls' : List ContentLine} {v w : Display} (h : ∀ n, n ≠ k → named n ls = named n ls')
    (hv : DisplayFrom ls v) (hw : DisplayFrom ls' w) : AllButProperty Display.members k v w := by
  simp only [AllButProperty, Display.members, List.forall_mem_cons]
  exact ⟨fun hk => IsReq.same (h c!"ACTION" hk) hv.action hw.action, fun hk => IsReq.same (h c!"TRIGGER" hk) hv.trigger hw.trigger, fun hk => IsReq.same (h c!"DESCRIPTION" hk) hv.description hw.description, fun hk => IsOpt.same (h c!"DURATION" hk) hv.duration hw.duration, fun hk => IsOpt.same (h c!"REPEAT" hk) hv.repeat_ hw.repeat_, fun _ => IsExt.kept h hv.xProp hw.xProp, fun _ => IsExt.kept h hv.ianaProp hw.ianaProp, by simp⟩

theorem kept_Email {k : Str} {ls ls' : List ContentLine} {v w : Email} (h : ∀ n, n ≠ k → named n ls = named n ls')
    (hv : EmailFrom ls v) (hw : EmailFrom ls' w) : AllButProperty Email.members k v w := by
  simp only [AllButProperty, Email.members, List.forall_mem_cons]
  exact ⟨fun hk => IsReq.same (h c!"ACTION" hk) hv.action hw.action, fun hk => IsReq.same (h c!"TRIGGER" hk) hv.trigger hw.trigger, fun hk => IsReq.same (h c!"DESCRIPTION" hk) hv.description hw.description, fun hk => IsReq.same (h c!"SUMMARY" hk) hv.summary hw.summary, fun hk => IsPush.same (h c!"ATTENDEE" hk) hv.attendee hw.attendee, fun hk => IsOpt.same (h c!"DURATION" hk) hv.duration hw.duration, fun hk => IsOpt.same (h c!"REPEAT" hk) hv.repeat_ hw.repeat_, fun hk => IsPush.same (h c!"ATTACH" hk) hv.attach hw.attach, fun _ => IsExt.kept h hv.xProp hw.xProp, fun _ => IsExt.kept h hv.ianaProp hw.ianaProp, by simp⟩

theorem kept_VEvent {k : Str} {ls ls' : List ContentLine} {v w : VEvent} (h : ∀ n, n ≠ k → named n ls = named n ls')
    (hv : VEventFrom ls v) (hw : VEventFrom ls' w) : AllButProperty VEvent.members k v w := by
  simp only [AllButProperty, VEvent.members, List.forall_mem_cons]
  exact ⟨fun hk => IsReq.same (h c!"DTSTAMP" hk) hv.dtstamp hw.dtstamp, fun hk => IsReq.same (h c!"UID" hk) hv.uid hw.uid, fun hk => IsReq.same (h c!"DTSTART" hk) hv.dtstart hw.dtstart, fun hk => IsOpt.same (h c!"CLASS" hk) hv.class_ hw.class_, fun hk => IsOpt.same (h c!"CREATED" hk) hv.created hw.created, fun hk => IsOpt.same (h c!"DESCRIPTION" hk) hv.description hw.description, fun hk => IsOpt.same (h c!"GEO" hk) hv.geo hw.geo, fun hk => IsOpt.same (h c!"LAST-MODIFIED" hk) hv.lastModified hw.lastModified, fun hk => IsOpt.same (h c!"LOCATION" hk) hv.location hw.location, fun hk => IsOpt.same (h c!"ORGANIZER" hk) hv.organizer hw.organizer, fun hk => IsOpt.same (h c!"PRIORITY" hk) hv.priority hw.priority, fun hk => IsOpt.same (h c!"SEQUENCE" hk) hv.sequence hw.sequence, fun hk => IsOpt.same (h c!"STATUS" hk) hv.status hw.status, fun hk => IsOpt.same (h c!"SUMMARY" hk) hv.summary hw.summary, fun hk => IsOpt.same (h c!"TRANSP" hk) hv.transp hw.transp, fun hk => IsOpt.same (h c!"URL" hk) hv.url hw.url, fun hk => IsOpt.same (h c!"RECURID" hk) hv.recurid hw.recurid, fun hk => IsOpt.same (h c!"RRULE" hk) hv.rrule hw.rrule, fun hk => IsOpt.same (h c!"DTEND" hk) hv.dtend hw.dtend, fun hk => IsOpt.same (h c!"DURATION" hk) hv.duration hw.duration, fun hk => IsPush.same (h c!"ATTACH" hk) hv.attach hw.attach, fun hk => IsPush.same (h c!"ATTENDEE" hk) hv.attendee hw.attendee, fun hk => IsAppend.same (h c!"CATEGORIES" hk) hv.categories hw.categories, fun hk => IsPush.same (h c!"COMMENT" hk) hv.comment hw.comment, fun hk => IsPush.same (h c!"CONTACT" hk) hv.contact hw.contact, fun hk => IsAppend.same (h c!"EXDATE" hk) hv.exdate hw.exdate, fun hk => IsPush.same (h c!"RSTATUS" hk) hv.rstatus hw.rstatus, fun hk => IsPush.same (h c!"RELATED-TO" hk) hv.relatedTo hw.relatedTo, fun hk => IsAppend.same (h c!"RESOURCES" hk) hv.resources hw.resources, fun hk => IsPush.same (h c!"RDATE" hk) hv.rdate hw.rdate, fun _ => hv.alarms.trans hw.alarms.symm, fun _ => IsExt.kept h hv.xProp hw.xProp, fun _ => IsExt.kept h hv.ianaProp hw.ianaProp, by simp⟩

theorem kept_VFreebusy {k : Str} {ls ls' : List ContentLine} {v w : VFreebusy} (h : ∀ n, n ≠ k → named n ls = named n ls')
    (hv : VFreebusyFrom ls v) (hw : VFreebusyFrom ls' w) : AllButProperty VFreebusy.members k v w := by
  simp only [AllButProperty, VFreebusy.members, List.forall_mem_cons]
  exact ⟨fun hk => IsReq.same (h c!"DTSTAMP" hk) hv.dtstamp hw.dtstamp, fun hk => IsReq.same (h c!"UID" hk) hv.uid hw.uid, fun hk => IsOpt.same (h c!"CONTACT" hk) hv.contact hw.contact, fun hk => IsOpt.same (h c!"DTSTART" hk) hv.dtstart hw.dtstart, fun hk => IsOpt.same (h c!"DTEND" hk) hv.dtend hw.dtend, fun hk => IsOpt.same (h c!"ORGANIZER" hk) hv.organizer hw.organizer, fun hk => IsOpt.same (h c!"URL" hk) hv.url hw.url, fun hk => IsPush.same (h c!"ATTENDEE" hk) hv.attendee hw.attendee, fun hk => IsPush.same (h c!"COMMENT" hk) hv.comment hw.comment, fun hk => IsAppend.same (h c!"FREEBUSY" hk) hv.freebusy hw.freebusy, fun hk => IsPush.same (h c!"RSTATUS" hk) hv.rstatus hw.rstatus, fun _ => IsExt.kept h hv.xProp hw.xProp, fun _ => IsExt.kept h hv.ianaProp hw.ianaProp, by simp⟩

theorem kept_VJournal {k : Str} {ls ls' : List ContentLine} {v w : VJournal} (h : ∀ n, n ≠ k → named n ls = named n ls')
    (hv : VJournalFrom ls v) (hw : VJournalFrom ls' w) : AllButProperty VJournal.members k v w := by
  simp only [AllButProperty, VJournal.members, List.forall_mem_cons]
  exact ⟨fun hk => IsReq.same (h c!"DTSTAMP" hk) hv.dtstamp hw.dtstamp, fun hk => IsReq.same (h c!"UID" hk) hv.uid hw.uid, fun hk => IsOpt.same (h c!"CLASS" hk) hv.class_ hw.class_, fun hk => IsOpt.same (h c!"CREATED" hk) hv.created hw.created, fun hk => IsReq.same (h c!"DTSTART" hk) hv.dtstart hw.dtstart, fun hk => IsOpt.same (h c!"LAST-MODIFIED" hk) hv.lastModified hw.lastModified, fun hk => IsOpt.same (h c!"ORGANIZER" hk) hv.organizer hw.organizer, fun hk => IsOpt.same (h c!"RECURID" hk) hv.recurid hw.recurid, fun hk => IsOpt.same (h c!"SEQUENCE" hk) hv.sequence hw.sequence, fun hk => IsOpt.same (h c!"STATUS" hk) hv.status hw.status, fun hk => IsOpt.same (h c!"SUMMARY" hk) hv.summary hw.summary, fun hk => IsOpt.same (h c!"URL" hk) hv.url hw.url, fun hk => IsOpt.same (h c!"RRULE" hk) hv.rrule hw.rrule, fun hk => IsPush.same (h c!"ATTACH" hk) hv.attach hw.attach, fun hk => IsPush.same (h c!"ATTENDEE" hk) hv.attendee hw.attendee, fun hk => IsAppend.same (h c!"CATEGORIES" hk) hv.categories hw.categories, fun hk => IsPush.same (h c!"COMMENT" hk) hv.comment hw.comment, fun hk => IsPush.same (h c!"CONTACT" hk) hv.contact hw.contact, fun hk => IsPush.same (h c!"DESCRIPTION" hk) hv.description hw.description, fun hk => IsAppend.same (h c!"EXDATE" hk) hv.exdate hw.exdate, fun hk => IsPush.same (h c!"RELATED-TO" hk) hv.relatedTo hw.relatedTo, fun hk => IsPush.same (h c!"RDATE" hk) hv.rdate hw.rdate, fun hk => IsPush.same (h c!"RSTATUS" hk) hv.rstatus hw.rstatus, fun _ => IsExt.kept h hv.xProp hw.xProp, fun _ => IsExt.kept h hv.ianaProp hw.ianaProp, by simp⟩

theorem kept_Standard {k : Str} {ls ls' : List ContentLine} {v w : Standard} (h : ∀ n, n ≠ k → named n ls = named n ls')
    (hv : StandardFrom ls v) (hw : StandardFrom ls' w) : AllButProperty Standard.members k v w := by
  simp only [AllButProperty, Standard.members, List.forall_mem_cons]
  exact ⟨fun hk => IsReq.same (h c!"DTSTART" hk) hv.dtstart hw.dtstart, fun hk => IsReq.same (h c!"TZOFFSETTO" hk) hv.tzoffsetto hw.tzoffsetto, fun hk => IsReq.same (h c!"TZOFFSETFROM" hk) hv.tzoffsetfrom hw.tzoffsetfrom, fun hk => IsOpt.same (h c!"RRULE" hk) hv.rrule hw.rrule, fun hk => IsPush.same (h c!"COMMENT" hk) hv.comment hw.comment, fun hk => IsPush.same (h c!"RDATE" hk) hv.rdate hw.rdate, fun hk => IsPush.same (h c!"TZNAME" hk) hv.tzname hw.tzname, fun _ => IsExt.kept h hv.xProp hw.xProp, fun _ => IsExt.kept h hv.ianaProp hw.ianaProp, by simp⟩

theorem kept_Daylight {k : Str} {ls ls' : List ContentLine} {v w : Daylight} (h : ∀ n, n ≠ k → named n ls = named n ls')
    (hv : DaylightFrom ls v) (hw : DaylightFrom ls' w) : AllButProperty Daylight.members k v w := by
  simp only [AllButProperty, Daylight.members, List.forall_mem_cons]
  exact ⟨fun hk => IsReq.same (h c!"DTSTART" hk) hv.dtstart hw.dtstart, fun hk => IsReq.same (h c!"TZOFFSETTO" hk) hv.tzoffsetto hw.tzoffsetto, fun hk => IsReq.same (h c!"TZOFFSETFROM" hk) hv.tzoffsetfrom hw.tzoffsetfrom, fun hk => IsOpt.same (h c!"RRULE" hk) hv.rrule hw.rrule, fun hk => IsPush.same (h c!"COMMENT" hk) hv.comment hw.comment, fun hk => IsPush.same (h c!"RDATE" hk) hv.rdate hw.rdate, fun hk => IsPush.same (h c!"TZNAME" hk) hv.tzname hw.tzname, fun _ => IsExt.kept h hv.xProp hw.xProp, fun _ => IsExt.kept h hv.ianaProp hw.ianaProp, by simp⟩

theorem kept_VTimezone {k : Str} {ls ls' : List ContentLine} {v w : VTimezone} (h : ∀ n, n ≠ k → named n ls = named n ls')
    (hv : VTimezoneFrom ls v) (hw : VTimezoneFrom ls' w) : AllButProperty VTimezone.members k v w := by
  simp only [AllButProperty, VTimezone.members, List.forall_mem_cons]
  exact ⟨fun hk => IsReq.same (h c!"TZID" hk) hv.tzid hw.tzid, fun hk => IsOpt.same (h c!"LAST-MODIFIED" hk) hv.lastModified hw.lastModified, fun hk => IsOpt.same (h c!"TZURL" hk) hv.tzurl hw.tzurl, fun _ => hv.standard.trans hw.standard.symm, fun _ => hv.daylight.trans hw.daylight.symm, fun _ => IsExt.kept h hv.xProp hw.xProp, fun _ => IsExt.kept h hv.ianaProp hw.ianaProp, by simp⟩

theorem kept_VTodo {k : Str} {ls ls' : List ContentLine} {v w : VTodo} (h : ∀ n, n ≠ k → named n ls = named n ls')
    (hv : VTodoFrom ls v) (hw : VTodoFrom ls' w) : AllButProperty VTodo.members k v w := by
  simp only [AllButProperty, VTodo.members, List.forall_mem_cons]
  exact ⟨fun hk => IsReq.same (h c!"DTSTAMP" hk) hv.dtstamp hw.dtstamp, fun hk => IsReq.same (h c!"UID" hk) hv.uid hw.uid, fun hk => IsOpt.same (h c!"CLASS" hk) hv.class_ hw.class_, fun hk => IsOpt.same (h c!"COMPLETED" hk) hv.completed hw.completed, fun hk => IsOpt.same (h c!"CREATED" hk) hv.created hw.created, fun hk => IsOpt.same (h c!"DTSTART" hk) hv.dtstart hw.dtstart, fun hk => IsOpt.same (h c!"GEO" hk) hv.geo hw.geo, fun hk => IsOpt.same (h c!"LAST-MODIFIED" hk) hv.lastModified hw.lastModified, fun hk => IsOpt.same (h c!"LOCATION" hk) hv.location hw.location, fun hk => IsOpt.same (h c!"ORGANIZER" hk) hv.organizer hw.organizer, fun hk => IsOpt.same (h c!"PERCENT-COMPLETE" hk) hv.percentComplete hw.percentComplete, fun hk => IsOpt.same (h c!"PRIORITY" hk) hv.priority hw.priority, fun hk => IsOpt.same (h c!"RECURID" hk) hv.recurid hw.recurid, fun hk => IsOpt.same (h c!"SEQUENCE" hk) hv.sequence hw.sequence, fun hk => IsOpt.same (h c!"STATUS" hk) hv.status hw.status, fun hk => IsOpt.same (h c!"SUMMARY" hk) hv.summary hw.summary, fun hk => IsOpt.same (h c!"URL" hk) hv.url hw.url, fun hk => IsOpt.same (h c!"RRULE" hk) hv.rrule hw.rrule, fun hk => IsOpt.same (h c!"DUE" hk) hv.due hw.due, fun hk => IsOpt.same (h c!"DURATION" hk) hv.duration hw.duration, fun hk => IsPush.same (h c!"ATTACH" hk) hv.attach hw.attach, fun hk => IsPush.same (h c!"ATTENDEE" hk) hv.attendee hw.attendee, fun hk => IsAppend.same (h c!"CATEGORIES" hk) hv.categories hw.categories, fun hk => IsPush.same (h c!"COMMENT" hk) hv.comment hw.comment, fun hk => IsPush.same (h c!"CONTACT" hk) hv.contact hw.contact, fun hk => IsAppend.same (h c!"EXDATE" hk) hv.exdate hw.exdate, fun hk => IsPush.same (h c!"RSTATUS" hk) hv.rstatus hw.rstatus, fun hk => IsPush.same (h c!"RELATED-TO" hk) hv.relatedTo hw.relatedTo, fun hk => IsAppend.same (h c!"RESOURCES" hk) hv.resources hw.resources, fun hk => IsPush.same (h c!"RDATE" hk) hv.rdate hw.rdate, fun _ => IsExt.kept h hv.xProp hw.xProp, fun _ => IsExt.kept h hv.ianaProp hw.ianaProp, by simp⟩

theorem kept_VCalendar {k : Str} {ls ls' : List ContentLine} {v w : VCalendar} (h : ∀ n, n ≠ k → named n ls = named n ls')
    (hv : VCalendarFrom ls v) (hw : VCalendarFrom ls' w) : AllButProperty VCalendar.members k v w := by
  simp only [AllButProperty, VCalendar.members, List.forall_mem_cons]
  exact ⟨fun hk => IsReq.same (h c!"PRODID" hk) hv.prodid hw.prodid, fun hk => IsReq.same (h c!"VERSION" hk) hv.version hw.version, fun hk => IsOpt.same (h c!"CALSCALE" hk) hv.calscale hw.calscale, fun hk => IsOpt.same (h c!"METHOD" hk) hv.method hw.method, fun _ => hv.alarms.trans hw.alarms.symm, fun _ => hv.events.trans hw.events.symm, fun _ => hv.freebusy.trans hw.freebusy.symm, fun _ => hv.journals.trans hw.journals.symm, fun _ => hv.todo.trans hw.todo.symm, fun _ => hv.timezones.trans hw.timezones.symm, fun _ => IsExt.kept h hv.xProp hw.xProp, fun _ => IsExt.kept h hv.ianaProp hw.ianaProp, by simp⟩

theorem kept_VAlarm {k : Str} {ls ls' : List ContentLine} {v w : VAlarm} (hk : k ≠ c!"ACTION") (ha : firstAction ls = firstAction ls')
    (h : ∀ n, n ≠ k → named n ls = named n ls') (hv : VAlarmFrom ls v) (hw : VAlarmFrom ls' w) : AlarmAllBut k v w := by
  have no : ∀ {a b : Str}, firstAction ls = some a → firstAction ls' = some b → a ≠ b → False := fun h1 h2 h3 => by
    rw [ha, h2] at h1; injection h1 with h1; exact h3 h1.symm
  cases v <;> cases w <;> obtain ⟨h1, h2⟩ := hv <;> obtain ⟨h1', h2'⟩ := hw
  · exact kept_Audio h h2 h2'
  · exact no h1 h1' (by decide)
  · exact no h1 h1' (by decide)
  · exact no h1 h1' (by decide)
  · exact kept_Display h h2 h2'
  · exact no h1 h1' (by decide)
  · exact no h1 h1' (by decide)
  · exact no h1 h1' (by decide)
  · exact kept_Email h h2 h2'

/-! ## Each tree says one thing -/

theorem tree_means_unique (l : Line) (c c' : ContentLine) (h : Means l c) (h' : Means l c') : c = c' := by
  obtain ⟨h1, h2, h3, h4⟩ := h
  obtain ⟨h1', h2', h3', h4'⟩ := h'
  have : c.params = c'.params := SMap.ext h3 h3' fun k => (h4 k).trans (h4' k).symm
  cases c; cases c'
  simp_all

theorem pairs_unique {α β : Type} {R : α → β → Prop} (hR : ∀ a b b', R a b → R a b' → b = b') {as : List α} {bs bs' : List β} (h : Pairs R as bs)
    (h' : Pairs R as bs') : bs = bs' := by
  induction h generalizing bs' with
  | nil => cases h'; rfl
  | cons h1 _ ih => cases h' with | cons h2 h3 => rw [hR _ _ _ h1 h2, ih h3]

theorem pairs_split {α β : Type} {R : α → β → Prop} {as as' : List α} {bs : List β} (h : Pairs R (as ++ as') bs) :
    ∃ x y, bs = x ++ y ∧ Pairs R as x ∧ Pairs R as' y := by
  induction as generalizing bs with
  | nil => exact ⟨[], bs, rfl, .nil, h⟩
  | cons a as ih =>
    cases h with
    | cons h1 h2 =>
      obtain ⟨x, y, rfl, h3, h4⟩ := ih h2
      exact ⟨_, y, rfl, .cons h1 h3, h4⟩

theorem named_pairs {lines : List Line} {ls : List ContentLine} (h : Pairs Means lines ls) (n : Str) :
    Pairs Means (lines.filter fun l => l.name = n) (named n ls) := by
  induction h with
  | nil => exact .nil
  | @cons l c _ _ h1 _ ih =>
    simp only [named, List.filter_cons, h1.1]
    by_cases e : l.name = n
    · simp only [e, decide_true, if_true]; exact .cons h1 ih
    · simp only [e, decide_false]; exact ih

theorem named_only {k : Str} {lines lines' : List Line} (ho : OnlyLines k lines lines') {ls ls' : List ContentLine} (h : Pairs Means lines ls) (h' : Pairs Means lines' ls') :
    ∀ n, n ≠ k → named n ls = named n ls' := by
  intro n hn
  have h1 := named_pairs h n
  have h2 := named_pairs h' n
  rw [ho n hn] at h1
  exact pairs_unique tree_means_unique h1 h2

theorem firstAction_only {k : Str} {ls ls' : List ContentLine} (hk : k ≠ c!"ACTION") (h : ∀ n, n ≠ k → named n ls = named n ls') : firstAction ls = firstAction ls' := by
  unfold firstAction; rw [h _ (Ne.symm hk)]

theorem from_unique_Audio (ls : List ContentLine) (v w : Audio) (h : AudioFrom ls v) (h' : AudioFrom ls w) : v = w := by
  rw [← C14_Audio_iff] at h h'
  rw [h] at h'
  injection h'

theorem from_unique_Display (ls : List ContentLine) (v w : Display) (h : DisplayFrom ls v) (h' : DisplayFrom ls w) : v = w := by
  rw [← C14_Display_iff] at h h'
  rw [h] at h'
  injection h'

theorem from_unique_Email (ls : List ContentLine) (v w : Email) (h : EmailFrom ls v) (h' : EmailFrom ls w) : v = w := by
  rw [← C14_Email_iff] at h h'
  rw [h] at h'
  injection h'

theorem from_unique_VEvent (ls : List ContentLine) (v w : VEvent) (h : VEventFrom ls v) (h' : VEventFrom ls w) : v = w := by
  rw [← C14_VEvent_iff] at h h'
  rw [h] at h'
  injection h'

theorem from_unique_VFreebusy (ls : List ContentLine) (v w : VFreebusy) (h : VFreebusyFrom ls v) (h' : VFreebusyFrom ls w) : v = w := by
  rw [← C14_VFreebusy_iff] at h h'
  rw [h] at h'
  injection h'

theorem from_unique_VJournal (ls : List ContentLine) (v w : VJournal) (h : VJournalFrom ls v) (h' : VJournalFrom ls w) : v = w := by
  rw [← C14_VJournal_iff] at h h'
  rw [h] at h'
  injection h'

theorem from_unique_Standard (ls : List ContentLine) (v w : Standard) (h : StandardFrom ls v) (h' : StandardFrom ls w) : v = w := by
  rw [← C14_Standard_iff] at h h'
  rw [h] at h'
  injection h'

theorem from_unique_Daylight (ls : List ContentLine) (v w : Daylight) (h : DaylightFrom ls v) (h' : DaylightFrom ls w) : v = w := by
  rw [← C14_Daylight_iff] at h h'
  rw [h] at h'
  injection h'

theorem from_unique_VTimezone (ls : List ContentLine) (v w : VTimezone) (h : VTimezoneFrom ls v) (h' : VTimezoneFrom ls w) : v = w := by
  rw [← C14_VTimezone_iff] at h h'
  rw [h] at h'
  injection h'

theorem from_unique_VTodo (ls : List ContentLine) (v w : VTodo) (h : VTodoFrom ls v) (h' : VTodoFrom ls w) : v = w := by
  rw [← C14_VTodo_iff] at h h'
  rw [h] at h'
  injection h'

theorem from_unique_VCalendar (ls : List ContentLine) (v w : VCalendar) (h : VCalendarFrom ls v) (h' : VCalendarFrom ls w) : v = w := by
  rw [← C14_VCalendar_iff] at h h'
  rw [h] at h'
  injection h'

theorem from_unique_VAlarm (ls : List ContentLine) (v w : VAlarm) (hv : VAlarmFrom ls v) (hw : VAlarmFrom ls w) : v = w := by
  have no : ∀ {a b : Str}, firstAction ls = some a → firstAction ls = some b → a ≠ b → False := fun h1 h2 h3 => by
    rw [h2] at h1; injection h1 with h1; exact h3 h1.symm
  cases v <;> cases w <;> obtain ⟨h1, h2⟩ := hv <;> obtain ⟨h1', h2'⟩ := hw
  · rw [from_unique_Audio ls _ _ h2 h2']
  · exact (no h1 h1' (by decide)).elim
  · exact (no h1 h1' (by decide)).elim
  · exact (no h1 h1' (by decide)).elim
  · rw [from_unique_Display ls _ _ h2 h2']
  · exact (no h1 h1' (by decide)).elim
  · exact (no h1 h1' (by decide)).elim
  · exact (no h1 h1' (by decide)).elim
  · rw [from_unique_Email ls _ _ h2 h2']

theorem leaf_unique {α : Type} {name : Str} {From : List ContentLine → α → Prop} (hF : ∀ ls v w, From ls v → From ls w → v = w) (t : Tree) (v w : α)
    (h : IsLeaf name From t v) (h' : IsLeaf name From t w) : v = w := by
  obtain ⟨lines, ls, rfl, h1, h2⟩ := h
  obtain ⟨lines', ls', e, h1', h2'⟩ := h'
  injection e with _ e _
  subst e
  rw [pairs_unique tree_means_unique h1 h1'] at h2
  exact hF _ _ _ h2 h2'

theorem alarm_unique (t : Tree) (v w : VAlarm) (h : IsLeaf c!"VALARM" Full.VAlarmFrom t v) (h' : IsLeaf c!"VALARM" Full.VAlarmFrom t w) : v = w :=
  leaf_unique (full_VAlarm ▸ from_unique_VAlarm) t v w h h'

theorem event_unique (t : Tree) (v w : VEvent) (h : IsEvent t v) (h' : IsEvent t w) : v = w := by
  obtain ⟨lines, ls, parts, rfl, h1, h2, h3⟩ := h
  obtain ⟨lines', ls', parts', e, h1', h2', h3'⟩ := h'
  injection e with _ e e'
  subst e e'
  rw [pairs_unique tree_means_unique h1 h1', ← full_VEvent] at h2
  rw [← full_VEvent] at h2'
  have e1 := from_unique_VEvent _ _ _ h2 h2'
  have e2 := pairs_unique alarm_unique h3 h3'
  cases v; cases w
  simp_all

theorem tzPart_unique (t : Tree) (v w : TzPart) (h : IsTzPart t v) (h' : IsTzPart t w) : v = w := by
  cases v <;> cases w
  · rw [leaf_unique (full_Standard ▸ from_unique_Standard) t _ _ h h']
  · obtain ⟨_, _, rfl, _⟩ := h; obtain ⟨_, _, e, _⟩ := h'; injection e with e; exact absurd e (by decide)
  · obtain ⟨_, _, rfl, _⟩ := h; obtain ⟨_, _, e, _⟩ := h'; injection e with e; exact absurd e (by decide)
  · rw [leaf_unique (full_Daylight ▸ from_unique_Daylight) t _ _ h h']

theorem timezone_unique (t : Tree) (v w : VTimezone) (h : IsTimezone t v) (h' : IsTimezone t w) : v = w := by
  obtain ⟨lines, ls, parts, ps, rfl, h1, h2, h3, h4, h5⟩ := h
  obtain ⟨lines', ls', parts', ps', e, h1', h2', h3', h4', h5'⟩ := h'
  injection e with _ e e'
  subst e e'
  rw [pairs_unique tree_means_unique h1 h1', ← full_VTimezone] at h2
  rw [← full_VTimezone] at h2'
  have e1 := from_unique_VTimezone _ _ _ h2 h2'
  have e2 := pairs_unique tzPart_unique h3 h3'
  cases v; cases w
  simp_all

/-- The name of the tree of a component. -/
def kindName : Component → Str
  | .alarm _ => c!"VALARM" | .event _ => c!"VEVENT" | .freebusy _ => c!"VFREEBUSY" | .journal _ => c!"VJOURNAL" | .timezone _ => c!"VTIMEZONE" | .todo _ => c!"VTODO"

theorem kind_name {t : Tree} {v : Component} (h : IsComponent t v) : ∃ lines parts, t = .mk (kindName v) lines parts := by
  cases v with
  | alarm c => obtain ⟨lines, _, rfl, _⟩ := h; exact ⟨lines, _, rfl⟩
  | event c => obtain ⟨lines, _, parts, rfl, _⟩ := h; exact ⟨lines, _, rfl⟩
  | freebusy c => obtain ⟨lines, _, rfl, _⟩ := h; exact ⟨lines, _, rfl⟩
  | journal c => obtain ⟨lines, _, rfl, _⟩ := h; exact ⟨lines, _, rfl⟩
  | timezone c => obtain ⟨lines, _, parts, _, rfl, _⟩ := h; exact ⟨lines, _, rfl⟩
  | todo c => obtain ⟨lines, _, rfl, _⟩ := h; exact ⟨lines, _, rfl⟩

theorem component_unique (t : Tree) (v w : Component) (h : IsComponent t v) (h' : IsComponent t w) : v = w := by
  have hn : kindName v = kindName w := by
    obtain ⟨_, _, rfl⟩ := kind_name h
    obtain ⟨_, _, e⟩ := kind_name h'
    injection e
  cases v <;> cases w <;> first | exact absurd hn (by simp only [kindName]; decide) | skip
  · rw [alarm_unique t _ _ h h']
  · rw [event_unique t _ _ h h']
  · rw [leaf_unique (full_VFreebusy ▸ from_unique_VFreebusy) t _ _ h h']
  · rw [leaf_unique (full_VJournal ▸ from_unique_VJournal) t _ _ h h']
  · rw [timezone_unique t _ _ h h']
  · rw [leaf_unique (full_VTodo ▸ from_unique_VTodo) t _ _ h h']

/-! ## One place -/

theorem pairs_place {α β : Type} {R : α → β → Prop} (hR : ∀ a b b', R a b → R a b' → b = b') {a p p' b : List α} {as bs : List β} (h : Pairs R (a ++ p ++ b) as)
    (h' : Pairs R (a ++ p' ++ b) bs) : OnePlace (Pairs R p) (Pairs R p') as bs := by
  obtain ⟨u, y, rfl, h1, hy⟩ := pairs_split h
  obtain ⟨x, q, rfl, hx, hq⟩ := pairs_split h1
  obtain ⟨u', y', rfl, h1', hy'⟩ := pairs_split h'
  obtain ⟨x', q', rfl, hx', hq'⟩ := pairs_split h1'
  rw [pairs_unique hR hx hx', pairs_unique hR hy hy']
  exact ⟨x', q, q', y', rfl, rfl, hq, hq'⟩

theorem place_map {β γ : Type} {P P' : List β → Prop} {as bs : List β} (h : OnePlace P P' as bs) (f : List β → List γ) (hf : ∀ x y, f (x ++ y) = f x ++ f y) :
    OnePlace (fun as => ∃ q, P q ∧ as = f q) (fun as => ∃ q, P' q ∧ as = f q) (f as) (f bs) := by
  obtain ⟨x, p, p', y, rfl, rfl, h1, h2⟩ := h
  exact ⟨f x, f p, f p', f y, by simp [hf], by simp [hf], ⟨p, h1, rfl⟩, p', h2, rfl⟩

end Ikal
