import Verif.Spec.Reading
import Verif.Props.Grammar
import Verif.Props.Component
import Verif.Props.Names
import Verif.TestPlatform

/-!
# C76: reading, from the text to the values
-/

set_option linter.unusedSectionVars false

namespace Ikal

open Nom Spec

theorem unfolds_iff {s u : Str} : Full.Unfolds s u ↔ unfold s = u := by
  constructor
  · intro h
    induction h with
    | nil => rfl
    | fold _ ih => simpa [unfold] using ih
    | @keep c r u hn _ ih =>
      rw [← ih]
      conv => lhs; unfold unfold
      split
      · next h => cases h
      · next r' h => simp at h; obtain ⟨rfl, rfl⟩ := h; simp at hn
      · next h => cases h; rfl
  · rintro rfl
    induction s using unfold.induct with
    | case1 => exact .nil
    | case2 r ih => simpa [unfold] using Full.Unfolds.fold ih
    | case3 c r h ih =>
      have : unfold (c :: r) = c :: unfold r := by
        conv => lhs; unfold unfold
        split
        · next e => cases e
        · next r' e => cases e; exact (h _ rfl rfl).elim
        · next e => cases e; rfl
      rw [this]
      refine .keep (fun hp => ?_) ih
      obtain ⟨t, ht⟩ := hp
      simp at ht
      obtain ⟨rfl, rfl⟩ := ht
      exact h t rfl rfl

section
variable [Platform]

/-! ## The value of one line -/

/-- `p` reads exactly the lines that `R` describes. -/
def ReadsAs {α : Type} (p : ContentLine → Res α) (R : ContentLine → α → Prop) : Prop := ∀ l v, p l = .ok v ↔ R l v

theorem reads_text : ReadsAs textProp Full.TextLine := fun l v => by
  unfold textProp Full.TextLine Text.ofLine
  cases v; simp [eq_comm, and_comm]

theorem reads_uri : ReadsAs uriProp Full.UriLine := fun l v => by
  unfold uriProp Full.UriLine Uri.ofLine
  cases v; simp [eq_comm, and_comm]

theorem reads_class : ReadsAs classProp Full.ClassLine := fun l v => by
  unfold classProp Full.ClassLine
  rw [C25_read]
  cases v <;> simp only [Res.ok.injEq]
  all_goals grind

theorem reads_trigger : ReadsAs trigger Full.TriggerLine := fun l v => by
  cases v with
  | duration d => exact ((C70_trigger l).1 d).trans (C70_duration l d)
  | dateTime t => exact ((C70_trigger l).2 t).trans (C70_date_time_value l t)

theorem reads_rdate : ReadsAs rdate Full.RDateLine := fun l v => by
  rw [(C70_lists l).2.2.1]
  unfold Full.RDateLine
  cases v <;> simp

theorem reads_date : ReadsAs dateProp Full.DateLine := C70_date_value
theorem reads_dateTime : ReadsAs dateTimeProp Full.DateTimeLine := C70_date_time_value
theorem reads_dates : ReadsAs exdate Full.DatesLine := fun l v => (C70_lists l).2.1 v
theorem reads_periods : ReadsAs freebusy Full.PeriodsLine := fun l v => (C70_lists l).1 v
theorem reads_texts : ReadsAs textListProp Full.TextsLine := fun l v => (C70_lists l).2.2.2 v
theorem reads_duration : ReadsAs duration Full.DurationLine := C70_duration
theorem reads_geo : ReadsAs geo Full.GeoLine := C70_geo
theorem reads_percent : ReadsAs percentComplete Full.PercentLine := C27_u8
theorem reads_priority : ReadsAs priority Full.PriorityLine := C26_priority
theorem reads_number : ReadsAs u32Prop Full.NumberLine := C27_u32
theorem reads_rule : ReadsAs rrule Full.RuleLine := C30_meaning
theorem reads_status : ReadsAs status Full.StatusLine := fun l v => (C23_status l.value).1 v
theorem reads_transparency : ReadsAs transp Full.TransparencyLine := fun l v => (C23_transparency l.value).1 v
theorem reads_rstatus : ReadsAs rstatus Full.RequestStatusLine := C70_request_status
theorem reads_offset : ReadsAs offsetProp Full.OffsetLine := C70_offset

/-! ## The values of the lines of one name -/

theorem ReadsAs.req {α : Type} {p : ContentLine → Res α} {R : ContentLine → α → Prop} (h : ReadsAs p R) {ls : List ContentLine} {n : Str}
    {v : α} : IsReq ls n p v ↔ Full.Last ls n R v := by
  unfold IsReq Full.Last
  simp only [h _ _]

theorem ReadsAs.opt {α : Type} {p : ContentLine → Res α} {R : ContentLine → α → Prop} (h : ReadsAs p R) {ls : List ContentLine} {n : Str}
    {v : Option α} : IsOpt ls n p v ↔ Full.LastIfAny ls n R v := by
  unfold IsOpt Full.LastIfAny
  cases lastNamed n ls <;> simp [h _ _]

theorem map_ok_all2 {α : Type} {p : ContentLine → Res α} {R : ContentLine → α → Prop} (h : ReadsAs p R) {ls : List ContentLine} {vs :
    List α} :
    ls.map p = vs.map .ok ↔ All2 R ls vs := by
  induction ls generalizing vs with
  | nil =>
    cases vs with
    | nil => simp; exact .nil
    | cons v vs => simp; intro h; cases h
  | cons l ls ih =>
    cases vs with
    | nil => simp; intro h; cases h
    | cons v vs =>
      simp only [List.map_cons, List.cons.injEq, ih, h l v]
      exact ⟨fun ⟨a, b⟩ => .cons a b, fun x => by cases x with | cons a b => exact ⟨a, b⟩⟩

theorem ReadsAs.push {α : Type} {p : ContentLine → Res α} {R : ContentLine → α → Prop} (h : ReadsAs p R) {ls : List ContentLine} {n : Str}
    {vs : List α} : IsPush ls n p vs ↔ Full.Each ls n R vs := map_ok_all2 h

theorem ReadsAs.append {α : Type} {p : ContentLine → Res (List α)} {R : ContentLine → List α → Prop} (h : ReadsAs p R)
    {ls : List ContentLine} {n : Str} {vs : List α} : IsAppend ls n p vs ↔ Full.All ls n R vs := by
  unfold IsAppend Full.All
  simp only [map_ok_all2 h]

/-! ## The properties of each component -/

theorem full_Audio : AudioFrom = Full.AudioFrom := by
  funext ls v
  refine propext ⟨fun ⟨a0, a1, a2, a3, a4, a5, a6⟩ => ⟨reads_text.req.1 a0, reads_trigger.req.1 a1, reads_duration.opt.1 a2,
    reads_number.opt.1 a3, reads_text.push.1 a4, a5, a6⟩, fun ⟨a0, a1, a2, a3, a4, a5, a6⟩ => ⟨reads_text.req.2 a0, reads_trigger.req.2
    a1, reads_duration.opt.2 a2, reads_number.opt.2 a3, reads_text.push.2 a4, a5, a6⟩⟩

theorem full_Display : DisplayFrom = Full.DisplayFrom := by
  funext ls v
  refine propext ⟨fun ⟨a0, a1, a2, a3, a4, a5, a6⟩ => ⟨reads_text.req.1 a0, reads_trigger.req.1 a1, reads_text.req.1 a2,
    reads_duration.opt.1 a3, reads_number.opt.1 a4, a5, a6⟩, fun ⟨a0, a1, a2, a3, a4, a5, a6⟩ => ⟨reads_text.req.2 a0,
    reads_trigger.req.2 a1, reads_text.req.2 a2, reads_duration.opt.2 a3, reads_number.opt.2 a4, a5, a6⟩⟩

theorem full_Email : EmailFrom = Full.EmailFrom := by
  funext ls v
  refine propext ⟨fun ⟨a0, a1, a2, a3, a4, a5, a6, a7, a8, a9⟩ => ⟨reads_text.req.1 a0, reads_trigger.req.1 a1, reads_text.req.1 a2,
    reads_text.req.1 a3, reads_uri.push.1 a4, reads_duration.opt.1 a5, reads_number.opt.1 a6, reads_text.push.1 a7, a8, a9⟩, fun ⟨a0, a1,
    a2, a3, a4, a5, a6, a7, a8, a9⟩ => ⟨reads_text.req.2 a0, reads_trigger.req.2 a1, reads_text.req.2 a2, reads_text.req.2 a3,
    reads_uri.push.2 a4, reads_duration.opt.2 a5, reads_number.opt.2 a6, reads_text.push.2 a7, a8, a9⟩⟩

theorem full_VEvent : VEventFrom = Full.VEventFrom := by
  funext ls v
  refine propext ⟨fun ⟨a0, a1, a2, a3, a4, a5, a6, a7, a8, a9, a10, a11, a12, a13, a14, a15, a16, a17, a18, a19, a20, a21, a22, a23, a24,
    a25, a26, a27, a28, a29, a30, a31, a32⟩ => ⟨reads_dateTime.req.1 a0, reads_text.req.1 a1, reads_date.req.1 a2, reads_class.opt.1 a3,
    reads_dateTime.opt.1 a4, reads_text.opt.1 a5, reads_geo.opt.1 a6, reads_dateTime.opt.1 a7, reads_text.opt.1 a8, reads_uri.opt.1 a9,
    reads_priority.opt.1 a10, reads_number.opt.1 a11, reads_status.opt.1 a12, reads_text.opt.1 a13, reads_transparency.opt.1 a14,
    reads_uri.opt.1 a15, reads_date.opt.1 a16, reads_rule.opt.1 a17, reads_date.opt.1 a18, reads_duration.opt.1 a19, reads_text.push.1
    a20, reads_uri.push.1 a21, reads_texts.append.1 a22, reads_text.push.1 a23, reads_text.push.1 a24, reads_dates.append.1 a25,
    reads_rstatus.push.1 a26, reads_text.push.1 a27, reads_texts.append.1 a28, reads_rdate.push.1 a29, a30, a31, a32⟩, fun ⟨a0, a1, a2,
    a3, a4, a5, a6, a7, a8, a9, a10, a11, a12, a13, a14, a15, a16, a17, a18, a19, a20, a21, a22, a23, a24, a25, a26, a27, a28, a29, a30,
    a31, a32⟩ => ⟨reads_dateTime.req.2 a0, reads_text.req.2 a1, reads_date.req.2 a2, reads_class.opt.2 a3, reads_dateTime.opt.2 a4,
    reads_text.opt.2 a5, reads_geo.opt.2 a6, reads_dateTime.opt.2 a7, reads_text.opt.2 a8, reads_uri.opt.2 a9, reads_priority.opt.2 a10,
    reads_number.opt.2 a11, reads_status.opt.2 a12, reads_text.opt.2 a13, reads_transparency.opt.2 a14, reads_uri.opt.2 a15,
    reads_date.opt.2 a16, reads_rule.opt.2 a17, reads_date.opt.2 a18, reads_duration.opt.2 a19, reads_text.push.2 a20, reads_uri.push.2
    a21, reads_texts.append.2 a22, reads_text.push.2 a23, reads_text.push.2 a24, reads_dates.append.2 a25, reads_rstatus.push.2 a26,
    reads_text.push.2 a27, reads_texts.append.2 a28, reads_rdate.push.2 a29, a30, a31, a32⟩⟩

theorem full_VFreebusy : VFreebusyFrom = Full.VFreebusyFrom := by
  funext ls v
  refine propext ⟨fun ⟨a0, a1, a2, a3, a4, a5, a6, a7, a8, a9, a10, a11, a12⟩ => ⟨reads_dateTime.req.1 a0, reads_text.req.1 a1,
    reads_text.opt.1 a2, reads_date.opt.1 a3, reads_date.opt.1 a4, reads_uri.opt.1 a5, reads_uri.opt.1 a6, reads_uri.push.1 a7,
    reads_text.push.1 a8, reads_periods.append.1 a9, reads_rstatus.push.1 a10, a11, a12⟩, fun ⟨a0, a1, a2, a3, a4, a5, a6, a7, a8, a9,
    a10, a11, a12⟩ => ⟨reads_dateTime.req.2 a0, reads_text.req.2 a1, reads_text.opt.2 a2, reads_date.opt.2 a3, reads_date.opt.2 a4,
    reads_uri.opt.2 a5, reads_uri.opt.2 a6, reads_uri.push.2 a7, reads_text.push.2 a8, reads_periods.append.2 a9, reads_rstatus.push.2
    a10, a11, a12⟩⟩

theorem full_VJournal : VJournalFrom = Full.VJournalFrom := by
  funext ls v
  refine propext ⟨fun ⟨a0, a1, a2, a3, a4, a5, a6, a7, a8, a9, a10, a11, a12, a13, a14, a15, a16, a17, a18, a19, a20, a21, a22, a23, a24⟩
    => ⟨reads_dateTime.req.1 a0, reads_text.req.1 a1, reads_class.opt.1 a2, reads_dateTime.opt.1 a3, reads_date.req.1 a4,
    reads_dateTime.opt.1 a5, reads_uri.opt.1 a6, reads_date.opt.1 a7, reads_number.opt.1 a8, reads_status.opt.1 a9, reads_text.opt.1 a10,
    reads_uri.opt.1 a11, reads_rule.opt.1 a12, reads_text.push.1 a13, reads_uri.push.1 a14, reads_texts.append.1 a15, reads_text.push.1
    a16, reads_text.push.1 a17, reads_text.push.1 a18, reads_dates.append.1 a19, reads_text.push.1 a20, reads_rdate.push.1 a21,
    reads_rstatus.push.1 a22, a23, a24⟩, fun ⟨a0, a1, a2, a3, a4, a5, a6, a7, a8, a9, a10, a11, a12, a13, a14, a15, a16, a17, a18, a19,
    a20, a21, a22, a23, a24⟩ => ⟨reads_dateTime.req.2 a0, reads_text.req.2 a1, reads_class.opt.2 a2, reads_dateTime.opt.2 a3,
    reads_date.req.2 a4, reads_dateTime.opt.2 a5, reads_uri.opt.2 a6, reads_date.opt.2 a7, reads_number.opt.2 a8, reads_status.opt.2 a9,
    reads_text.opt.2 a10, reads_uri.opt.2 a11, reads_rule.opt.2 a12, reads_text.push.2 a13, reads_uri.push.2 a14, reads_texts.append.2
    a15, reads_text.push.2 a16, reads_text.push.2 a17, reads_text.push.2 a18, reads_dates.append.2 a19, reads_text.push.2 a20,
    reads_rdate.push.2 a21, reads_rstatus.push.2 a22, a23, a24⟩⟩

theorem full_Standard : StandardFrom = Full.StandardFrom := by
  funext ls v
  refine propext ⟨fun ⟨a0, a1, a2, a3, a4, a5, a6, a7, a8⟩ => ⟨reads_date.req.1 a0, reads_offset.req.1 a1, reads_offset.req.1 a2,
    reads_rule.opt.1 a3, reads_text.push.1 a4, reads_rdate.push.1 a5, reads_text.push.1 a6, a7, a8⟩, fun ⟨a0, a1, a2, a3, a4, a5, a6, a7,
    a8⟩ => ⟨reads_date.req.2 a0, reads_offset.req.2 a1, reads_offset.req.2 a2, reads_rule.opt.2 a3, reads_text.push.2 a4,
    reads_rdate.push.2 a5, reads_text.push.2 a6, a7, a8⟩⟩

theorem full_Daylight : DaylightFrom = Full.DaylightFrom := by
  funext ls v
  refine propext ⟨fun ⟨a0, a1, a2, a3, a4, a5, a6, a7, a8⟩ => ⟨reads_date.req.1 a0, reads_offset.req.1 a1, reads_offset.req.1 a2,
    reads_rule.opt.1 a3, reads_text.push.1 a4, reads_rdate.push.1 a5, reads_text.push.1 a6, a7, a8⟩, fun ⟨a0, a1, a2, a3, a4, a5, a6, a7,
    a8⟩ => ⟨reads_date.req.2 a0, reads_offset.req.2 a1, reads_offset.req.2 a2, reads_rule.opt.2 a3, reads_text.push.2 a4,
    reads_rdate.push.2 a5, reads_text.push.2 a6, a7, a8⟩⟩

theorem full_VTimezone : VTimezoneFrom = Full.VTimezoneFrom := by
  funext ls v
  refine propext ⟨fun ⟨a0, a1, a2, a3, a4, a5, a6⟩ => ⟨reads_text.req.1 a0, reads_dateTime.opt.1 a1, reads_uri.opt.1 a2, a3, a4, a5, a6⟩,
    fun ⟨a0, a1, a2, a3, a4, a5, a6⟩ => ⟨reads_text.req.2 a0, reads_dateTime.opt.2 a1, reads_uri.opt.2 a2, a3, a4, a5, a6⟩⟩

theorem full_VTodo : VTodoFrom = Full.VTodoFrom := by
  funext ls v
  refine propext ⟨fun ⟨a0, a1, a2, a3, a4, a5, a6, a7, a8, a9, a10, a11, a12, a13, a14, a15, a16, a17, a18, a19, a20, a21, a22, a23, a24,
    a25, a26, a27, a28, a29, a30, a31⟩ => ⟨reads_dateTime.req.1 a0, reads_text.req.1 a1, reads_class.opt.1 a2, reads_dateTime.opt.1 a3,
    reads_dateTime.opt.1 a4, reads_date.opt.1 a5, reads_geo.opt.1 a6, reads_dateTime.opt.1 a7, reads_text.opt.1 a8, reads_uri.opt.1 a9,
    reads_percent.opt.1 a10, reads_priority.opt.1 a11, reads_date.opt.1 a12, reads_number.opt.1 a13, reads_status.opt.1 a14,
    reads_text.opt.1 a15, reads_uri.opt.1 a16, reads_rule.opt.1 a17, reads_date.opt.1 a18, reads_duration.opt.1 a19, reads_text.push.1
    a20, reads_uri.push.1 a21, reads_texts.append.1 a22, reads_text.push.1 a23, reads_text.push.1 a24, reads_dates.append.1 a25,
    reads_rstatus.push.1 a26, reads_text.push.1 a27, reads_texts.append.1 a28, reads_rdate.push.1 a29, a30, a31⟩, fun ⟨a0, a1, a2, a3,
    a4, a5, a6, a7, a8, a9, a10, a11, a12, a13, a14, a15, a16, a17, a18, a19, a20, a21, a22, a23, a24, a25, a26, a27, a28, a29, a30, a31⟩
    => ⟨reads_dateTime.req.2 a0, reads_text.req.2 a1, reads_class.opt.2 a2, reads_dateTime.opt.2 a3, reads_dateTime.opt.2 a4,
    reads_date.opt.2 a5, reads_geo.opt.2 a6, reads_dateTime.opt.2 a7, reads_text.opt.2 a8, reads_uri.opt.2 a9, reads_percent.opt.2 a10,
    reads_priority.opt.2 a11, reads_date.opt.2 a12, reads_number.opt.2 a13, reads_status.opt.2 a14, reads_text.opt.2 a15, reads_uri.opt.2
    a16, reads_rule.opt.2 a17, reads_date.opt.2 a18, reads_duration.opt.2 a19, reads_text.push.2 a20, reads_uri.push.2 a21,
    reads_texts.append.2 a22, reads_text.push.2 a23, reads_text.push.2 a24, reads_dates.append.2 a25, reads_rstatus.push.2 a26,
    reads_text.push.2 a27, reads_texts.append.2 a28, reads_rdate.push.2 a29, a30, a31⟩⟩

theorem full_VCalendar : VCalendarFrom = Full.VCalendarFrom := by
  funext ls v
  refine propext ⟨fun ⟨a0, a1, a2, a3, a4, a5, a6, a7, a8, a9, a10, a11⟩ => ⟨reads_text.req.1 a0, reads_text.req.1 a1, reads_text.opt.1
    a2, reads_text.opt.1 a3, a4, a5, a6, a7, a8, a9, a10, a11⟩, fun ⟨a0, a1, a2, a3, a4, a5, a6, a7, a8, a9, a10, a11⟩ =>
    ⟨reads_text.req.2 a0, reads_text.req.2 a1, reads_text.opt.2 a2, reads_text.opt.2 a3, a4, a5, a6, a7, a8, a9, a10, a11⟩⟩

theorem full_VAlarm : VAlarmFrom = Full.VAlarmFrom := by
  funext ls v
  cases v <;> simp only [VAlarmFrom, Full.VAlarmFrom, full_Audio, full_Display, full_Email]

theorem full_alarm : AlarmText = Full.AlarmText := by
  funext i v r; simp only [AlarmText, Full.AlarmText, full_VAlarm]

theorem full_todo : TodoText = Full.TodoText := by
  funext i v r; simp only [TodoText, Full.TodoText, full_VTodo]

theorem full_journal : JournalText = Full.JournalText := by
  funext i v r; simp only [JournalText, Full.JournalText, full_VJournal]

theorem full_freebusy : FreebusyText = Full.FreebusyText := by
  funext i v r; simp only [FreebusyText, Full.FreebusyText, full_VFreebusy]

theorem full_standard : StandardText = Full.StandardText := by
  funext i v r; simp only [StandardText, Full.StandardText, full_Standard]

theorem full_daylight : DaylightText = Full.DaylightText := by
  funext i v r; simp only [DaylightText, Full.DaylightText, full_Daylight]

theorem full_event : EventText = Full.EventText := by
  funext i v r; simp only [EventText, Full.EventText, full_VEvent, full_alarm]

theorem full_tzPart : TzPartText = Full.TzPartText := by
  funext i v r; cases v <;> simp only [TzPartText, Full.TzPartText, full_standard, full_daylight]

theorem full_timezone : TimezoneText = Full.TimezoneText := by
  funext i v r; simp only [TimezoneText, Full.TimezoneText, full_VTimezone, full_tzPart]

theorem full_component : ComponentText = Full.ComponentText := by
  funext i v r
  cases v <;> simp only [ComponentText, Full.ComponentText, full_alarm, full_event, full_freebusy, full_journal, full_timezone, full_todo]

theorem full_calendar : CalendarText = Full.CalendarText := by
  funext i v cs r; simp only [CalendarText, Full.CalendarText, full_VCalendar, full_component]

theorem unfolds_exists {s : Str} {P : Str → Prop} : P (unfold s) ↔ ∃ u, Full.Unfolds s u ∧ P u := by
  simp [unfolds_iff]

/-! ## C76 -/

/-- Every text unfolds to exactly one text. -/
theorem C76_unfolds (s : Str) : ∃ u, Full.Unfolds s u ∧ ∀ u', Full.Unfolds s u' → u' = u :=
  ⟨unfold s, unfolds_iff.2 rfl, fun _ h => (unfolds_iff.1 h).symm⟩

/-- **C76** for an alarm: a text is read as `v` exactly if, unfolded, it begins with `v` according to the grammar. -/
theorem C76_VAlarm (s : Str) (v : VAlarm) : VAlarm.ofStr s = .ok v ↔ ∃ u r, Full.Unfolds s u ∧ Full.AlarmText u v r := by
  rw [C19_VAlarm, full_alarm]; simp [unfolds_iff]

/-- **C76** for an event: a text is read as `v` exactly if, unfolded, it begins with `v` according to the grammar. -/
theorem C76_VEvent (s : Str) (v : VEvent) : VEvent.ofStr s = .ok v ↔ ∃ u r, Full.Unfolds s u ∧ Full.EventText u v r := by
  rw [C19_VEvent, full_event]; simp [unfolds_iff]

/-- **C76** for a to-do: a text is read as `v` exactly if, unfolded, it begins with `v` according to the grammar. -/
theorem C76_VTodo (s : Str) (v : VTodo) : VTodo.ofStr s = .ok v ↔ ∃ u r, Full.Unfolds s u ∧ Full.TodoText u v r := by
  rw [C19_VTodo, full_todo]; simp [unfolds_iff]

/-- **C76** for a journal entry: a text is read as `v` exactly if, unfolded, it begins with `v` according to the grammar. -/
theorem C76_VJournal (s : Str) (v : VJournal) : VJournal.ofStr s = .ok v ↔ ∃ u r, Full.Unfolds s u ∧ Full.JournalText u v r := by
  rw [C19_VJournal, full_journal]; simp [unfolds_iff]

/-- **C76** for a free/busy time: a text is read as `v` exactly if, unfolded, it begins with `v` according to the grammar. -/
theorem C76_VFreebusy (s : Str) (v : VFreebusy) : VFreebusy.ofStr s = .ok v ↔ ∃ u r, Full.Unfolds s u ∧ Full.FreebusyText u v r := by
  rw [C19_VFreebusy, full_freebusy]; simp [unfolds_iff]

/-- **C76** for standard time: a text is read as `v` exactly if, unfolded, it begins with `v` according to the grammar. -/
theorem C76_Standard (s : Str) (v : Standard) : Standard.ofStr s = .ok v ↔ ∃ u r, Full.Unfolds s u ∧ Full.StandardText u v r := by
  rw [C19_Standard, full_standard]; simp [unfolds_iff]

/-- **C76** for daylight saving time: a text is read as `v` exactly if, unfolded, it begins with `v` according to the grammar. -/
theorem C76_Daylight (s : Str) (v : Daylight) : Daylight.ofStr s = .ok v ↔ ∃ u r, Full.Unfolds s u ∧ Full.DaylightText u v r := by
  rw [C19_Daylight, full_daylight]; simp [unfolds_iff]

/-- **C76** for a time zone: a text is read as `v` exactly if, unfolded, it begins with `v` according to the grammar. -/
theorem C76_VTimezone (s : Str) (v : VTimezone) : VTimezone.ofStr s = .ok v ↔ ∃ u r, Full.Unfolds s u ∧ Full.TimezoneText u v r := by
  rw [C19_VTimezone, full_timezone]; simp [unfolds_iff]

/-- **C76** for a calendar: a text is read as `v` exactly if, unfolded, it begins with `v` according to the grammar. -/
theorem C76_VCalendar (s : Str) (v : VCalendar) : VCalendar.ofStr s = .ok v ↔ ∃ u cs r, Full.Unfolds s u ∧ Full.CalendarText u v cs r := by
  rw [C19_VCalendar, full_calendar]; simp [unfolds_iff]

end

section
attribute [local instance] utc

/-- A folded event with a parameter, a numbered rule, two lists of excluded dates and an alarm. -/
def readEvent : Str :=
  c!"BEGIN:VEVENT\r\nDTSTAMP:20240229T120000Z\r\nUID:1\r\nDTSTART;VALUE=DATE:20240301\r\nSUMMARY;LANGUAGE=en:Sho\r\n rt\r\nRRULE:FREQ=MONTHLY;BYDAY=-1FR\r\nEXDATE:20240329,20240426\r\nEXDATE:20240531\r\nBEGIN:VALARM\r\nACTION:AUDIO\r\nTRIGGER:-PT15M\r\nEND:VALARM\r\nEND:VEVENT\r\n"

set_option maxRecDepth 4000 in
example : ∃ v u r, Full.Unfolds readEvent u ∧ Full.EventText u v r ∧
    (v.dtstamp, v.uid, v.dtstart, v.summary) =
      (.loc ⟨⟨2024, 2, 29⟩, 43200, 0⟩, ⟨[], c!"1"⟩, .date ⟨2024, 3, 1⟩, some ⟨[(c!"LANGUAGE", c!"en")], c!"Short"⟩) ∧
    v.rrule = some { Recur.default with freq := .monthly, interval := 1, byDay := [⟨.friday, some (-1)⟩] } ∧
    v.exdate = [.date ⟨2024, 3, 29⟩, .date ⟨2024, 4, 26⟩, .date ⟨2024, 5, 31⟩] ∧
    v.alarms.length = 1 := by
  have h : (VEvent.ofStr readEvent).map (fun v => ((v.dtstamp, v.uid, v.dtstart, v.summary), v.rrule, v.exdate, v.alarms.length)) =
    .ok ((.loc ⟨⟨2024, 2, 29⟩, 43200, 0⟩, ⟨[], c!"1"⟩, .date ⟨2024, 3, 1⟩, some ⟨[(c!"LANGUAGE", c!"en")], c!"Short"⟩),
      some { Recur.default with freq := .monthly, interval := 1, byDay := [⟨.friday, some (-1)⟩] },
      [.date ⟨2024, 3, 29⟩, .date ⟨2024, 4, 26⟩, .date ⟨2024, 5, 31⟩], 1) := by decide +kernel
  cases hv : VEvent.ofStr readEvent with
  | ok v =>
    rw [hv] at h
    obtain ⟨u, r, h1, h2⟩ := (C76_VEvent readEvent v).1 hv
    simp only [Res.map, Res.ok.injEq, Prod.mk.injEq] at h
    obtain ⟨h3, h4, h5, h6⟩ := h
    exact ⟨v, u, r, h1, h2, by simp [h3], h4, h5, h6⟩
  | err e => rw [hv] at h; cases h
  | panic => rw [hv] at h; cases h
end

end Ikal
