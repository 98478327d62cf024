import Verif.Lemmas.Output
import Verif.Props.RoundTrip

/-!
# C74, C75: what is written

C74 pins down the text of each kind of value, C75 that of each component, line by line (`Verif.Spec.Output`).
-/

namespace Ikal

open Spec

section
variable [Platform]

theorem Audio.lines_iff (v : Audio) (name t : Str) : v.toComp.ical name = .ok t ↔ Frame name (AudioLines v) t := by
  refine comp_iff (c := v.toComp) (Ps := (AudioLines v).take 5) ?_ name t
  refine ser_cons (fun _ => field_iff text_form) ?_
  refine ser_cons (fun _ => field_iff trigger_form) ?_
  refine ser_cons (fun _ => optional_iff (shown_form TimeDelta.toStr rfl (fun _ => rfl) fun _ => rfl)) ?_
  refine ser_cons (fun _ => optional_iff number_form) ?_
  refine ser_cons (fun _ => repeated_iff text_form) ?_
  exact ser_nil

theorem Audio.output_iff (v : Audio) (t : Str) : Ser.ical v = .ok t ↔ AudioOutput v t := Audio.lines_iff v c!"AUDIO" t

theorem Display.lines_iff (v : Display) (name t : Str) : v.toComp.ical name = .ok t ↔ Frame name (DisplayLines v) t := by
  refine comp_iff (c := v.toComp) (Ps := (DisplayLines v).take 5) ?_ name t
  refine ser_cons (fun _ => field_iff text_form) ?_
  refine ser_cons (fun _ => field_iff trigger_form) ?_
  refine ser_cons (fun _ => field_iff text_form) ?_
  refine ser_cons (fun _ => optional_iff (shown_form TimeDelta.toStr rfl (fun _ => rfl) fun _ => rfl)) ?_
  refine ser_cons (fun _ => optional_iff number_form) ?_
  exact ser_nil

theorem Display.output_iff (v : Display) (t : Str) : Ser.ical v = .ok t ↔ DisplayOutput v t := Display.lines_iff v c!"DISPLAY" t

theorem Email.lines_iff (v : Email) (name t : Str) : v.toComp.ical name = .ok t ↔ Frame name (EmailLines v) t := by
  refine comp_iff (c := v.toComp) (Ps := (EmailLines v).take 8) ?_ name t
  refine ser_cons (fun _ => field_iff text_form) ?_
  refine ser_cons (fun _ => field_iff trigger_form) ?_
  refine ser_cons (fun _ => field_iff text_form) ?_
  refine ser_cons (fun _ => field_iff text_form) ?_
  refine ser_cons (fun _ => repeated_iff uri_form) ?_
  refine ser_cons (fun _ => optional_iff (shown_form TimeDelta.toStr rfl (fun _ => rfl) fun _ => rfl)) ?_
  refine ser_cons (fun _ => optional_iff number_form) ?_
  refine ser_cons (fun _ => repeated_iff text_form) ?_
  exact ser_nil

theorem Email.output_iff (v : Email) (t : Str) : Ser.ical v = .ok t ↔ EmailOutput v t := Email.lines_iff v c!"EMAIL" t

theorem reframe_iff {x : Res Str} {k : Str} {L : List (Str → Prop)} (hk : '\n' ∉ k) (h : ∀ s, x = .ok s ↔ Frame k L s)
    (hf : ∀ s, x = .ok s → Framed k s) (t : Str) : x.map VAlarm.reframe = .ok t ↔ Frame c!"VALARM" L t := by
  have cancel : ∀ {a b : Str}, c!"BEGIN:" ++ k ++ c!"\r\n" ++ a ++ c!"END:" ++ k ++ c!"\r\n" =
      c!"BEGIN:" ++ k ++ c!"\r\n" ++ b ++ (c!"END:" ++ k ++ c!"\r\n") → a = b := by
    intro a b e
    simp only [List.append_assoc] at e
    have := List.append_cancel_left (List.append_cancel_left (List.append_cancel_left e))
    exact List.append_cancel_right this
  constructor
  · intro e
    obtain ⟨s, hs, e⟩ := Res.map_ok_iff.1 e
    obtain ⟨b, hb, e1⟩ := (h s).1 hs
    obtain ⟨body, hend, e2⟩ := hf s hs
    have := cancel (e1.symm.trans e2)
    subst this
    refine ⟨b, hb, ?_⟩
    rw [← e, e2, reframe_eq hk hend]
    simp
  · rintro ⟨b, hb, rfl⟩
    have hs := (h _).2 ⟨b, hb, rfl⟩
    obtain ⟨body, hend, e2⟩ := hf _ hs
    have := cancel e2
    subst this
    rw [hs, e2]
    simp only [Res.map]
    rw [reframe_eq hk hend]
    simp

theorem VAlarm.output_iff (v : VAlarm) (t : Str) : Ser.ical v = .ok t ↔ VAlarmOutput v t := by
  cases v with
  | audio a => exact reframe_iff (x := Ser.ical a) (by decide) (Audio.output_iff a) (fun s hs => C43_Audio a s ((ical_eq rfl).trans hs)) t
  | display a => exact reframe_iff (x := Ser.ical a) (by decide) (Display.output_iff a) (fun s hs => C43_Display a s ((ical_eq rfl).trans hs)) t
  | email a => exact reframe_iff (x := Ser.ical a) (by decide) (Email.output_iff a) (fun s hs => C43_Email a s ((ical_eq rfl).trans hs)) t

theorem alarm_form : IsForm VAlarm inferInstance alarmForm :=
  ⟨rfl, fun v ps t => by
    unfold alarmForm
    rw [← VAlarm.output_iff]
    exact and_congr ⟨fun h => h.symm, fun h => h.symm⟩ Iff.rfl⟩

theorem VEvent.output_iff (v : VEvent) (t : Str) : Ser.ical v = .ok t ↔ VEventOutput v t := by
  refine comp_iff (c := v.toComp) (Ps := (VEventLines v).take 31) ?_ c!"VEVENT" t
  refine ser_cons (fun _ => field_iff (shown_form DateTime.toStr rfl (fun _ => rfl) fun _ => rfl)) ?_
  refine ser_cons (fun _ => field_iff text_form) ?_
  refine ser_cons (fun _ => field_iff date_form) ?_
  refine ser_cons (fun _ => optional_iff (shown_form Class.toStr rfl (fun _ => rfl) fun _ => rfl)) ?_
  refine ser_cons (fun _ => optional_iff (shown_form DateTime.toStr rfl (fun _ => rfl) fun _ => rfl)) ?_
  refine ser_cons (fun _ => optional_iff text_form) ?_
  refine ser_cons (fun _ => optional_iff (shown_form Geo.toStr rfl (fun _ => rfl) fun _ => rfl)) ?_
  refine ser_cons (fun _ => optional_iff (shown_form DateTime.toStr rfl (fun _ => rfl) fun _ => rfl)) ?_
  refine ser_cons (fun _ => optional_iff text_form) ?_
  refine ser_cons (fun _ => optional_iff uri_form) ?_
  refine ser_cons (fun _ => optional_iff number_form) ?_
  refine ser_cons (fun _ => optional_iff number_form) ?_
  refine ser_cons (fun _ => optional_iff (shown_form Status.toStr rfl (fun _ => rfl) fun _ => rfl)) ?_
  refine ser_cons (fun _ => optional_iff text_form) ?_
  refine ser_cons (fun _ => optional_iff (shown_form TimeTransparency.toStr rfl (fun _ => rfl) fun _ => rfl)) ?_
  refine ser_cons (fun _ => optional_iff uri_form) ?_
  refine ser_cons (fun _ => optional_iff date_form) ?_
  refine ser_cons (fun _ => optional_iff rule_form) ?_
  refine ser_cons (fun _ => optional_iff date_form) ?_
  refine ser_cons (fun _ => optional_iff (shown_form TimeDelta.toStr rfl (fun _ => rfl) fun _ => rfl)) ?_
  refine ser_cons (fun _ => repeated_iff text_form) ?_
  refine ser_cons (fun _ => repeated_iff uri_form) ?_
  refine ser_cons (fun _ => repeated_iff text_form) ?_
  refine ser_cons (fun _ => repeated_iff text_form) ?_
  refine ser_cons (fun _ => repeated_iff text_form) ?_
  refine ser_cons (fun _ => repeated_iff date_form) ?_
  refine ser_cons (fun _ => repeated_iff requestStatus_form) ?_
  refine ser_cons (fun _ => repeated_iff text_form) ?_
  refine ser_cons (fun _ => repeated_iff text_form) ?_
  refine ser_cons (fun _ => repeated_iff (shown_form RDate.toStr rfl (fun _ => rfl) fun _ => rfl)) ?_
  refine ser_cons (fun _ => repeated_iff alarm_form) ?_
  exact ser_nil

theorem VFreebusy.output_iff (v : VFreebusy) (t : Str) : Ser.ical v = .ok t ↔ VFreebusyOutput v t := by
  refine comp_iff (c := v.toComp) (Ps := (VFreebusyLines v).take 11) ?_ c!"VFREEBUSY" t
  refine ser_cons (fun _ => field_iff (shown_form DateTime.toStr rfl (fun _ => rfl) fun _ => rfl)) ?_
  refine ser_cons (fun _ => field_iff text_form) ?_
  refine ser_cons (fun _ => optional_iff text_form) ?_
  refine ser_cons (fun _ => optional_iff date_form) ?_
  refine ser_cons (fun _ => optional_iff date_form) ?_
  refine ser_cons (fun _ => optional_iff uri_form) ?_
  refine ser_cons (fun _ => optional_iff uri_form) ?_
  refine ser_cons (fun _ => repeated_iff uri_form) ?_
  refine ser_cons (fun _ => repeated_iff text_form) ?_
  refine ser_cons (fun _ => repeated_iff (shown_form Period.toStr rfl (fun _ => rfl) fun _ => rfl)) ?_
  refine ser_cons (fun _ => repeated_iff requestStatus_form) ?_
  exact ser_nil

theorem VJournal.output_iff (v : VJournal) (t : Str) : Ser.ical v = .ok t ↔ VJournalOutput v t := by
  refine comp_iff (c := v.toComp) (Ps := (VJournalLines v).take 23) ?_ c!"VJOURNAL" t
  refine ser_cons (fun _ => field_iff (shown_form DateTime.toStr rfl (fun _ => rfl) fun _ => rfl)) ?_
  refine ser_cons (fun _ => field_iff text_form) ?_
  refine ser_cons (fun _ => optional_iff (shown_form Class.toStr rfl (fun _ => rfl) fun _ => rfl)) ?_
  refine ser_cons (fun _ => optional_iff (shown_form DateTime.toStr rfl (fun _ => rfl) fun _ => rfl)) ?_
  refine ser_cons (fun _ => field_iff date_form) ?_
  refine ser_cons (fun _ => optional_iff (shown_form DateTime.toStr rfl (fun _ => rfl) fun _ => rfl)) ?_
  refine ser_cons (fun _ => optional_iff uri_form) ?_
  refine ser_cons (fun _ => optional_iff date_form) ?_
  refine ser_cons (fun _ => optional_iff number_form) ?_
  refine ser_cons (fun _ => optional_iff (shown_form Status.toStr rfl (fun _ => rfl) fun _ => rfl)) ?_
  refine ser_cons (fun _ => optional_iff text_form) ?_
  refine ser_cons (fun _ => optional_iff uri_form) ?_
  refine ser_cons (fun _ => optional_iff rule_form) ?_
  refine ser_cons (fun _ => repeated_iff text_form) ?_
  refine ser_cons (fun _ => repeated_iff uri_form) ?_
  refine ser_cons (fun _ => repeated_iff text_form) ?_
  refine ser_cons (fun _ => repeated_iff text_form) ?_
  refine ser_cons (fun _ => repeated_iff text_form) ?_
  refine ser_cons (fun _ => repeated_iff text_form) ?_
  refine ser_cons (fun _ => repeated_iff date_form) ?_
  refine ser_cons (fun _ => repeated_iff text_form) ?_
  refine ser_cons (fun _ => repeated_iff (shown_form RDate.toStr rfl (fun _ => rfl) fun _ => rfl)) ?_
  refine ser_cons (fun _ => repeated_iff requestStatus_form) ?_
  exact ser_nil

theorem Standard.output_iff (v : Standard) (t : Str) : Ser.ical v = .ok t ↔ StandardOutput v t := by
  refine comp_iff (c := v.toComp) (Ps := (StandardLines v).take 7) ?_ c!"STANDARD" t
  refine ser_cons (fun _ => field_iff date_form) ?_
  refine ser_cons (fun _ => field_iff (shown_form FixedOffset.toStr rfl (fun _ => rfl) fun _ => rfl)) ?_
  refine ser_cons (fun _ => field_iff (shown_form FixedOffset.toStr rfl (fun _ => rfl) fun _ => rfl)) ?_
  refine ser_cons (fun _ => optional_iff rule_form) ?_
  refine ser_cons (fun _ => repeated_iff text_form) ?_
  refine ser_cons (fun _ => repeated_iff (shown_form RDate.toStr rfl (fun _ => rfl) fun _ => rfl)) ?_
  refine ser_cons (fun _ => repeated_iff text_form) ?_
  exact ser_nil

theorem Daylight.output_iff (v : Daylight) (t : Str) : Ser.ical v = .ok t ↔ DaylightOutput v t := by
  refine comp_iff (c := v.toComp) (Ps := (DaylightLines v).take 7) ?_ c!"DAYLIGHT" t
  refine ser_cons (fun _ => field_iff date_form) ?_
  refine ser_cons (fun _ => field_iff (shown_form FixedOffset.toStr rfl (fun _ => rfl) fun _ => rfl)) ?_
  refine ser_cons (fun _ => field_iff (shown_form FixedOffset.toStr rfl (fun _ => rfl) fun _ => rfl)) ?_
  refine ser_cons (fun _ => optional_iff rule_form) ?_
  refine ser_cons (fun _ => repeated_iff text_form) ?_
  refine ser_cons (fun _ => repeated_iff (shown_form RDate.toStr rfl (fun _ => rfl) fun _ => rfl)) ?_
  refine ser_cons (fun _ => repeated_iff text_form) ?_
  exact ser_nil

theorem VTimezone.output_iff (v : VTimezone) (t : Str) : Ser.ical v = .ok t ↔ VTimezoneOutput v t := by
  refine comp_iff (c := v.toComp) (Ps := (VTimezoneLines v).take 5) ?_ c!"VTIMEZONE" t
  refine ser_cons (fun _ => field_iff text_form) ?_
  refine ser_cons (fun _ => optional_iff (shown_form DateTime.toStr rfl (fun _ => rfl) fun _ => rfl)) ?_
  refine ser_cons (fun _ => optional_iff uri_form) ?_
  refine ser_cons (fun _ => inner_iff (s := inferInstance) rfl Standard.output_iff) ?_
  refine ser_cons (fun _ => inner_iff (s := inferInstance) rfl Daylight.output_iff) ?_
  exact ser_nil

theorem VTodo.output_iff (v : VTodo) (t : Str) : Ser.ical v = .ok t ↔ VTodoOutput v t := by
  refine comp_iff (c := v.toComp) (Ps := (VTodoLines v).take 30) ?_ c!"VTODO" t
  refine ser_cons (fun _ => field_iff (shown_form DateTime.toStr rfl (fun _ => rfl) fun _ => rfl)) ?_
  refine ser_cons (fun _ => field_iff text_form) ?_
  refine ser_cons (fun _ => optional_iff (shown_form Class.toStr rfl (fun _ => rfl) fun _ => rfl)) ?_
  refine ser_cons (fun _ => optional_iff (shown_form DateTime.toStr rfl (fun _ => rfl) fun _ => rfl)) ?_
  refine ser_cons (fun _ => optional_iff (shown_form DateTime.toStr rfl (fun _ => rfl) fun _ => rfl)) ?_
  refine ser_cons (fun _ => optional_iff date_form) ?_
  refine ser_cons (fun _ => optional_iff (shown_form Geo.toStr rfl (fun _ => rfl) fun _ => rfl)) ?_
  refine ser_cons (fun _ => optional_iff (shown_form DateTime.toStr rfl (fun _ => rfl) fun _ => rfl)) ?_
  refine ser_cons (fun _ => optional_iff text_form) ?_
  refine ser_cons (fun _ => optional_iff uri_form) ?_
  refine ser_cons (fun _ => optional_iff number_form) ?_
  refine ser_cons (fun _ => optional_iff number_form) ?_
  refine ser_cons (fun _ => optional_iff date_form) ?_
  refine ser_cons (fun _ => optional_iff number_form) ?_
  refine ser_cons (fun _ => optional_iff (shown_form Status.toStr rfl (fun _ => rfl) fun _ => rfl)) ?_
  refine ser_cons (fun _ => optional_iff text_form) ?_
  refine ser_cons (fun _ => optional_iff uri_form) ?_
  refine ser_cons (fun _ => optional_iff rule_form) ?_
  refine ser_cons (fun _ => optional_iff date_form) ?_
  refine ser_cons (fun _ => optional_iff (shown_form TimeDelta.toStr rfl (fun _ => rfl) fun _ => rfl)) ?_
  refine ser_cons (fun _ => repeated_iff text_form) ?_
  refine ser_cons (fun _ => repeated_iff uri_form) ?_
  refine ser_cons (fun _ => repeated_iff text_form) ?_
  refine ser_cons (fun _ => repeated_iff text_form) ?_
  refine ser_cons (fun _ => repeated_iff text_form) ?_
  refine ser_cons (fun _ => repeated_iff date_form) ?_
  refine ser_cons (fun _ => repeated_iff requestStatus_form) ?_
  refine ser_cons (fun _ => repeated_iff text_form) ?_
  refine ser_cons (fun _ => repeated_iff text_form) ?_
  refine ser_cons (fun _ => repeated_iff (shown_form RDate.toStr rfl (fun _ => rfl) fun _ => rfl)) ?_
  exact ser_nil

theorem VCalendar.output_iff (v : VCalendar) (t : Str) : Ser.ical v = .ok t ↔ VCalendarOutput v t := by
  refine comp_iff (c := v.toComp) (Ps := (VCalendarLines v).take 10) ?_ c!"VCALENDAR" t
  refine ser_cons (fun _ => field_iff text_form) ?_
  refine ser_cons (fun _ => field_iff text_form) ?_
  refine ser_cons (fun _ => optional_iff text_form) ?_
  refine ser_cons (fun _ => optional_iff text_form) ?_
  refine ser_cons (fun _ => repeated_iff alarm_form) ?_
  refine ser_cons (fun _ => inner_iff (s := inferInstance) rfl VEvent.output_iff) ?_
  refine ser_cons (fun _ => inner_iff (s := inferInstance) rfl VFreebusy.output_iff) ?_
  refine ser_cons (fun _ => inner_iff (s := inferInstance) rfl VJournal.output_iff) ?_
  refine ser_cons (fun _ => inner_iff (s := inferInstance) rfl VTodo.output_iff) ?_
  refine ser_cons (fun _ => inner_iff (s := inferInstance) rfl VTimezone.output_iff) ?_
  exact ser_nil

/-- All of a list, spelled out. -/
def AllFields (P : Field → Prop) : List Field → Prop
  | [] => True
  | f :: fs => P f ∧ AllFields P fs

omit [Platform] in
theorem forall_fields {fs : List Field} (h : AllFields Field.NoErr fs) : ∀ f ∈ fs, f.NoErr := by
  induction fs with
  | nil => simp
  | cons f fs ih =>
    intro g hg
    rcases List.mem_cons.1 hg with rfl | hg
    · exact h.1
    · exact ih h.2 g hg

theorem Audio.noErr (v : Audio) : NoErr (Ser.ical v) :=
  NoErr.comp (fs := Audio.fields) (forall_fields ⟨(fun _ => .ok _), NoErr.trigger, (fun _ => .ok _), (fun _ => .ok _), (fun _ => .ok _), trivial⟩) _ _

theorem Display.noErr (v : Display) : NoErr (Ser.ical v) :=
  NoErr.comp (fs := Display.fields) (forall_fields ⟨(fun _ => .ok _), NoErr.trigger, (fun _ => .ok _), (fun _ => .ok _), (fun _ => .ok _), trivial⟩) _ _

theorem Email.noErr (v : Email) : NoErr (Ser.ical v) :=
  NoErr.comp (fs := Email.fields) (forall_fields ⟨(fun _ => .ok _), NoErr.trigger, (fun _ => .ok _), (fun _ => .ok _), (fun _ => .ok _), (fun _ => .ok _), (fun _ => .ok _), (fun _ => .ok _), trivial⟩) _ _

theorem VAlarm.noErr (v : VAlarm) : NoErr (Ser.ical v) := by
  cases v with
  | audio a => exact (Audio.noErr a).map
  | display a => exact (Display.noErr a).map
  | email a => exact (Email.noErr a).map

theorem VEvent.noErr (v : VEvent) : NoErr (Ser.ical v) :=
  NoErr.comp (fs := VEvent.fields) (forall_fields ⟨(fun _ => .ok _), (fun _ => .ok _), (fun _ => .ok _), (fun _ => .ok _), (fun _ => .ok _), (fun _ => .ok _), (fun _ => .ok _), (fun _ => .ok _), (fun _ => .ok _), (fun _ => .ok _), (fun _ => .ok _), (fun _ => .ok _), (fun _ => .ok _), (fun _ => .ok _), (fun _ => .ok _), (fun _ => .ok _), (fun _ => .ok _), NoErr.recur, (fun _ => .ok _), (fun _ => .ok _), (fun _ => .ok _), (fun _ => .ok _), (fun _ => .ok _), (fun _ => .ok _), (fun _ => .ok _), (fun _ => .ok _), (fun _ => .ok _), (fun _ => .ok _), (fun _ => .ok _), (fun _ => .ok _), VAlarm.noErr, trivial⟩) _ _

theorem VFreebusy.noErr (v : VFreebusy) : NoErr (Ser.ical v) :=
  NoErr.comp (fs := VFreebusy.fields) (forall_fields ⟨(fun _ => .ok _), (fun _ => .ok _), (fun _ => .ok _), (fun _ => .ok _), (fun _ => .ok _), (fun _ => .ok _), (fun _ => .ok _), (fun _ => .ok _), (fun _ => .ok _), (fun _ => .ok _), (fun _ => .ok _), trivial⟩) _ _

theorem VJournal.noErr (v : VJournal) : NoErr (Ser.ical v) :=
  NoErr.comp (fs := VJournal.fields) (forall_fields ⟨(fun _ => .ok _), (fun _ => .ok _), (fun _ => .ok _), (fun _ => .ok _), (fun _ => .ok _), (fun _ => .ok _), (fun _ => .ok _), (fun _ => .ok _), (fun _ => .ok _), (fun _ => .ok _), (fun _ => .ok _), (fun _ => .ok _), NoErr.recur, (fun _ => .ok _), (fun _ => .ok _), (fun _ => .ok _), (fun _ => .ok _), (fun _ => .ok _), (fun _ => .ok _), (fun _ => .ok _), (fun _ => .ok _), (fun _ => .ok _), (fun _ => .ok _), trivial⟩) _ _

theorem Standard.noErr (v : Standard) : NoErr (Ser.ical v) :=
  NoErr.comp (fs := Standard.fields) (forall_fields ⟨(fun _ => .ok _), (fun _ => .ok _), (fun _ => .ok _), NoErr.recur, (fun _ => .ok _), (fun _ => .ok _), (fun _ => .ok _), trivial⟩) _ _

theorem Daylight.noErr (v : Daylight) : NoErr (Ser.ical v) :=
  NoErr.comp (fs := Daylight.fields) (forall_fields ⟨(fun _ => .ok _), (fun _ => .ok _), (fun _ => .ok _), NoErr.recur, (fun _ => .ok _), (fun _ => .ok _), (fun _ => .ok _), trivial⟩) _ _

theorem VTimezone.noErr (v : VTimezone) : NoErr (Ser.ical v) :=
  NoErr.comp (fs := VTimezone.fields) (forall_fields ⟨(fun _ => .ok _), (fun _ => .ok _), (fun _ => .ok _), Standard.noErr, Daylight.noErr, trivial⟩) _ _

theorem VTodo.noErr (v : VTodo) : NoErr (Ser.ical v) :=
  NoErr.comp (fs := VTodo.fields) (forall_fields ⟨(fun _ => .ok _), (fun _ => .ok _), (fun _ => .ok _), (fun _ => .ok _), (fun _ => .ok _), (fun _ => .ok _), (fun _ => .ok _), (fun _ => .ok _), (fun _ => .ok _), (fun _ => .ok _), (fun _ => .ok _), (fun _ => .ok _), (fun _ => .ok _), (fun _ => .ok _), (fun _ => .ok _), (fun _ => .ok _), (fun _ => .ok _), NoErr.recur, (fun _ => .ok _), (fun _ => .ok _), (fun _ => .ok _), (fun _ => .ok _), (fun _ => .ok _), (fun _ => .ok _), (fun _ => .ok _), (fun _ => .ok _), (fun _ => .ok _), (fun _ => .ok _), (fun _ => .ok _), (fun _ => .ok _), trivial⟩) _ _

theorem VCalendar.noErr (v : VCalendar) : NoErr (Ser.ical v) :=
  NoErr.comp (fs := VCalendar.fields) (forall_fields ⟨(fun _ => .ok _), (fun _ => .ok _), (fun _ => .ok _), (fun _ => .ok _), VAlarm.noErr, VEvent.noErr, VFreebusy.noErr, VJournal.noErr, VTodo.noErr, VTimezone.noErr, trivial⟩) _ _

/-! ## C74: the text of values -/

/-- **C74**: a date is shown as its year, month and day. -/
theorem C74_date (d : NaiveDate) (h : RealDate d) (s : Str) : (Date.date d).toStr = s ↔ AnyDateText s d := by
  rw [anyDateText_iff h]
  exact eq_comm

/-- **C74**: a date-time is shown as its wall-clock time, with a `Z` if it is in the local zone. -/
theorem C74_dateTime (t : DateTime) (h : AnySecond t.toNaive) (s : Str) :
    (t.toStr = s ↔ ∃ z, s = z ++ (match t with | .naive _ => [] | .loc _ => ['Z']) ∧ AnyTimeText z t.toNaive) ∧
    ((Date.dateTime t).toStr = s ↔ t.toStr = s) := by
  refine ⟨?_, Iff.rfl⟩
  cases t with
  | naive t =>
    simp only [List.append_nil, DateTime.toNaive] at h ⊢
    constructor
    · rintro rfl
      exact ⟨_, rfl, (anyTimeText_iff h).2 rfl⟩
    · rintro ⟨z, rfl, hz⟩
      exact ((anyTimeText_iff h).1 hz).symm
  | loc u =>
    simp only [DateTime.toNaive] at h ⊢
    constructor
    · rintro rfl
      exact ⟨_, rfl, (anyTimeText_iff h).2 rfl⟩
    · rintro ⟨z, rfl, hz⟩
      rw [(anyTimeText_iff h).1 hz]
      rfl

/-- **C74**: a duration is written in seconds. -/
theorem C74_duration (d : TimeDelta) (s : Str) : Ser.ical d = .ok s ↔ DurationOut s d := by
  rw [durationOut_iff]
  exact ⟨fun h => (Res.ok.inj h).symm, fun h => h ▸ rfl⟩

/-- **C74**: an offset is written as hours, minutes and seconds if there are. -/
theorem C74_offset (o : FixedOffset) (h : o.Valid) (s : Str) : Ser.ical o = .ok s ↔ OffsetOut s o := by
  rw [offsetOut_iff h]
  exact ⟨fun h => (Res.ok.inj h).symm, fun h => h ▸ rfl⟩

/-- **C74**: numbers. -/
theorem C74_numbers (s : Str) : (∀ n : Nat, Ser.ical n = .ok s ↔ NumberText s n) ∧ (∀ n : Int, Ser.ical n = .ok s ↔ SignedText s n) := by
  refine ⟨fun n => ?_, fun n => ?_⟩
  · rw [numberText_iff]
    exact ⟨fun h => (Res.ok.inj h).symm, fun h => h ▸ rfl⟩
  · rw [signedText_iff]
    exact ⟨fun h => (Res.ok.inj h).symm, fun h => h ▸ rfl⟩

/-- **C74**: the names of enumerated values, written and shown. -/
theorem C74_names :
    (∀ v : Status, Ser.ical v = .ok (statusName v) ∧ v.toStr = statusName v) ∧
    (∀ v : TimeTransparency, Ser.ical v = .ok (transparencyName v) ∧ v.toStr = transparencyName v) ∧
    (∀ v : Freq, Ser.ical v = .ok (freqName v) ∧ v.toStr = freqName v) ∧
    (∀ v : Weekday, Ser.ical v = .ok (weekdayName v) ∧ v.toStr = weekdayName v) ∧
    (∀ v : Class, Ser.ical v = .ok (className v) ∧ v.toStr = className v) := by
  refine ⟨?_, ?_, ?_, ?_, ?_⟩ <;> intro v <;> cases v <;> exact ⟨rfl, rfl⟩

/-- **C74**: a day of the week with its number. -/
theorem C74_weekdaynum (w : WeekdayNum) (s : Str) : (Ser.ical w = .ok s ↔ WeekdayText s w) ∧ (w.toStr = s ↔ WeekdayText s w) := by
  have hw : ∀ w : Weekday, weekdayName w = w.toStr := by intro w; cases w <;> rfl
  have h : w.toStr = s ↔ WeekdayText s w := by
    obtain ⟨w, o⟩ := w
    cases o with
    | none => simp [WeekdayText, WeekdayNum.toStr, hw, eq_comm]
    | some n =>
      simp only [WeekdayText, WeekdayNum.toStr, hw, signedText_iff]
      exact ⟨fun h => ⟨_, rfl, h.symm⟩, fun ⟨_, h1, h2⟩ => by rw [h2, h1]⟩
  exact ⟨⟨fun e => h.1 (Res.ok.inj e), fun e => by rw [← h.2 e]; rfl⟩, h⟩

/-- **C74**: structured values. -/
theorem C74_structured :
    (∀ g : Geo, Ser.ical g = .ok (Platform.floatShow g.lat ++ c!";" ++ Platform.floatShow g.lon)) ∧
    (∀ a b : DateTime, Ser.ical (Period.startEnd a b) = .ok (a.toStr ++ c!"/" ++ b.toStr)) ∧
    (∀ (a : DateTime) (d : TimeDelta), Ser.ical (Period.startDur a d) = .ok (a.toStr ++ c!"/" ++ d.toStr)) ∧
    (∀ l : List Date, Ser.ical (RDate.date l) = .ok (c!"VALUE=DATE:" ++ joinWith c!"," (l.map Date.toStr))) ∧
    (∀ l : List Period, Ser.ical (RDate.period l) = .ok (c!"VALUE=PERIOD:" ++ joinWith c!"," (l.map Period.toStr))) ∧
    (∀ (r : RequestStatus) (s : Str), Ser.ical r = .ok s ↔ requestStatusForm r none s) := by
  refine ⟨fun g => ?_, fun a b => ?_, fun a d => ?_, fun l => ?_, fun l => ?_, fun r s => ?_⟩
  · simp [Ser.ical, Geo.toStr]
  · simp [Ser.ical, Period.toStr]
  · simp [Ser.ical, Period.toStr]
  · simp [Ser.ical, RDate.toStr, join_eq_joinWith]
  · simp [Ser.ical, RDate.toStr, join_eq_joinWith]
  · rw [requestStatus_form.form]
    exact ⟨fun h => ⟨rfl, h⟩, fun h => h.2⟩

/-- **C74**: a rule is written as its items, in a fixed order, without those that are not set. -/
theorem C74_rule (r : Recur) (s : Str) : Ser.ical r = .ok s ↔ RuleOut s r := by
  have := rule_form.form r none s
  unfold ruleForm at this
  exact ⟨fun h => (this.2 ⟨rfl, h⟩).2, fun h => (this.1 ⟨rfl, h⟩).2⟩

/-! ## C75: the text of components -/

/-- **C75**: a line can be folded exactly when no multiple of 75 octets is inside a character. -/
theorem C75_foldable (s : Str) : (∃ out, FoldedAs s out) ↔ ∀ k, 75 * k < byteLen s → CharBoundary s (75 * k) := by
  constructor
  · rintro ⟨out, h⟩ k hk
    have hf := fold_iff.2 h
    unfold fold split at hf
    by_cases hl : byteLen s > 75
    · rw [if_pos hl] at hf
      refine Classical.byContradiction fun hn => ?_
      have := (splitGo_panic (n := 75) (by omega) (Nat.le_refl s.length)).2 ⟨k, hk, hn⟩
      rw [this] at hf
      cases hf
    · have : k = 0 := by omega
      subst this
      exact ⟨[], by simp, rfl⟩
  · intro h
    cases hf : fold s with
    | ok out => exact ⟨out, fold_iff.1 hf⟩
    | err e => exact absurd hf (NoErr.fold s e)
    | panic =>
      unfold fold split at hf
      split at hf
      · have : splitGo 75 s.length s = .panic := by
          cases hg : splitGo 75 s.length s with
          | panic => rfl
          | ok a => rw [hg] at hf; cases hf
          | err e => rw [hg] at hf; cases hf
        obtain ⟨k, hk, hn⟩ := (splitGo_panic (n := 75) (by omega) (Nat.le_refl s.length)).1 this
        exact absurd (h k hk) hn
      · cases hf

theorem written_or_panic {α : Type} [Ser α] {W : α → Str → Prop} {v : α} (hi : ical v = Ser.ical v) (h : ∀ t, Ser.ical v = .ok t ↔ W v t)
    (hn : NoErr (Ser.ical v)) : (∀ t, ical v = .ok t ↔ W v t) ∧ (ical v = .panic ↔ ∀ t, ¬ W v t) := by
  rw [hi]
  refine ⟨h, ?_⟩
  constructor
  · intro e t ht
    rw [(h t).2 ht] at e
    cases e
  · intro hno
    cases e : Ser.ical v with
    | ok t => exact absurd ((h t).1 e) (hno t)
    | err x => exact absurd e (hn x)
    | panic => rfl

/-- **C75** for an audio alarm that is not wrapped: it is written as its lines, in order, and panics exactly when they cannot be. -/
theorem C75_Audio (v : Audio) : (∀ t, ical v = .ok t ↔ AudioOutput v t) ∧ (ical v = .panic ↔ ∀ t, ¬ AudioOutput v t) :=
  written_or_panic (ical_eq rfl) (Audio.output_iff v) (Audio.noErr v)

/-- **C75** for a display alarm that is not wrapped: it is written as its lines, in order, and panics exactly when they cannot be. -/
theorem C75_Display (v : Display) : (∀ t, ical v = .ok t ↔ DisplayOutput v t) ∧ (ical v = .panic ↔ ∀ t, ¬ DisplayOutput v t) :=
  written_or_panic (ical_eq rfl) (Display.output_iff v) (Display.noErr v)

/-- **C75** for an e-mail alarm that is not wrapped: it is written as its lines, in order, and panics exactly when they cannot be. -/
theorem C75_Email (v : Email) : (∀ t, ical v = .ok t ↔ EmailOutput v t) ∧ (ical v = .panic ↔ ∀ t, ¬ EmailOutput v t) :=
  written_or_panic (ical_eq rfl) (Email.output_iff v) (Email.noErr v)

/-- **C75** for an alarm: it is written as its lines, in order, and panics exactly when they cannot be. -/
theorem C75_VAlarm (v : VAlarm) : (∀ t, ical v = .ok t ↔ VAlarmOutput v t) ∧ (ical v = .panic ↔ ∀ t, ¬ VAlarmOutput v t) :=
  written_or_panic (ical_eq rfl) (VAlarm.output_iff v) (VAlarm.noErr v)

/-- **C75** for an event: it is written as its lines, in order, and panics exactly when they cannot be. -/
theorem C75_VEvent (v : VEvent) : (∀ t, ical v = .ok t ↔ VEventOutput v t) ∧ (ical v = .panic ↔ ∀ t, ¬ VEventOutput v t) :=
  written_or_panic (ical_eq rfl) (VEvent.output_iff v) (VEvent.noErr v)

/-- **C75** for a free/busy time: it is written as its lines, in order, and panics exactly when they cannot be. -/
theorem C75_VFreebusy (v : VFreebusy) : (∀ t, ical v = .ok t ↔ VFreebusyOutput v t) ∧ (ical v = .panic ↔ ∀ t, ¬ VFreebusyOutput v t) :=
  written_or_panic (ical_eq rfl) (VFreebusy.output_iff v) (VFreebusy.noErr v)

/-- **C75** for a journal entry: it is written as its lines, in order, and panics exactly when they cannot be. -/
theorem C75_VJournal (v : VJournal) : (∀ t, ical v = .ok t ↔ VJournalOutput v t) ∧ (ical v = .panic ↔ ∀ t, ¬ VJournalOutput v t) :=
  written_or_panic (ical_eq rfl) (VJournal.output_iff v) (VJournal.noErr v)

/-- **C75** for standard time: it is written as its lines, in order, and panics exactly when they cannot be. -/
theorem C75_Standard (v : Standard) : (∀ t, ical v = .ok t ↔ StandardOutput v t) ∧ (ical v = .panic ↔ ∀ t, ¬ StandardOutput v t) :=
  written_or_panic (ical_eq rfl) (Standard.output_iff v) (Standard.noErr v)

/-- **C75** for daylight saving time: it is written as its lines, in order, and panics exactly when they cannot be. -/
theorem C75_Daylight (v : Daylight) : (∀ t, ical v = .ok t ↔ DaylightOutput v t) ∧ (ical v = .panic ↔ ∀ t, ¬ DaylightOutput v t) :=
  written_or_panic (ical_eq rfl) (Daylight.output_iff v) (Daylight.noErr v)

/-- **C75** for a time zone: it is written as its lines, in order, and panics exactly when they cannot be. -/
theorem C75_VTimezone (v : VTimezone) : (∀ t, ical v = .ok t ↔ VTimezoneOutput v t) ∧ (ical v = .panic ↔ ∀ t, ¬ VTimezoneOutput v t) :=
  written_or_panic (ical_eq rfl) (VTimezone.output_iff v) (VTimezone.noErr v)

/-- **C75** for a to-do: it is written as its lines, in order, and panics exactly when they cannot be. -/
theorem C75_VTodo (v : VTodo) : (∀ t, ical v = .ok t ↔ VTodoOutput v t) ∧ (ical v = .panic ↔ ∀ t, ¬ VTodoOutput v t) :=
  written_or_panic (ical_eq rfl) (VTodo.output_iff v) (VTodo.noErr v)

/-- **C75** for a calendar: it is written as its lines, in order, and panics exactly when they cannot be. -/
theorem C75_VCalendar (v : VCalendar) : (∀ t, ical v = .ok t ↔ VCalendarOutput v t) ∧ (ical v = .panic ↔ ∀ t, ¬ VCalendarOutput v t) :=
  written_or_panic (ical_eq rfl) (VCalendar.output_iff v) (VCalendar.noErr v)

end

/-! ## Concrete cases -/

section
attribute [local instance] utc

/-- C74: 1.5 s, 2 h 30 min east, a rule with most of its items. -/
example : Ser.ical (⟨-1500000000⟩ : TimeDelta) = .ok c!"-PT1.5S" ∧ Ser.ical (⟨-19815⟩ : FixedOffset) = .ok c!"-053015" ∧
    (Date.date ⟨-44, 3, 15⟩).toStr = c!"-00440315" ∧ (Date.date ⟨12024, 2, 29⟩).toStr = c!"+120240229" ∧
    (DateTime.loc ⟨⟨2016, 12, 31⟩, 86399, 1000000000⟩).toStr = c!"20161231T235960Z" ∧
    Ser.ical ({ Recur.default with freq := .monthly, until_ := some (.date ⟨2020, 1, 2⟩), byDay := [⟨.friday, some (-1)⟩, ⟨.monday, none⟩], byMonth := [1, 12], wkst := some .monday } : Recur) =
      .ok c!"FREQ=MONTHLY;UNTIL=20200102;INTERVAL=0;BYDAY=-1FR,MO;BYMONTH=1,12;WKST=MO" := by decide +kernel

/-- C74: the dates and offsets above meet the hypotheses. -/
example : RealDate ⟨-44, 3, 15⟩ ∧ AnySecond (DateTime.loc ⟨⟨2016, 12, 31⟩, 86399, 1000000000⟩).toNaive ∧ (⟨-19815⟩ : FixedOffset).Valid := by
  refine ⟨by unfold RealDate; decide +kernel, ⟨by unfold RealDate; decide +kernel, by decide +kernel, .inr (by decide +kernel)⟩, by decide +kernel⟩

/-- C75: an event with a folded line, several values in one line and extension properties. -/
example : VEventOutput { sampleGoodEvent with
      class_ := none, created := none, geo := none, location := none, organizer := none, priority := none, sequence := none, status := none,
      summary := none, transp := none, url := none, recurid := none, rrule := none, dtend := none, duration := none,
      attach := [], attendee := [], categories := [], exdate := [], rstatus := [], relatedTo := [], resources := [],
      comment := [⟨[(c!"LANGUAGE", c!"en")], c!"a,b"⟩, ⟨[], c!"c"⟩], contact := [⟨[(c!"LANGUAGE", c!"en")], c!"d"⟩], rdate := [], alarms := [],
      xProp := [(c!"X-A", ⟨c!"X-A", [(c!"P", c!"Q")], c!"1"⟩), (c!"X-B", ⟨c!"X-B", [], c!"2"⟩)], ianaProp := [] }
    (c!"BEGIN:VEVENT\r\nDTSTAMP:20200102T010000\r\nUID:1@example.com\r\nDTSTART;VALUE=DATE:20240229\r\n" ++
     c!"DESCRIPTION;LANGUAGE=en:A description that is too long for a line of sevent\r\n y-five octets and is folded\r\n" ++
     c!"COMMENT:a\\,b,c\r\nCONTACT;LANGUAGE=en:d\r\nX-PROP:X-A=1;X-B=2\r\nEND:VEVENT\r\n") :=
  ((C75_VEvent _).1 _).1 (by decide +kernel)

/-- C75: an event that cannot be written: a character across octet 75. -/
example : ∀ t, ¬ VEventOutput { sampleGoodEvent with location := some ⟨[], List.replicate 65 'a' ++ c!"é"⟩ } t :=
  (C75_VEvent _).2.1 (by decide +kernel)

end

end Ikal
