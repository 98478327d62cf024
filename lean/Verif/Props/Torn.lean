import Verif.Lemmas.Never
import Verif.Props.Fine
import Verif.Props.Component
import Verif.TestPlatform

/-!
# C104: texts cut short

A file that was not written to its end, or that has not arrived yet.
-/

set_option linter.unusedSectionVars false

namespace Ikal

open Nom Spec

open Torn

section
variable [Platform]

private theorem ends_in {s z : Str} (h : z <:+ s) : ∃ s0, s = s0 ++ z := by obtain ⟨x, hx⟩ := h; exact ⟨x, hx.symm⟩

private theorem suffix_frame {n : Str} {Ps : List (Str → Prop)} {out : Str} (h : Frame n Ps out) : c!"END:" ++ n ++ c!"\r\n" <:+ out := by
  obtain ⟨b, -, rfl⟩ := h
  exact ⟨c!"BEGIN:" ++ n ++ c!"\r\n" ++ b, by simp⟩

private theorem suffix_alarm {v : VAlarm} {out : Str} (h : VAlarmOutput v out) : c!"END:VALARM\r\n" <:+ out := by
  cases v <;> exact suffix_frame h

/-! ## Any text whose quotes are closed -/

/-- **C104** for an alarm: whatever the text of it is cut to is refused, or read as the same. -/
theorem C104_VAlarm (s u q : Str) (v : VAlarm) (h : VAlarm.ofStr s = .ok v) (hu : Full.Unfolds s u) (hc : QuotesClose u) (hq : q <+: s) :
    VAlarm.ofStr q = .err .parser ∨ VAlarm.ofStr q = .ok v :=
  cut_or_same valarm_part.isLocal valarm_part.cut h (unfolds_iff.1 hu ▸ QuotesClose.steadyAll hc) hq

/-- **C104** for an alarm: a text that ends with it is refused if any of it is missing. -/
theorem C104_VAlarm_missing (s u q : Str) (v : VAlarm) (hu : Full.Unfolds s u) (h : Full.AlarmText u v []) (hc : QuotesClose u) (he : c!"END:VALARM\r\n" <:+ s)
    (hq : q <+: s) (hne : q ≠ s) : VAlarm.ofStr q = .err .parser := by
  obtain ⟨s0, e⟩ := ends_in he
  rw [← full_alarm] at h
  obtain rfl := unfolds_iff.1 hu
  exact cut_refused (s0 := s0 ++ c!"END:VALAR") (y := 'M') valarm_part.cut ((valarm_ok _ _ _).2 h) (QuotesClose.steadyAll hc) (by decide) (by decide) (by decide)
    (.inr (by rw [e]; simp)) hq hne

/-- **C104** for an event: whatever the text of it is cut to is refused, or read as the same. -/
theorem C104_VEvent (s u q : Str) (v : VEvent) (h : VEvent.ofStr s = .ok v) (hu : Full.Unfolds s u) (hc : QuotesClose u) (hq : q <+: s) :
    VEvent.ofStr q = .err .parser ∨ VEvent.ofStr q = .ok v :=
  cut_or_same vevent_part.isLocal vevent_part.cut h (unfolds_iff.1 hu ▸ QuotesClose.steadyAll hc) hq

/-- **C104** for an event: a text that ends with it is refused if any of it is missing. -/
theorem C104_VEvent_missing (s u q : Str) (v : VEvent) (hu : Full.Unfolds s u) (h : Full.EventText u v []) (hc : QuotesClose u) (he : c!"END:VEVENT\r\n" <:+ s)
    (hq : q <+: s) (hne : q ≠ s) : VEvent.ofStr q = .err .parser := by
  obtain ⟨s0, e⟩ := ends_in he
  rw [← full_event] at h
  obtain rfl := unfolds_iff.1 hu
  exact cut_refused (s0 := s0 ++ c!"END:VEVEN") (y := 'T') vevent_part.cut ((vevent_ok _ _ _).2 h) (QuotesClose.steadyAll hc) (by decide) (by decide) (by decide)
    (.inr (by rw [e]; simp)) hq hne

/-- **C104** for a to-do: whatever the text of it is cut to is refused, or read as the same. -/
theorem C104_VTodo (s u q : Str) (v : VTodo) (h : VTodo.ofStr s = .ok v) (hu : Full.Unfolds s u) (hc : QuotesClose u) (hq : q <+: s) :
    VTodo.ofStr q = .err .parser ∨ VTodo.ofStr q = .ok v :=
  cut_or_same vtodo_part.isLocal vtodo_part.cut h (unfolds_iff.1 hu ▸ QuotesClose.steadyAll hc) hq

/-- **C104** for a to-do: a text that ends with it is refused if any of it is missing. -/
theorem C104_VTodo_missing (s u q : Str) (v : VTodo) (hu : Full.Unfolds s u) (h : Full.TodoText u v []) (hc : QuotesClose u) (he : c!"END:VTODO\r\n" <:+ s)
    (hq : q <+: s) (hne : q ≠ s) : VTodo.ofStr q = .err .parser := by
  obtain ⟨s0, e⟩ := ends_in he
  rw [← full_todo] at h
  obtain rfl := unfolds_iff.1 hu
  exact cut_refused (s0 := s0 ++ c!"END:VTOD") (y := 'O') vtodo_part.cut ((vtodo_ok _ _ _).2 h) (QuotesClose.steadyAll hc) (by decide) (by decide) (by decide)
    (.inr (by rw [e]; simp)) hq hne

/-- **C104** for a journal entry: whatever the text of it is cut to is refused, or read as the same. -/
theorem C104_VJournal (s u q : Str) (v : VJournal) (h : VJournal.ofStr s = .ok v) (hu : Full.Unfolds s u) (hc : QuotesClose u) (hq : q <+: s) :
    VJournal.ofStr q = .err .parser ∨ VJournal.ofStr q = .ok v :=
  cut_or_same vjournal_part.isLocal vjournal_part.cut h (unfolds_iff.1 hu ▸ QuotesClose.steadyAll hc) hq

/-- **C104** for a journal entry: a text that ends with it is refused if any of it is missing. -/
theorem C104_VJournal_missing (s u q : Str) (v : VJournal) (hu : Full.Unfolds s u) (h : Full.JournalText u v []) (hc : QuotesClose u) (he : c!"END:VJOURNAL\r\n" <:+ s)
    (hq : q <+: s) (hne : q ≠ s) : VJournal.ofStr q = .err .parser := by
  obtain ⟨s0, e⟩ := ends_in he
  rw [← full_journal] at h
  obtain rfl := unfolds_iff.1 hu
  exact cut_refused (s0 := s0 ++ c!"END:VJOURNA") (y := 'L') vjournal_part.cut ((vjournal_ok _ _ _).2 h) (QuotesClose.steadyAll hc) (by decide) (by decide) (by decide)
    (.inr (by rw [e]; simp)) hq hne

/-- **C104** for a free/busy time: whatever the text of it is cut to is refused, or read as the same. -/
theorem C104_VFreebusy (s u q : Str) (v : VFreebusy) (h : VFreebusy.ofStr s = .ok v) (hu : Full.Unfolds s u) (hc : QuotesClose u) (hq : q <+: s) :
    VFreebusy.ofStr q = .err .parser ∨ VFreebusy.ofStr q = .ok v :=
  cut_or_same vfreebusy_part.isLocal vfreebusy_part.cut h (unfolds_iff.1 hu ▸ QuotesClose.steadyAll hc) hq

/-- **C104** for a free/busy time: a text that ends with it is refused if any of it is missing. -/
theorem C104_VFreebusy_missing (s u q : Str) (v : VFreebusy) (hu : Full.Unfolds s u) (h : Full.FreebusyText u v []) (hc : QuotesClose u) (he : c!"END:VFREEBUSY\r\n" <:+ s)
    (hq : q <+: s) (hne : q ≠ s) : VFreebusy.ofStr q = .err .parser := by
  obtain ⟨s0, e⟩ := ends_in he
  rw [← full_freebusy] at h
  obtain rfl := unfolds_iff.1 hu
  exact cut_refused (s0 := s0 ++ c!"END:VFREEBUS") (y := 'Y') vfreebusy_part.cut ((vfreebusy_ok _ _ _).2 h) (QuotesClose.steadyAll hc) (by decide) (by decide) (by decide)
    (.inr (by rw [e]; simp)) hq hne

/-- **C104** for the standard part of a time zone: whatever the text of it is cut to is refused, or read as the same. -/
theorem C104_Standard (s u q : Str) (v : Standard) (h : Standard.ofStr s = .ok v) (hu : Full.Unfolds s u) (hc : QuotesClose u) (hq : q <+: s) :
    Standard.ofStr q = .err .parser ∨ Standard.ofStr q = .ok v :=
  cut_or_same standard_part.isLocal standard_part.cut h (unfolds_iff.1 hu ▸ QuotesClose.steadyAll hc) hq

/-- **C104** for the standard part of a time zone: a text that ends with it is refused if any of it is missing. -/
theorem C104_Standard_missing (s u q : Str) (v : Standard) (hu : Full.Unfolds s u) (h : Full.StandardText u v []) (hc : QuotesClose u) (he : c!"END:STANDARD\r\n" <:+ s)
    (hq : q <+: s) (hne : q ≠ s) : Standard.ofStr q = .err .parser := by
  obtain ⟨s0, e⟩ := ends_in he
  rw [← full_standard] at h
  obtain rfl := unfolds_iff.1 hu
  exact cut_refused (s0 := s0 ++ c!"END:STANDAR") (y := 'D') standard_part.cut ((standard_ok _ _ _).2 h) (QuotesClose.steadyAll hc) (by decide) (by decide) (by decide)
    (.inr (by rw [e]; simp)) hq hne

/-- **C104** for the daylight part of a time zone: whatever the text of it is cut to is refused, or read as the same. -/
theorem C104_Daylight (s u q : Str) (v : Daylight) (h : Daylight.ofStr s = .ok v) (hu : Full.Unfolds s u) (hc : QuotesClose u) (hq : q <+: s) :
    Daylight.ofStr q = .err .parser ∨ Daylight.ofStr q = .ok v :=
  cut_or_same daylight_part.isLocal daylight_part.cut h (unfolds_iff.1 hu ▸ QuotesClose.steadyAll hc) hq

/-- **C104** for the daylight part of a time zone: a text that ends with it is refused if any of it is missing. -/
theorem C104_Daylight_missing (s u q : Str) (v : Daylight) (hu : Full.Unfolds s u) (h : Full.DaylightText u v []) (hc : QuotesClose u) (he : c!"END:DAYLIGHT\r\n" <:+ s)
    (hq : q <+: s) (hne : q ≠ s) : Daylight.ofStr q = .err .parser := by
  obtain ⟨s0, e⟩ := ends_in he
  rw [← full_daylight] at h
  obtain rfl := unfolds_iff.1 hu
  exact cut_refused (s0 := s0 ++ c!"END:DAYLIGH") (y := 'T') daylight_part.cut ((daylight_ok _ _ _).2 h) (QuotesClose.steadyAll hc) (by decide) (by decide) (by decide)
    (.inr (by rw [e]; simp)) hq hne

/-- **C104** for a time zone: whatever the text of it is cut to is refused, or read as the same. -/
theorem C104_VTimezone (s u q : Str) (v : VTimezone) (h : VTimezone.ofStr s = .ok v) (hu : Full.Unfolds s u) (hc : QuotesClose u) (hq : q <+: s) :
    VTimezone.ofStr q = .err .parser ∨ VTimezone.ofStr q = .ok v :=
  cut_or_same vtimezone_part.isLocal vtimezone_part.cut h (unfolds_iff.1 hu ▸ QuotesClose.steadyAll hc) hq

/-- **C104** for a time zone: a text that ends with it is refused if any of it is missing. -/
theorem C104_VTimezone_missing (s u q : Str) (v : VTimezone) (hu : Full.Unfolds s u) (h : Full.TimezoneText u v []) (hc : QuotesClose u) (he : c!"END:VTIMEZONE\r\n" <:+ s)
    (hq : q <+: s) (hne : q ≠ s) : VTimezone.ofStr q = .err .parser := by
  obtain ⟨s0, e⟩ := ends_in he
  rw [← full_timezone] at h
  obtain rfl := unfolds_iff.1 hu
  exact cut_refused (s0 := s0 ++ c!"END:VTIMEZON") (y := 'E') vtimezone_part.cut ((vtimezone_ok _ _ _).2 h) (QuotesClose.steadyAll hc) (by decide) (by decide) (by decide)
    (.inr (by rw [e]; simp)) hq hne

/-- **C104** for a calendar: whatever the text of it is cut to is refused, or read as the same. -/
theorem C104_VCalendar (s u q : Str) (v : VCalendar) (h : VCalendar.ofStr s = .ok v) (hu : Full.Unfolds s u) (hc : QuotesClose u) (hq : q <+: s) :
    VCalendar.ofStr q = .err .parser ∨ VCalendar.ofStr q = .ok v :=
  cut_or_same vcalendar_local vcalendar_cut h (unfolds_iff.1 hu ▸ QuotesClose.steadyAll hc) hq

/-- **C104** for a calendar: a text that ends with it is refused if any of it is missing; the line break after `END:VCALENDAR` is not needed. -/
theorem C104_VCalendar_missing (s u q : Str) (v : VCalendar) (cs : List Component) (hu : Full.Unfolds s u) (h : Full.CalendarText u v cs []) (hc : QuotesClose u)
    (he : c!"END:VCALENDAR" <:+ s) (hq : q <+: s) (hne : q ≠ s) : VCalendar.ofStr q = .err .parser := by
  obtain ⟨s0, e⟩ := ends_in he
  rw [← full_calendar] at h
  obtain rfl := unfolds_iff.1 hu
  exact cut_refused (s0 := s0 ++ c!"END:VCALENDA") (y := 'R') vcalendar_cut ((vcalendar_ok _ _ _).2 ⟨cs, h⟩) (QuotesClose.steadyAll hc) (by decide) (by decide) (by decide)
    (.inl (by rw [e]; simp)) hq hne

/-! ## RFC 5545 texts, whatever quotes are in them -/

open Abnf

/-- **C104** for an alarm in an RFC 5545 text: the text is refused if any of it is missing. -/
theorem C104_rfc_VAlarm (t : Tree) (ht : t.Good) (s q : Str) (hs : Abnf.Unfolds s t.str) (hi : ¬ c!"\r\n\t" <:+: s) (v : VAlarm) (h : VAlarm.ofStr s = .ok v)
    (he : c!"END:VALARM\r\n" <:+ s) (hq : q <+: s) (hne : q ≠ s) : VAlarm.ofStr q = .err .parser := by
  obtain ⟨s0, e⟩ := ends_in he
  have hu := unfolds_iff.1 (unfolds_same hs hi)
  obtain ⟨u, r, hu', hx⟩ := (C76_VAlarm s v).1 h
  obtain rfl := unfolds_iff.1 hu'
  rw [hu] at hx
  have hr : r = [] := ((alarm_tree ht v [] r).1 (by rw [List.append_nil]; exact hx)).2
  subst hr
  rw [← full_alarm, ← hu] at hx
  exact cut_refused (s0 := s0 ++ c!"END:VALAR") (y := 'M') valarm_part.cut ((valarm_ok _ _ _).2 hx) (hu ▸ good_steadyAll ht) (by decide) (by decide) (by decide)
    (.inr (by rw [e]; simp)) hq hne

/-- **C104** for an event in an RFC 5545 text: the text is refused if any of it is missing. -/
theorem C104_rfc_VEvent (t : Tree) (ht : t.Good) (s q : Str) (hs : Abnf.Unfolds s t.str) (hi : ¬ c!"\r\n\t" <:+: s) (v : VEvent) (h : VEvent.ofStr s = .ok v)
    (he : c!"END:VEVENT\r\n" <:+ s) (hq : q <+: s) (hne : q ≠ s) : VEvent.ofStr q = .err .parser := by
  obtain ⟨s0, e⟩ := ends_in he
  have hu := unfolds_iff.1 (unfolds_same hs hi)
  obtain ⟨u, r, hu', hx⟩ := (C76_VEvent s v).1 h
  obtain rfl := unfolds_iff.1 hu'
  rw [hu] at hx
  have hr : r = [] := ((event_tree ht v [] r).1 (by rw [List.append_nil]; exact hx)).2
  subst hr
  rw [← full_event, ← hu] at hx
  exact cut_refused (s0 := s0 ++ c!"END:VEVEN") (y := 'T') vevent_part.cut ((vevent_ok _ _ _).2 hx) (hu ▸ good_steadyAll ht) (by decide) (by decide) (by decide)
    (.inr (by rw [e]; simp)) hq hne

/-- **C104** for a to-do in an RFC 5545 text: the text is refused if any of it is missing. -/
theorem C104_rfc_VTodo (t : Tree) (ht : t.Good) (s q : Str) (hs : Abnf.Unfolds s t.str) (hi : ¬ c!"\r\n\t" <:+: s) (v : VTodo) (h : VTodo.ofStr s = .ok v)
    (he : c!"END:VTODO\r\n" <:+ s) (hq : q <+: s) (hne : q ≠ s) : VTodo.ofStr q = .err .parser := by
  obtain ⟨s0, e⟩ := ends_in he
  have hu := unfolds_iff.1 (unfolds_same hs hi)
  obtain ⟨u, r, hu', hx⟩ := (C76_VTodo s v).1 h
  obtain rfl := unfolds_iff.1 hu'
  rw [hu] at hx
  have hr : r = [] := ((todo_tree ht v [] r).1 (by rw [List.append_nil]; exact hx)).2
  subst hr
  rw [← full_todo, ← hu] at hx
  exact cut_refused (s0 := s0 ++ c!"END:VTOD") (y := 'O') vtodo_part.cut ((vtodo_ok _ _ _).2 hx) (hu ▸ good_steadyAll ht) (by decide) (by decide) (by decide)
    (.inr (by rw [e]; simp)) hq hne

/-- **C104** for a journal entry in an RFC 5545 text: the text is refused if any of it is missing. -/
theorem C104_rfc_VJournal (t : Tree) (ht : t.Good) (s q : Str) (hs : Abnf.Unfolds s t.str) (hi : ¬ c!"\r\n\t" <:+: s) (v : VJournal) (h : VJournal.ofStr s = .ok v)
    (he : c!"END:VJOURNAL\r\n" <:+ s) (hq : q <+: s) (hne : q ≠ s) : VJournal.ofStr q = .err .parser := by
  obtain ⟨s0, e⟩ := ends_in he
  have hu := unfolds_iff.1 (unfolds_same hs hi)
  obtain ⟨u, r, hu', hx⟩ := (C76_VJournal s v).1 h
  obtain rfl := unfolds_iff.1 hu'
  rw [hu] at hx
  have hr : r = [] := ((journal_tree ht v [] r).1 (by rw [List.append_nil]; exact hx)).2
  subst hr
  rw [← full_journal, ← hu] at hx
  exact cut_refused (s0 := s0 ++ c!"END:VJOURNA") (y := 'L') vjournal_part.cut ((vjournal_ok _ _ _).2 hx) (hu ▸ good_steadyAll ht) (by decide) (by decide) (by decide)
    (.inr (by rw [e]; simp)) hq hne

/-- **C104** for a free/busy time in an RFC 5545 text: the text is refused if any of it is missing. -/
theorem C104_rfc_VFreebusy (t : Tree) (ht : t.Good) (s q : Str) (hs : Abnf.Unfolds s t.str) (hi : ¬ c!"\r\n\t" <:+: s) (v : VFreebusy) (h : VFreebusy.ofStr s = .ok v)
    (he : c!"END:VFREEBUSY\r\n" <:+ s) (hq : q <+: s) (hne : q ≠ s) : VFreebusy.ofStr q = .err .parser := by
  obtain ⟨s0, e⟩ := ends_in he
  have hu := unfolds_iff.1 (unfolds_same hs hi)
  obtain ⟨u, r, hu', hx⟩ := (C76_VFreebusy s v).1 h
  obtain rfl := unfolds_iff.1 hu'
  rw [hu] at hx
  have hr : r = [] := ((freebusy_tree ht v [] r).1 (by rw [List.append_nil]; exact hx)).2
  subst hr
  rw [← full_freebusy, ← hu] at hx
  exact cut_refused (s0 := s0 ++ c!"END:VFREEBUS") (y := 'Y') vfreebusy_part.cut ((vfreebusy_ok _ _ _).2 hx) (hu ▸ good_steadyAll ht) (by decide) (by decide) (by decide)
    (.inr (by rw [e]; simp)) hq hne

/-- **C104** for the standard part of a time zone in an RFC 5545 text: the text is refused if any of it is missing. -/
theorem C104_rfc_Standard (t : Tree) (ht : t.Good) (s q : Str) (hs : Abnf.Unfolds s t.str) (hi : ¬ c!"\r\n\t" <:+: s) (v : Standard) (h : Standard.ofStr s = .ok v)
    (he : c!"END:STANDARD\r\n" <:+ s) (hq : q <+: s) (hne : q ≠ s) : Standard.ofStr q = .err .parser := by
  obtain ⟨s0, e⟩ := ends_in he
  have hu := unfolds_iff.1 (unfolds_same hs hi)
  obtain ⟨u, r, hu', hx⟩ := (C76_Standard s v).1 h
  obtain rfl := unfolds_iff.1 hu'
  rw [hu] at hx
  have hr : r = [] := ((standard_tree ht v [] r).1 (by rw [List.append_nil]; exact hx)).2
  subst hr
  rw [← full_standard, ← hu] at hx
  exact cut_refused (s0 := s0 ++ c!"END:STANDAR") (y := 'D') standard_part.cut ((standard_ok _ _ _).2 hx) (hu ▸ good_steadyAll ht) (by decide) (by decide) (by decide)
    (.inr (by rw [e]; simp)) hq hne

/-- **C104** for the daylight part of a time zone in an RFC 5545 text: the text is refused if any of it is missing. -/
theorem C104_rfc_Daylight (t : Tree) (ht : t.Good) (s q : Str) (hs : Abnf.Unfolds s t.str) (hi : ¬ c!"\r\n\t" <:+: s) (v : Daylight) (h : Daylight.ofStr s = .ok v)
    (he : c!"END:DAYLIGHT\r\n" <:+ s) (hq : q <+: s) (hne : q ≠ s) : Daylight.ofStr q = .err .parser := by
  obtain ⟨s0, e⟩ := ends_in he
  have hu := unfolds_iff.1 (unfolds_same hs hi)
  obtain ⟨u, r, hu', hx⟩ := (C76_Daylight s v).1 h
  obtain rfl := unfolds_iff.1 hu'
  rw [hu] at hx
  have hr : r = [] := ((daylight_tree ht v [] r).1 (by rw [List.append_nil]; exact hx)).2
  subst hr
  rw [← full_daylight, ← hu] at hx
  exact cut_refused (s0 := s0 ++ c!"END:DAYLIGH") (y := 'T') daylight_part.cut ((daylight_ok _ _ _).2 hx) (hu ▸ good_steadyAll ht) (by decide) (by decide) (by decide)
    (.inr (by rw [e]; simp)) hq hne

/-- **C104** for a time zone in an RFC 5545 text: the text is refused if any of it is missing. -/
theorem C104_rfc_VTimezone (t : Tree) (ht : t.Good) (s q : Str) (hs : Abnf.Unfolds s t.str) (hi : ¬ c!"\r\n\t" <:+: s) (v : VTimezone) (h : VTimezone.ofStr s = .ok v)
    (he : c!"END:VTIMEZONE\r\n" <:+ s) (hq : q <+: s) (hne : q ≠ s) : VTimezone.ofStr q = .err .parser := by
  obtain ⟨s0, e⟩ := ends_in he
  have hu := unfolds_iff.1 (unfolds_same hs hi)
  obtain ⟨u, r, hu', hx⟩ := (C76_VTimezone s v).1 h
  obtain rfl := unfolds_iff.1 hu'
  rw [hu] at hx
  have hr : r = [] := ((timezone_tree ht v [] r).1 (by rw [List.append_nil]; exact hx)).2
  subst hr
  rw [← full_timezone, ← hu] at hx
  exact cut_refused (s0 := s0 ++ c!"END:VTIMEZON") (y := 'E') vtimezone_part.cut ((vtimezone_ok _ _ _).2 hx) (hu ▸ good_steadyAll ht) (by decide) (by decide) (by decide)
    (.inr (by rw [e]; simp)) hq hne

private theorem calendar_rest {t : Tree} (h : t.Good) {v : VCalendar} {cs : List Component} {r : Str} (hx : Full.CalendarText t.str v cs r) : r = c!"\r\n" := by
  obtain ⟨n, lines, parts⟩ := t
  have hopen := @tree_open n c!"VCALENDAR" lines parts h ⟨by decide, by unfold TokenChar; decide⟩ []
  have hseq := fun (tail tail' : Str) he he' as => @seq_trees Component Full.ComponentText IsComponent
    (fun i a r h => full_component_begin h) tail tail' he he' parts as fun t ht a r0 r => component_tree (good_parts h t ht) a r0 r
  obtain ⟨body, ls, r1, e, hl, hs, hf, h1⟩ := hx
  obtain ⟨rfl, _, hp, rfl⟩ := hopen.1 ⟨by rw [List.append_nil, e]; rfl, hl⟩
  obtain ⟨_, ht⟩ := (hseq _ _ ⟨_, rfl⟩ ⟨c!"VCALENDAR" ++ r, by simp⟩ _).1 hs
  simpa using ht

/-- **C104** for a calendar in an RFC 5545 text: the text is refused if more than the last line break is missing. -/
theorem C104_rfc_VCalendar (t : Tree) (ht : t.Good) (s q : Str) (hs : Abnf.Unfolds s t.str) (hi : ¬ c!"\r\n\t" <:+: s) (v : VCalendar) (h : VCalendar.ofStr s = .ok v)
    (he : c!"END:VCALENDAR\r\n" <:+ s) (hq : q <+: s) (hne : q.length + 2 < s.length) : VCalendar.ofStr q = .err .parser := by
  obtain ⟨s0, e⟩ := ends_in he
  have hu := unfolds_iff.1 (unfolds_same hs hi)
  obtain ⟨u, cs, r, hu', hx⟩ := (C76_VCalendar s v).1 h
  obtain rfl := unfolds_iff.1 hu'
  rw [hu] at hx
  obtain rfl := calendar_rest ht hx
  rw [← full_calendar, ← hu] at hx
  have hp := (vcalendar_ok _ _ _).2 ⟨cs, hx⟩
  have e' : s = (s0 ++ c!"END:VCALENDAR") ++ c!"\r\n" := by rw [e]; simp
  have hun : unfold s = unfold (s0 ++ c!"END:VCALENDAR") ++ c!"\r\n" := by
    rw [e']
    exact unfold_lineEnd _
  have hst : SteadyAll (unfold (s0 ++ c!"END:VCALENDAR")) := SteadyAll.init (y := c!"\r\n") (hun ▸ hu ▸ good_steadyAll ht)
  have hp' : vcalendar (unfold (s0 ++ c!"END:VCALENDAR")) = .ok [] v := by
    obtain ⟨c, -, -, h4, h5⟩ := vcalendar_local _ _ _ hp
    rw [hun] at h4
    rw [List.append_cancel_right h4]
    simpa using h5 [] (fun h => by simp at h)
  refine cut_refused (s0 := s0 ++ c!"END:VCALENDA") (y := 'R') vcalendar_cut hp' hst (by decide) (by decide) (by decide) (.inl (by simp)) ?_ ?_
  · rw [e'] at hq
    rcases prefix_split hq with ⟨h1, -⟩ | ⟨d, rfl, -⟩
    · exact h1
    · rw [e'] at hne; simp at hne; omega
  · rintro rfl
    rw [e'] at hne; simp at hne

/-! ## What the library wrote itself -/

/-- **C104** for an alarm that was written by the library: what is left of the text if any of it is missing is refused. -/
theorem C104_written_VAlarm (hf : FineFloats) (v w : VAlarm) (hv : FineVAlarm v) (s q : Str) (hw : ical v = .ok s) (h : VAlarm.ofStr s = .ok w)
    (hq : q <+: s) (hne : q ≠ s) : VAlarm.ofStr q = .err .parser := by
  obtain ⟨ls, ts, hg, -, hu, hi⟩ := C100_VAlarm hf hv s hw
  exact C104_rfc_VAlarm _ hg s q hu hi w h (suffix_alarm ((C75_VAlarm v).1 s |>.1 hw)) hq hne

/-- **C104** for an event that was written by the library: what is left of the text if any of it is missing is refused. -/
theorem C104_written_VEvent (hf : FineFloats) (v w : VEvent) (hv : FineVEvent v) (s q : Str) (hw : ical v = .ok s) (h : VEvent.ofStr s = .ok w)
    (hq : q <+: s) (hne : q ≠ s) : VEvent.ofStr q = .err .parser := by
  obtain ⟨ls, ts, hg, -, hu, hi⟩ := C100_VEvent hf hv s hw
  exact C104_rfc_VEvent _ hg s q hu hi w h (suffix_frame ((C75_VEvent v).1 s |>.1 hw)) hq hne

/-- **C104** for a to-do that was written by the library: what is left of the text if any of it is missing is refused. -/
theorem C104_written_VTodo (hf : FineFloats) (v w : VTodo) (hv : FineVTodo v) (s q : Str) (hw : ical v = .ok s) (h : VTodo.ofStr s = .ok w)
    (hq : q <+: s) (hne : q ≠ s) : VTodo.ofStr q = .err .parser := by
  obtain ⟨ls, ts, hg, -, hu, hi⟩ := C100_VTodo hf hv s hw
  exact C104_rfc_VTodo _ hg s q hu hi w h (suffix_frame ((C75_VTodo v).1 s |>.1 hw)) hq hne

/-- **C104** for a journal entry that was written by the library: what is left of the text if any of it is missing is refused. -/
theorem C104_written_VJournal (hf : FineFloats) (v w : VJournal) (hv : FineVJournal v) (s q : Str) (hw : ical v = .ok s) (h : VJournal.ofStr s = .ok w)
    (hq : q <+: s) (hne : q ≠ s) : VJournal.ofStr q = .err .parser := by
  obtain ⟨ls, ts, hg, -, hu, hi⟩ := C100_VJournal hf hv s hw
  exact C104_rfc_VJournal _ hg s q hu hi w h (suffix_frame ((C75_VJournal v).1 s |>.1 hw)) hq hne

/-- **C104** for a free/busy time that was written by the library: what is left of the text if any of it is missing is refused. -/
theorem C104_written_VFreebusy (hf : FineFloats) (v w : VFreebusy) (hv : FineVFreebusy v) (s q : Str) (hw : ical v = .ok s) (h : VFreebusy.ofStr s = .ok w)
    (hq : q <+: s) (hne : q ≠ s) : VFreebusy.ofStr q = .err .parser := by
  obtain ⟨ls, ts, hg, -, hu, hi⟩ := C100_VFreebusy hf hv s hw
  exact C104_rfc_VFreebusy _ hg s q hu hi w h (suffix_frame ((C75_VFreebusy v).1 s |>.1 hw)) hq hne

/-- **C104** for the standard part of a time zone that was written by the library: what is left of the text if any of it is missing is refused. -/
theorem C104_written_Standard (hf : FineFloats) (v w : Standard) (hv : FineStandard v) (s q : Str) (hw : ical v = .ok s) (h : Standard.ofStr s = .ok w)
    (hq : q <+: s) (hne : q ≠ s) : Standard.ofStr q = .err .parser := by
  obtain ⟨ls, ts, hg, -, hu, hi⟩ := C100_Standard hf hv s hw
  exact C104_rfc_Standard _ hg s q hu hi w h (suffix_frame ((C75_Standard v).1 s |>.1 hw)) hq hne

/-- **C104** for the daylight part of a time zone that was written by the library: what is left of the text if any of it is missing is refused. -/
theorem C104_written_Daylight (hf : FineFloats) (v w : Daylight) (hv : FineDaylight v) (s q : Str) (hw : ical v = .ok s) (h : Daylight.ofStr s = .ok w)
    (hq : q <+: s) (hne : q ≠ s) : Daylight.ofStr q = .err .parser := by
  obtain ⟨ls, ts, hg, -, hu, hi⟩ := C100_Daylight hf hv s hw
  exact C104_rfc_Daylight _ hg s q hu hi w h (suffix_frame ((C75_Daylight v).1 s |>.1 hw)) hq hne

/-- **C104** for a time zone that was written by the library: what is left of the text if any of it is missing is refused. -/
theorem C104_written_VTimezone (hf : FineFloats) (v w : VTimezone) (hv : FineVTimezone v) (s q : Str) (hw : ical v = .ok s) (h : VTimezone.ofStr s = .ok w)
    (hq : q <+: s) (hne : q ≠ s) : VTimezone.ofStr q = .err .parser := by
  obtain ⟨ls, ts, hg, -, hu, hi⟩ := C100_VTimezone hf hv s hw
  exact C104_rfc_VTimezone _ hg s q hu hi w h (suffix_frame ((C75_VTimezone v).1 s |>.1 hw)) hq hne

/-- **C104** for a calendar that was written by the library: what is left of the text if more than the last line break is missing is refused. -/
theorem C104_written_VCalendar (hf : FineFloats) (v w : VCalendar) (hv : FineVCalendar v) (s q : Str) (hw : ical v = .ok s) (h : VCalendar.ofStr s = .ok w)
    (hq : q <+: s) (hne : q.length + 2 < s.length) : VCalendar.ofStr q = .err .parser := by
  obtain ⟨ls, ts, hg, -, hu, hi⟩ := C100_VCalendar hf hv s hw
  exact C104_rfc_VCalendar _ hg s q hu hi w h (suffix_frame ((C75_VCalendar v).1 s |>.1 hw)) hq hne

/-! ## Texts that cannot be read -/

/-- **C104** for an alarm in an RFC 5545 text, whether or not the text can be read: if any of it is missing, it is not read. -/
theorem C104_never_VAlarm (t : Tree) (ht : t.Good) (s q : Str) (hs : Abnf.Unfolds s t.str) (hi : ¬ c!"\r\n\t" <:+: s)
    (he : c!"END:VALARM\r\n" <:+ s) (hq : q <+: s) (hne : q ≠ s) (v : VAlarm) : VAlarm.ofStr q ≠ .ok v := by
  obtain ⟨s0, e⟩ := ends_in he
  exact never_read valarm_never ht (s0 := s0 ++ c!"END:VALAR") (y := 'M') (unfolds_iff.1 (unfolds_same hs hi)) (by decide) (by decide) (by decide)
    (by rw [e]; simp) hq hne v

/-- **C104** for an event in an RFC 5545 text, whether or not the text can be read: if any of it is missing, it is not read. -/
theorem C104_never_VEvent (t : Tree) (ht : t.Good) (s q : Str) (hs : Abnf.Unfolds s t.str) (hi : ¬ c!"\r\n\t" <:+: s)
    (he : c!"END:VEVENT\r\n" <:+ s) (hq : q <+: s) (hne : q ≠ s) (v : VEvent) : VEvent.ofStr q ≠ .ok v := by
  obtain ⟨s0, e⟩ := ends_in he
  exact never_read vevent_never ht (s0 := s0 ++ c!"END:VEVEN") (y := 'T') (unfolds_iff.1 (unfolds_same hs hi)) (by decide) (by decide) (by decide)
    (by rw [e]; simp) hq hne v

/-- **C104** for a to-do in an RFC 5545 text, whether or not the text can be read: if any of it is missing, it is not read. -/
theorem C104_never_VTodo (t : Tree) (ht : t.Good) (s q : Str) (hs : Abnf.Unfolds s t.str) (hi : ¬ c!"\r\n\t" <:+: s)
    (he : c!"END:VTODO\r\n" <:+ s) (hq : q <+: s) (hne : q ≠ s) (v : VTodo) : VTodo.ofStr q ≠ .ok v := by
  obtain ⟨s0, e⟩ := ends_in he
  exact never_read vtodo_never ht (s0 := s0 ++ c!"END:VTOD") (y := 'O') (unfolds_iff.1 (unfolds_same hs hi)) (by decide) (by decide) (by decide)
    (by rw [e]; simp) hq hne v

/-- **C104** for a journal entry in an RFC 5545 text, whether or not the text can be read: if any of it is missing, it is not read. -/
theorem C104_never_VJournal (t : Tree) (ht : t.Good) (s q : Str) (hs : Abnf.Unfolds s t.str) (hi : ¬ c!"\r\n\t" <:+: s)
    (he : c!"END:VJOURNAL\r\n" <:+ s) (hq : q <+: s) (hne : q ≠ s) (v : VJournal) : VJournal.ofStr q ≠ .ok v := by
  obtain ⟨s0, e⟩ := ends_in he
  exact never_read vjournal_never ht (s0 := s0 ++ c!"END:VJOURNA") (y := 'L') (unfolds_iff.1 (unfolds_same hs hi)) (by decide) (by decide) (by decide)
    (by rw [e]; simp) hq hne v

/-- **C104** for a free/busy time in an RFC 5545 text, whether or not the text can be read: if any of it is missing, it is not read. -/
theorem C104_never_VFreebusy (t : Tree) (ht : t.Good) (s q : Str) (hs : Abnf.Unfolds s t.str) (hi : ¬ c!"\r\n\t" <:+: s)
    (he : c!"END:VFREEBUSY\r\n" <:+ s) (hq : q <+: s) (hne : q ≠ s) (v : VFreebusy) : VFreebusy.ofStr q ≠ .ok v := by
  obtain ⟨s0, e⟩ := ends_in he
  exact never_read vfreebusy_never ht (s0 := s0 ++ c!"END:VFREEBUS") (y := 'Y') (unfolds_iff.1 (unfolds_same hs hi)) (by decide) (by decide) (by decide)
    (by rw [e]; simp) hq hne v

/-- **C104** for the standard part of a time zone in an RFC 5545 text, whether or not the text can be read: if any of it is missing, it is not read. -/
theorem C104_never_Standard (t : Tree) (ht : t.Good) (s q : Str) (hs : Abnf.Unfolds s t.str) (hi : ¬ c!"\r\n\t" <:+: s)
    (he : c!"END:STANDARD\r\n" <:+ s) (hq : q <+: s) (hne : q ≠ s) (v : Standard) : Standard.ofStr q ≠ .ok v := by
  obtain ⟨s0, e⟩ := ends_in he
  exact never_read standard_never ht (s0 := s0 ++ c!"END:STANDAR") (y := 'D') (unfolds_iff.1 (unfolds_same hs hi)) (by decide) (by decide) (by decide)
    (by rw [e]; simp) hq hne v

/-- **C104** for the daylight part of a time zone in an RFC 5545 text, whether or not the text can be read: if any of it is missing, it is not read. -/
theorem C104_never_Daylight (t : Tree) (ht : t.Good) (s q : Str) (hs : Abnf.Unfolds s t.str) (hi : ¬ c!"\r\n\t" <:+: s)
    (he : c!"END:DAYLIGHT\r\n" <:+ s) (hq : q <+: s) (hne : q ≠ s) (v : Daylight) : Daylight.ofStr q ≠ .ok v := by
  obtain ⟨s0, e⟩ := ends_in he
  exact never_read daylight_never ht (s0 := s0 ++ c!"END:DAYLIGH") (y := 'T') (unfolds_iff.1 (unfolds_same hs hi)) (by decide) (by decide) (by decide)
    (by rw [e]; simp) hq hne v

/-- **C104** for a time zone in an RFC 5545 text, whether or not the text can be read: if any of it is missing, it is not read. -/
theorem C104_never_VTimezone (t : Tree) (ht : t.Good) (s q : Str) (hs : Abnf.Unfolds s t.str) (hi : ¬ c!"\r\n\t" <:+: s)
    (he : c!"END:VTIMEZONE\r\n" <:+ s) (hq : q <+: s) (hne : q ≠ s) (v : VTimezone) : VTimezone.ofStr q ≠ .ok v := by
  obtain ⟨s0, e⟩ := ends_in he
  exact never_read vtimezone_never ht (s0 := s0 ++ c!"END:VTIMEZON") (y := 'E') (unfolds_iff.1 (unfolds_same hs hi)) (by decide) (by decide) (by decide)
    (by rw [e]; simp) hq hne v

/-- **C104** for a calendar in an RFC 5545 text, whether or not the text can be read: if more than the last line break is missing, it is not read. -/
theorem C104_never_VCalendar (t : Tree) (ht : t.Good) (s q : Str) (hs : Abnf.Unfolds s t.str) (hi : ¬ c!"\r\n\t" <:+: s)
    (he : c!"END:VCALENDAR\r\n" <:+ s) (hq : q <+: s) (hne : q.length + 2 < s.length) (v : VCalendar) : VCalendar.ofStr q ≠ .ok v := by
  obtain ⟨s0, e⟩ := ends_in he
  have hu := unfolds_iff.1 (unfolds_same hs hi)
  have e' : s = (s0 ++ c!"END:VCALENDAR") ++ c!"\r\n" := by rw [e]; simp
  have hun : unfold s = unfold (s0 ++ c!"END:VCALENDAR") ++ c!"\r\n" := by rw [e']; exact unfold_lineEnd _
  have hq' : q <+: s0 ++ c!"END:VCALENDAR" := by
    rw [e'] at hq
    rcases prefix_split hq with ⟨h1, -⟩ | ⟨d, rfl, -⟩
    · exact h1
    · rw [e'] at hne; simp at hne; omega
  obtain ⟨d, f, h1, h2, h3, h4, h5⟩ := cut_split (s0 := s0 ++ c!"END:VCALENDA") (y := 'R') (by decide) (by decide) (by decide) (.inl (by simp)) hq'
    (by rintro rfl; rw [e'] at hne; simp at hne)
  intro hv
  unfold VCalendar.ofStr componentOfStr at hv
  rw [h1] at hv
  cases hr : vcalendar (d ++ f) with
  | ok r a => exact vcalendar_never ht (hu.symm.trans hun) h2 h3 h4 h5 r a hr
  | err => rw [hr] at hv; cases hv
  | panic => rw [hr] at hv; cases hv

/-! ## What the library wrote itself, even if it cannot read it -/

/-- **C104** for an alarm that was written by the library, whether or not the library can read what it wrote: if any of the text is missing, it is not read. -/
theorem C104_unfinished_VAlarm (hf : FineFloats) (v w : VAlarm) (hv : FineVAlarm v) (s q : Str) (hw : ical v = .ok s) (hq : q <+: s) (hne : q ≠ s) :
    VAlarm.ofStr q ≠ .ok w := by
  obtain ⟨ls, ts, hg, -, hu, hi⟩ := C100_VAlarm hf hv s hw
  exact C104_never_VAlarm _ hg s q hu hi (suffix_alarm ((C75_VAlarm v).1 s |>.1 hw)) hq hne w

/-- **C104** for an event that was written by the library, whether or not the library can read what it wrote: if any of the text is missing, it is not read. -/
theorem C104_unfinished_VEvent (hf : FineFloats) (v w : VEvent) (hv : FineVEvent v) (s q : Str) (hw : ical v = .ok s) (hq : q <+: s) (hne : q ≠ s) :
    VEvent.ofStr q ≠ .ok w := by
  obtain ⟨ls, ts, hg, -, hu, hi⟩ := C100_VEvent hf hv s hw
  exact C104_never_VEvent _ hg s q hu hi (suffix_frame ((C75_VEvent v).1 s |>.1 hw)) hq hne w

/-- **C104** for a to-do that was written by the library, whether or not the library can read what it wrote: if any of the text is missing, it is not read. -/
theorem C104_unfinished_VTodo (hf : FineFloats) (v w : VTodo) (hv : FineVTodo v) (s q : Str) (hw : ical v = .ok s) (hq : q <+: s) (hne : q ≠ s) :
    VTodo.ofStr q ≠ .ok w := by
  obtain ⟨ls, ts, hg, -, hu, hi⟩ := C100_VTodo hf hv s hw
  exact C104_never_VTodo _ hg s q hu hi (suffix_frame ((C75_VTodo v).1 s |>.1 hw)) hq hne w

/-- **C104** for a journal entry that was written by the library, whether or not the library can read what it wrote: if any of the text is missing, it is not read. -/
theorem C104_unfinished_VJournal (hf : FineFloats) (v w : VJournal) (hv : FineVJournal v) (s q : Str) (hw : ical v = .ok s) (hq : q <+: s) (hne : q ≠ s) :
    VJournal.ofStr q ≠ .ok w := by
  obtain ⟨ls, ts, hg, -, hu, hi⟩ := C100_VJournal hf hv s hw
  exact C104_never_VJournal _ hg s q hu hi (suffix_frame ((C75_VJournal v).1 s |>.1 hw)) hq hne w

/-- **C104** for a free/busy time that was written by the library, whether or not the library can read what it wrote: if any of the text is missing, it is not read. -/
theorem C104_unfinished_VFreebusy (hf : FineFloats) (v w : VFreebusy) (hv : FineVFreebusy v) (s q : Str) (hw : ical v = .ok s) (hq : q <+: s) (hne : q ≠ s) :
    VFreebusy.ofStr q ≠ .ok w := by
  obtain ⟨ls, ts, hg, -, hu, hi⟩ := C100_VFreebusy hf hv s hw
  exact C104_never_VFreebusy _ hg s q hu hi (suffix_frame ((C75_VFreebusy v).1 s |>.1 hw)) hq hne w

/-- **C104** for the standard part of a time zone that was written by the library, whether or not the library can read what it wrote: if any of the text is missing, it is not read. -/
theorem C104_unfinished_Standard (hf : FineFloats) (v w : Standard) (hv : FineStandard v) (s q : Str) (hw : ical v = .ok s) (hq : q <+: s) (hne : q ≠ s) :
    Standard.ofStr q ≠ .ok w := by
  obtain ⟨ls, ts, hg, -, hu, hi⟩ := C100_Standard hf hv s hw
  exact C104_never_Standard _ hg s q hu hi (suffix_frame ((C75_Standard v).1 s |>.1 hw)) hq hne w

/-- **C104** for the daylight part of a time zone that was written by the library, whether or not the library can read what it wrote: if any of the text is missing, it is not read. -/
theorem C104_unfinished_Daylight (hf : FineFloats) (v w : Daylight) (hv : FineDaylight v) (s q : Str) (hw : ical v = .ok s) (hq : q <+: s) (hne : q ≠ s) :
    Daylight.ofStr q ≠ .ok w := by
  obtain ⟨ls, ts, hg, -, hu, hi⟩ := C100_Daylight hf hv s hw
  exact C104_never_Daylight _ hg s q hu hi (suffix_frame ((C75_Daylight v).1 s |>.1 hw)) hq hne w

/-- **C104** for a time zone that was written by the library, whether or not the library can read what it wrote: if any of the text is missing, it is not read. -/
theorem C104_unfinished_VTimezone (hf : FineFloats) (v w : VTimezone) (hv : FineVTimezone v) (s q : Str) (hw : ical v = .ok s) (hq : q <+: s) (hne : q ≠ s) :
    VTimezone.ofStr q ≠ .ok w := by
  obtain ⟨ls, ts, hg, -, hu, hi⟩ := C100_VTimezone hf hv s hw
  exact C104_never_VTimezone _ hg s q hu hi (suffix_frame ((C75_VTimezone v).1 s |>.1 hw)) hq hne w

/-- **C104** for a calendar that was written by the library, whether or not the library can read what it wrote: if more than the last line break is missing, it is not read. -/
theorem C104_unfinished_VCalendar (hf : FineFloats) (v w : VCalendar) (hv : FineVCalendar v) (s q : Str) (hw : ical v = .ok s) (hq : q <+: s)
    (hne : q.length + 2 < s.length) : VCalendar.ofStr q ≠ .ok w := by
  obtain ⟨ls, ts, hg, -, hu, hi⟩ := C100_VCalendar hf hv s hw
  exact C104_never_VCalendar _ hg s q hu hi (suffix_frame ((C75_VCalendar v).1 s |>.1 hw)) hq hne w

end

/-! ## Cases -/

section
open Abnf

@[reducible] private def machine : Platform := ieee utc
attribute [local instance] machine

private def zone : VTimezone where
  tzid := ⟨[(c!"X-A", c!"b")], c!"Europe, or \"thereabouts\"; a name that is so long that its line has to be folded somewhere"⟩
  lastModified := some (.naive ⟨⟨2024, 3, 31⟩, 9000, 0⟩)
  tzurl := some ⟨[], c!"http://a.example/="⟩
  standard := []
  daylight := []
  xProp := []
  ianaProp := []

private theorem fine_of {s : Str} (h : s.all (fun c => decide (Control c → c = '\n')) = true) : Fine s := fun c hc =>
  of_decide_eq_true (List.all_eq_true.1 h c hc)

private theorem zone_fine : FineVTimezone zone where
  tzid := ⟨fine_of rfl, by
    intro p hp
    simp only [zone, List.mem_singleton] at hp
    subst hp
    exact ⟨⟨by decide, by unfold TokenChar; decide⟩, fine_of rfl, by decide, by decide, by decide⟩⟩
  tzurl := by intro a ha; cases ha; exact ⟨fine_of rfl, by intro p hp; cases hp⟩
  standard := ⟨Nat.zero_le _, by intro a ha; cases ha⟩
  daylight := ⟨Nat.zero_le _, by intro a ha; cases ha⟩
  order := .inl ⟨rfl, rfl⟩
  xProp := by intro a ha; cases ha
  ianaProp := by intro a ha; cases ha

private def zoneText : Str := c!"BEGIN:VTIMEZONE\r\nTZID;X-A=b:Europe\\, or \"thereabouts\"\\; a name that is so long that its line\r\n  has to be folded somewhere\r\n" ++
  c!"LAST-MODIFIED:20240331T023000\r\nTZURL:http://a.example/=\r\nEND:VTIMEZONE\r\n"

set_option maxRecDepth 8000 in
/-- Of this zone nothing less than the whole text is read. -/
example (q : Str) (hq : q <+: zoneText) (hne : q ≠ zoneText) : VTimezone.ofStr q = .err .parser := by
  have h1 : ical zone = .ok zoneText := by rfl
  have h2 : (VTimezone.ofStr zoneText).isOk = true := by decide +kernel
  obtain ⟨w, h2⟩ := Res.isOk_iff.1 h2
  exact C104_written_VTimezone (C100_floats utc) zone w zone_fine zoneText q h1 h2 hq hne

private def farZone : VTimezone := { zone with lastModified := some (.naive ⟨⟨12024, 3, 31⟩, 9000, 0⟩) }

private theorem farZone_fine : FineVTimezone farZone := ⟨zone_fine.tzid, zone_fine.tzurl, zone_fine.standard, zone_fine.daylight, zone_fine.order, zone_fine.xProp, zone_fine.ianaProp⟩

private def farText : Str := c!"BEGIN:VTIMEZONE\r\nTZID;X-A=b:Europe\\, or \"thereabouts\"\\; a name that is so long that its line\r\n  has to be folded somewhere\r\n" ++
  c!"LAST-MODIFIED:+120240331T023000\r\nTZURL:http://a.example/=\r\nEND:VTIMEZONE\r\n"

set_option maxRecDepth 8000 in
/-- The text of this zone, of the year 12024, cannot be read at all, and neither can any part of it. -/
example (q : Str) (w : VTimezone) (hq : q <+: farText) : VTimezone.ofStr q ≠ .ok w := by
  have h1 : ical farZone = .ok farText := by rfl
  have h2 : (VTimezone.ofStr farText).isOk = false := by decide +kernel
  by_cases hne : q = farText
  · subst hne
    intro h
    rw [h] at h2
    cases h2
  · exact C104_unfinished_VTimezone (C100_floats utc) farZone w farZone_fine farText q h1 hq hne

private def quoteText : Str := c!"BEGIN:VTIMEZONE\r\nTZID;P=\"b:c\r\nEND:VTIMEZONE\r\n\":v\r\nEND:VTIMEZONE\r\n"

/-- **C104**, the proviso is needed: a quotation that goes over the end of a line. The text is cut and read as something else. -/
theorem C104_quotes_needed :
    (∃ q, q <+: quoteText ∧ (VTimezone.ofStr q).map (·.tzid.text) = .ok c!"c") ∧
    (VTimezone.ofStr quoteText).map (·.tzid.text) = .ok c!"v" ∧ ¬ QuotesClose quoteText :=
  ⟨⟨openQuote, ⟨c!"\":v\r\nEND:VTIMEZONE\r\n", by decide⟩, by decide +kernel⟩, by decide +kernel, fun h =>
    h c!"BEGIN:VTIMEZONE\r\nTZID;P" c!"b:c\r\nEND:VTIMEZONE\r\n" c!"\":v\r\nEND:VTIMEZONE\r\n" (by decide) (by decide) (by decide) (by decide)⟩

/-- **C104**, the other case of the first theorems: the last line is folded, and only a fold is missing. -/
theorem C104_fold_missing :
    (VTimezone.ofStr c!"BEGIN:VTIMEZONE\r\nTZID:A\r\nEND:VTIMEZONE\r\n \r\n").map (·.tzid.text) = .ok c!"A" ∧
    (VTimezone.ofStr c!"BEGIN:VTIMEZONE\r\nTZID:A\r\nEND:VTIMEZONE\r\n").map (·.tzid.text) = .ok c!"A" := by decide +kernel

/-- **C104**: the last line break of a calendar is not needed. -/
theorem C104_calendar_line_break :
    (VCalendar.ofStr c!"BEGIN:VCALENDAR\r\nPRODID:A\r\nVERSION:2.0\r\nEND:VCALENDAR").map (·.prodid.text) = .ok c!"A" ∧
    (VCalendar.ofStr c!"BEGIN:VCALENDAR\r\nPRODID:A\r\nVERSION:2.0\r\nEND:VCALENDA").isOk = false := by decide +kernel

/-- **C104**, what it does not say: a text written over another one and not finished may be read as neither. -/
theorem C104_overwritten :
    ∃ old new mixed k, mixed = new.take k ++ old.drop k ∧
      (VTimezone.ofStr old).map (·.tzid.text) = .ok c!"winter" ∧ (VTimezone.ofStr new).map (·.tzid.text) = .ok c!"summer" ∧
      (VTimezone.ofStr mixed).map (·.tzid.text) = .ok c!"sunter" :=
  ⟨c!"BEGIN:VTIMEZONE\r\nTZID:winter\r\nEND:VTIMEZONE\r\n", c!"BEGIN:VTIMEZONE\r\nTZID:summer\r\nEND:VTIMEZONE\r\n",
    c!"BEGIN:VTIMEZONE\r\nTZID:sunter\r\nEND:VTIMEZONE\r\n", 24, by decide, by decide +kernel, by decide +kernel, by decide +kernel⟩

end

end Ikal
