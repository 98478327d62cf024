import Verif.Lemmas.Cost
import Verif.TestPlatform

/-!
# C103: reading looks at each character a bounded number of times
-/

namespace Ikal

set_option linter.unusedSectionVars false

section
variable [Platform]

/-- **C103**: reading an alarm from a text looks at characters at most 14 times as often as the text has characters, and 17 times more,
whether it is read, refused or panics. -/
theorem C103_VAlarm (s : Str) : (Cost.valarm (unfold s)).1.toRes = VAlarm.ofStr s ∧ (Cost.valarm (unfold s)).2 ≤ 14 * s.length + 17 := by
  refine ⟨congrArg NRes.toRes (Cost.valarm_counts _), ?_⟩
  have h := Cost.valarm_frame.bound (unfold s) (by decide)
  have := Cost.unfold_length s
  omega

/-- **C103**: a success has looked at every character it consumed: the count leaves none out. -/
theorem C103_VAlarm_all (i r : Str) (v : VAlarm) (n : Nat) (h : Cost.valarm i = (.ok r v, n)) : i.length ≤ n + r.length :=
  Cost.componentP_honest _ _ _ _ _ _ h

/-- **C103**: reading a free/busy time from a text looks at characters at most 14 times as often as the text has characters, and 17 times more,
whether it is read, refused or panics. -/
theorem C103_VFreebusy (s : Str) : (Cost.vfreebusy (unfold s)).1.toRes = VFreebusy.ofStr s ∧ (Cost.vfreebusy (unfold s)).2 ≤ 14 * s.length + 17 := by
  refine ⟨congrArg NRes.toRes (Cost.vfreebusy_counts _), ?_⟩
  have h := Cost.vfreebusy_frame.bound (unfold s) (by decide)
  have := Cost.unfold_length s
  omega

/-- **C103**: a success has looked at every character it consumed: the count leaves none out. -/
theorem C103_VFreebusy_all (i r : Str) (v : VFreebusy) (n : Nat) (h : Cost.vfreebusy i = (.ok r v, n)) : i.length ≤ n + r.length :=
  Cost.componentP_honest _ _ _ _ _ _ h

/-- **C103**: reading a to-do from a text looks at characters at most 14 times as often as the text has characters, and 17 times more,
whether it is read, refused or panics. -/
theorem C103_VTodo (s : Str) : (Cost.vtodo (unfold s)).1.toRes = VTodo.ofStr s ∧ (Cost.vtodo (unfold s)).2 ≤ 14 * s.length + 17 := by
  refine ⟨congrArg NRes.toRes (Cost.vtodo_counts _), ?_⟩
  have h := Cost.vtodo_frame.bound (unfold s) (by decide)
  have := Cost.unfold_length s
  omega

/-- **C103**: a success has looked at every character it consumed: the count leaves none out. -/
theorem C103_VTodo_all (i r : Str) (v : VTodo) (n : Nat) (h : Cost.vtodo i = (.ok r v, n)) : i.length ≤ n + r.length :=
  Cost.componentP_honest _ _ _ _ _ _ h

/-- **C103**: reading a journal entry from a text looks at characters at most 14 times as often as the text has characters, and 17 times more,
whether it is read, refused or panics. -/
theorem C103_VJournal (s : Str) : (Cost.vjournal (unfold s)).1.toRes = VJournal.ofStr s ∧ (Cost.vjournal (unfold s)).2 ≤ 14 * s.length + 17 := by
  refine ⟨congrArg NRes.toRes (Cost.vjournal_counts _), ?_⟩
  have h := Cost.vjournal_frame.bound (unfold s) (by decide)
  have := Cost.unfold_length s
  omega

/-- **C103**: a success has looked at every character it consumed: the count leaves none out. -/
theorem C103_VJournal_all (i r : Str) (v : VJournal) (n : Nat) (h : Cost.vjournal i = (.ok r v, n)) : i.length ≤ n + r.length :=
  Cost.componentP_honest _ _ _ _ _ _ h

/-- **C103**: reading the standard part of a time zone from a text looks at characters at most 14 times as often as the text has characters, and 17 times more,
whether it is read, refused or panics. -/
theorem C103_Standard (s : Str) : (Cost.standard (unfold s)).1.toRes = Standard.ofStr s ∧ (Cost.standard (unfold s)).2 ≤ 14 * s.length + 17 := by
  refine ⟨congrArg NRes.toRes (Cost.standard_counts _), ?_⟩
  have h := Cost.standard_frame.bound (unfold s) (by decide)
  have := Cost.unfold_length s
  omega

/-- **C103**: a success has looked at every character it consumed: the count leaves none out. -/
theorem C103_Standard_all (i r : Str) (v : Standard) (n : Nat) (h : Cost.standard i = (.ok r v, n)) : i.length ≤ n + r.length :=
  Cost.componentP_honest _ _ _ _ _ _ h

/-- **C103**: reading the daylight part of a time zone from a text looks at characters at most 14 times as often as the text has characters, and 17 times more,
whether it is read, refused or panics. -/
theorem C103_Daylight (s : Str) : (Cost.daylight (unfold s)).1.toRes = Daylight.ofStr s ∧ (Cost.daylight (unfold s)).2 ≤ 14 * s.length + 17 := by
  refine ⟨congrArg NRes.toRes (Cost.daylight_counts _), ?_⟩
  have h := Cost.daylight_frame.bound (unfold s) (by decide)
  have := Cost.unfold_length s
  omega

/-- **C103**: a success has looked at every character it consumed: the count leaves none out. -/
theorem C103_Daylight_all (i r : Str) (v : Daylight) (n : Nat) (h : Cost.daylight i = (.ok r v, n)) : i.length ≤ n + r.length :=
  Cost.componentP_honest _ _ _ _ _ _ h

/-- **C103**: reading an event from a text looks at characters at most 14 times as often as the text has characters, and 17 times more,
whether it is read, refused or panics. -/
theorem C103_VEvent (s : Str) : (Cost.vevent (unfold s)).1.toRes = VEvent.ofStr s ∧ (Cost.vevent (unfold s)).2 ≤ 14 * s.length + 17 := by
  refine ⟨congrArg NRes.toRes (Cost.vevent_counts _), ?_⟩
  have h := Cost.vevent_frame.bound (unfold s) (by decide)
  have := Cost.unfold_length s
  omega

/-- **C103**: a success has looked at every character it consumed: the count leaves none out. -/
theorem C103_VEvent_all (i r : Str) (v : VEvent) (n : Nat) (h : Cost.vevent i = (.ok r v, n)) : i.length ≤ n + r.length :=
  Cost.vevent_honest _ _ _ _ h

/-- **C103**: reading a time zone from a text looks at characters at most 14 times as often as the text has characters, and 17 times more,
whether it is read, refused or panics. -/
theorem C103_VTimezone (s : Str) : (Cost.vtimezone (unfold s)).1.toRes = VTimezone.ofStr s ∧ (Cost.vtimezone (unfold s)).2 ≤ 14 * s.length + 17 := by
  refine ⟨congrArg NRes.toRes (Cost.vtimezone_counts _), ?_⟩
  have h := Cost.vtimezone_frame.bound (unfold s) (by decide)
  have := Cost.unfold_length s
  omega

/-- **C103**: a success has looked at every character it consumed: the count leaves none out. -/
theorem C103_VTimezone_all (i r : Str) (v : VTimezone) (n : Nat) (h : Cost.vtimezone i = (.ok r v, n)) : i.length ≤ n + r.length :=
  Cost.vtimezone_honest _ _ _ _ h

/-- **C103**: reading a calendar from a text looks at characters at most 14 times as often as the text has characters, and 17 times more,
whether it is read, refused or panics. -/
theorem C103_VCalendar (s : Str) : (Cost.vcalendar (unfold s)).1.toRes = VCalendar.ofStr s ∧ (Cost.vcalendar (unfold s)).2 ≤ 14 * s.length + 17 := by
  refine ⟨congrArg NRes.toRes (Cost.vcalendar_counts _), ?_⟩
  have h := Cost.vcalendar_frame.bound (unfold s) (by decide)
  have := Cost.unfold_length s
  omega

/-- **C103**: a success has looked at every character it consumed: the count leaves none out. -/
theorem C103_VCalendar_all (i r : Str) (v : VCalendar) (n : Nat) (h : Cost.vcalendar i = (.ok r v, n)) : i.length ≤ n + r.length :=
  Cost.vcalendar_honest _ _ _ _ h

/-- **C103**: the same for the lines of a component. -/
theorem C103_lines (i : Str) : (Cost.contentLines i).1 = contentLines i ∧ (Cost.contentLines i).2 ≤ 10 * i.length + 19 := by
  refine ⟨Cost.contentLines_counts i, ?_⟩
  obtain ⟨a, r, x, n, h1, h2, h3⟩ := Cost.lines_cost i
  have hl : i.length = a.length + r.length := by rw [h2, List.length_append]
  have := Cost.rest_le r
  have := Cost.quotes_le i
  have := Cost.quotes_le r
  rw [h1]
  show n ≤ _
  omega

end

/-! Examples: the count of a small alarm, of a line that is refused and of a quote that is not closed, for which the rest of the text is looked at twice. -/

section
attribute [local instance] utc

set_option maxRecDepth 8000 in
example : (Cost.valarm c!"BEGIN:VALARM\r\nACTION:AUDIO\r\nTRIGGER:-PT5M\r\nEND:VALARM\r\n").2 = 74 ∧
    (c!"BEGIN:VALARM\r\nACTION:AUDIO\r\nTRIGGER:-PT5M\r\nEND:VALARM\r\n" : Str).length = 55 := by decide +kernel

set_option maxRecDepth 8000 in
example : (Cost.contentLines c!"NO COLON\r\nA:B\r\n").2 = 8 ∧ (contentLines c!"NO COLON\r\nA:B\r\n") = .ok c!"NO COLON\r\nA:B\r\n" [] := by decide +kernel

set_option maxRecDepth 8000 in
example : (Cost.contentLines c!"A;B=\"C:D\r\nEND:").2 = 39 ∧ (Cost.contentLines c!"A;B=\"C\":D\r\nEND:").2 = 25 := by decide +kernel

end

end Ikal
