import Verif.Messages
import Verif.Spec.Names
import Verif.Props.Names
import Verif.Props.Component
import Verif.Props.Output
import Verif.TestPlatform

/-!
# Which errors can be seen, and what they say (C89)
-/

namespace Ikal

open Spec

set_option linter.unusedSectionVars false

section
variable [Platform]

theorem toRes_err {α : Type} {x : NRes α} {e : Error} (h : x.toRes = .err e) : e = .parser := by
  cases x <;> simp only [NRes.toRes] at h <;> first | (cases h; done) | (cases h; rfl)

theorem bind_err {α β : Type} {x : Res α} {f : α → Res β} {e : Error} (h : (x >>= f) = .err e) : x = .err e ∨ ∃ a, x = .ok a ∧ f a = .err e := by
  cases x with
  | ok a => exact .inr ⟨a, rfl, h⟩
  | err e' => left; have : Res.err e' = (.err e : Res β) := h
              cases this; rfl
  | panic => cases h

theorem map_err {α β : Type} {x : Res α} {f : α → β} {e : Error} (h : x.map f = .err e) : x = .err e := by
  cases x with
  | ok a => cases h
  | err e' => have : Res.err e' = (.err e : Res β) := h
              cases this; rfl
  | panic => cases h

/-- **C89**: reading a component, a rule, a weekday, a numbered weekday, a position, a status of a request or a period fails with the parser's
error and no other. -/
theorem C89_parser (s : Str) (e : Error) :
    (VCalendar.ofStr s = .err e → e = .parser) ∧ (VEvent.ofStr s = .err e → e = .parser) ∧
    (VTodo.ofStr s = .err e → e = .parser) ∧ (VJournal.ofStr s = .err e → e = .parser) ∧
    (VFreebusy.ofStr s = .err e → e = .parser) ∧ (VTimezone.ofStr s = .err e → e = .parser) ∧
    (VAlarm.ofStr s = .err e → e = .parser) ∧ (Recur.ofStr s = .err e → e = .parser) ∧
    (Weekday.ofStr s = .err e → e = .parser) ∧ (WeekdayNum.ofStr s = .err e → e = .parser) ∧
    (geo (ContentLine.ofValue s) = .err e → e = .parser) ∧ (rstatus (ContentLine.ofValue s) = .err e → e = .parser) ∧
    (period s = .err e → e = .parser) := by
  obtain ⟨h1, h2, h3, h4, h5, h6, h7, -, -⟩ := C21_only_parser_error s e
  refine ⟨h1, h2, h3, h4, h5, h6, h7, toRes_err, toRes_err, toRes_err, toRes_err, toRes_err, ?_⟩
  intro h
  unfold period at h
  rcases bind_err h with h | ⟨t, -, h⟩
  · exact toRes_err h
  · simp only at h
    split at h
    · cases h
    · split at h
      · rcases bind_err h with h | ⟨d, -, h⟩
        · exact toRes_err h
        · cases h
      · rcases bind_err h with h | ⟨d, -, h⟩
        · exact toRes_err h
        · cases h

/-- **C89**: reading a date or a date-time fails with chrono's error and no other; reading a trigger never fails with it but with that of an
integer or of a duration; making a date-time local fails only if there is no single local time. -/
theorem C89_dates (s : Str) (e : Error) :
    (DateTime.ofStr s = .err e → e = .date) ∧ (Date.ofStr s = .err e → e = .date) ∧
    (Trigger.ofStr s = .err e → e = .parseInt ∨ e = .parseDuration) ∧ ∀ t : DateTime, t.toLocal = .err e → e = .localTime := by
  have hdt : ∀ e, DateTime.ofStr s = .err e → e = .date := by
    intro e h
    unfold DateTime.ofStr at h
    split at h
    · cases h
    · split at h
      · cases h; rfl
      · have := map_err h
        unfold Res.unwrap at this
        split at this <;> cases this
  refine ⟨hdt e, ?_, ?_, ?_⟩
  · intro h
    unfold Date.ofStr at h
    split at h
    · cases h
    · exact hdt e (map_err h)
  · intro h
    unfold Trigger.ofStr at h
    split at h
    · cases h
    · have h := map_err h
      have hunwrap : ∀ {β : Type} {o : Option β} {e : Error}, Res.unwrap o ≠ .err e := by
        intro β o e; cases o <;> simp [Res.unwrap]
      have hint : ∀ {i : Str} {e : Error}, Res.ofOption Error.parseInt (parseI64 i) = .err e → e = .parseInt := by
        intro i e h
        cases hp : parseI64 i <;> rw [hp] at h <;> cases h; rfl
      have hmul : ∀ {k n : Int} {e : Error}, mulI64 k n ≠ .err e := by
        intro k n e h
        unfold mulI64 at h
        split at h
        · cases h
        · split at h <;> cases h
      have hunit : ∀ {t c i e}, macroUnit t c i = .err e → e = .parseInt ∨ e = .parseDuration := by
        intro t c i e h
        unfold macroUnit at h
        simp only at h
        repeat' split at h
        · rcases bind_err h with h | ⟨n, -, h⟩
          · exact .inl (hint h)
          · rcases bind_err h with h | ⟨n, -, h⟩
            · exact absurd h hmul
            · exact absurd h hunwrap
        · rcases bind_err h with h | ⟨n, -, h⟩
          · exact .inl (hint h)
          · rcases bind_err h with h | ⟨n, -, h⟩
            · exact absurd h hmul
            · exact absurd h hunwrap
        · rcases bind_err h with h | ⟨n, -, h⟩
          · exact .inl (hint h)
          · exact absurd h hunwrap
        · rcases bind_err h with h | ⟨n, -, h⟩
          · exact .inl (hint h)
          · exact absurd h hunwrap
        · rcases bind_err h with h | ⟨n, -, h⟩
          · exact .inl (hint h)
          · exact absurd h hunwrap
        · rcases bind_err h with h | ⟨n, -, h⟩
          · exact .inl (hint h)
          · exact absurd h hunwrap
        · cases h; exact .inr rfl
      have hloop : ∀ (r : Str) {t i a e}, macroDurLoop t i a r = .err e → e = .parseInt ∨ e = .parseDuration := by
        intro r
        induction r with
        | nil => intro t i a e h; cases h
        | cons c r ih =>
          intro t i a e h
          unfold macroDurLoop at h
          split at h
          · exact ih h
          · split at h
            · exact ih h
            · rcases bind_err h with h | ⟨n, -, h⟩
              · exact hunit h
              · rcases bind_err h with h | ⟨n, -, h⟩
                · exact absurd h hunwrap
                · exact ih h
      unfold parseDuration at h
      simp only at h
      split at h
      · exact hloop _ (map_err h)
      · cases h; exact .inr rfl
    · cases h
  · intro t h
    unfold DateTime.toLocal at h
    split at h
    · next u =>
      unfold Res.ofOption at h
      split at h <;> cases h
      rfl
    · cases h

/-- **C89**: a text that is not the name of a status, a transparency or a frequency is quoted in the message, word for word. -/
theorem C89_quoted [Payloads] (s : Str) :
    (((∀ v, s ≠ statusName v) ∧ ∃ e, Status.ofStr s = .err e ∧ e.message = c!"Unknow status " ++ s) ∨ ∃ v, Status.ofStr s = .ok v) ∧
    (((∀ v, s ≠ transparencyName v) ∧ ∃ e, TimeTransparency.ofStr s = .err e ∧ e.message = c!"Unknow time transparency " ++ s) ∨
      ∃ v, TimeTransparency.ofStr s = .ok v) ∧
    (((∀ v, s ≠ freqName v) ∧ ∃ e, Freq.ofStr s = .err e ∧ e.message = c!"Invalid freq " ++ s) ∨ ∃ v, Freq.ofStr s = .ok v) := by
  refine ⟨?_, ?_, ?_⟩
  · by_cases h : ∃ v, s = statusName v
    · obtain ⟨v, h⟩ := h; exact .inr ⟨v, ((C23_status s).1 v).2 h⟩
    · have h : ∀ v, s ≠ statusName v := fun v hv => h ⟨v, hv⟩
      exact .inl ⟨h, _, (C23_status s).2 h, rfl⟩
  · by_cases h : ∃ v, s = transparencyName v
    · obtain ⟨v, h⟩ := h; exact .inr ⟨v, ((C23_transparency s).1 v).2 h⟩
    · have h : ∀ v, s ≠ transparencyName v := fun v hv => h ⟨v, hv⟩
      exact .inl ⟨h, _, (C23_transparency s).2 h, rfl⟩
  · by_cases h : ∃ v, s = freqName v
    · obtain ⟨v, h⟩ := h; exact .inr ⟨v, ((C23_freq s).1 v).2 h⟩
    · have h : ∀ v, s ≠ freqName v := fun v hv => h ⟨v, hv⟩
      exact .inl ⟨h, _, (C23_freq s).2 h, rfl⟩

/-- **C89**: writing a component never returns an error (it may panic, see C03). -/
theorem C89_writing : (∀ (c : VCalendar) e, Ser.ical c ≠ .err e) ∧ (∀ (c : VEvent) e, Ser.ical c ≠ .err e) ∧
    (∀ (c : VTodo) e, Ser.ical c ≠ .err e) ∧ (∀ (c : VJournal) e, Ser.ical c ≠ .err e) ∧ (∀ (c : VFreebusy) e, Ser.ical c ≠ .err e) ∧
    (∀ (c : VTimezone) e, Ser.ical c ≠ .err e) ∧ ∀ (c : VAlarm) e, Ser.ical c ≠ .err e :=
  ⟨VCalendar.noErr, VEvent.noErr, VTodo.noErr, VJournal.noErr, VFreebusy.noErr, VTimezone.noErr, VAlarm.noErr⟩

/-- **C89**: so, of the thirteen errors, only eight can be returned by reading a text or making a date-time local: a bad priority, an unknown alarm action
or a bad weekday is hidden in the parser's error, and the errors for keys and for writing are never returned. -/
theorem C89_hidden (s : Str) (e : Error)
    (h : VCalendar.ofStr s = .err e ∨ VEvent.ofStr s = .err e ∨ VTodo.ofStr s = .err e ∨ VJournal.ofStr s = .err e ∨
      VFreebusy.ofStr s = .err e ∨ VTimezone.ofStr s = .err e ∨ VAlarm.ofStr s = .err e ∨ Recur.ofStr s = .err e ∨ Weekday.ofStr s = .err e ∨
      WeekdayNum.ofStr s = .err e ∨ geo (ContentLine.ofValue s) = .err e ∨ rstatus (ContentLine.ofValue s) = .err e ∨ period s = .err e ∨
      DateTime.ofStr s = .err e ∨ Date.ofStr s = .err e ∨ Trigger.ofStr s = .err e ∨ Status.ofStr s = .err e ∨ TimeTransparency.ofStr s = .err e ∨
      Freq.ofStr s = .err e ∨ Class.ofStr s = .err e ∨ ∃ t : DateTime, t.toLocal = .err e) :
    e = .parser ∨ e = .date ∨ e = .parseInt ∨ e = .parseDuration ∨ e = .localTime ∨ e = .status s ∨ e = .timeTransparency s ∨ e = .freq s := by
  obtain ⟨p1, p2, p3, p4, p5, p6, p7, p8, p9, p10, p11, p12, p13⟩ := C89_parser s e
  obtain ⟨d1, d2, d3, d4⟩ := C89_dates s e
  have hstatus : Status.ofStr s = .err e → e = .status s := by
    intro h
    by_cases hv : ∃ v, s = statusName v
    · obtain ⟨v, hv⟩ := hv; rw [((C23_status s).1 v).2 hv] at h; cases h
    · rw [(C23_status s).2 fun v hx => hv ⟨v, hx⟩] at h; cases h; rfl
  have htr : TimeTransparency.ofStr s = .err e → e = .timeTransparency s := by
    intro h
    by_cases hv : ∃ v, s = transparencyName v
    · obtain ⟨v, hv⟩ := hv; rw [((C23_transparency s).1 v).2 hv] at h; cases h
    · rw [(C23_transparency s).2 fun v hx => hv ⟨v, hx⟩] at h; cases h; rfl
  have hfr : Freq.ofStr s = .err e → e = .freq s := by
    intro h
    by_cases hv : ∃ v, s = freqName v
    · obtain ⟨v, hv⟩ := hv; rw [((C23_freq s).1 v).2 hv] at h; cases h
    · rw [(C23_freq s).2 fun v hx => hv ⟨v, hx⟩] at h; cases h; rfl
  rcases h with h | h | h | h | h | h | h | h | h | h | h | h | h | h | h | h | h | h | h | h | ⟨t, h⟩
  · exact .inl (p1 h)
  · exact .inl (p2 h)
  · exact .inl (p3 h)
  · exact .inl (p4 h)
  · exact .inl (p5 h)
  · exact .inl (p6 h)
  · exact .inl (p7 h)
  · exact .inl (p8 h)
  · exact .inl (p9 h)
  · exact .inl (p10 h)
  · exact .inl (p11 h)
  · exact .inl (p12 h)
  · exact .inl (p13 h)
  · exact .inr (.inl (d1 h))
  · exact .inr (.inl (d2 h))
  · rcases d3 h with h | h
    · exact .inr (.inr (.inl h))
    · exact .inr (.inr (.inr (.inl h)))
  · exact .inr (.inr (.inr (.inr (.inr (.inl (hstatus h))))))
  · exact .inr (.inr (.inr (.inr (.inr (.inr (.inl (htr h)))))))
  · exact .inr (.inr (.inr (.inr (.inr (.inr (.inr (hfr h)))))))
  · exfalso
    unfold Class.ofStr at h
    repeat' split at h
    all_goals cases h
  · exact .inr (.inr (.inr (.inr (.inl (d4 t h)))))

/-- **C89**: the other readers accept every text or are reached only through a component: there a bad priority is refused with a message that
gives the number, a bad weekday with one that gives its two letters, an unknown action with one that gives the action. -/
theorem C89_inner [Payloads] :
    (∀ l n, 9 < n → parseU8 l.value = some n → ∃ e, priority l = .err e ∧ e.message = c!"Invalid priority: " ++ natStr n) ∧
    (∀ a b e, Weekday.ofChars a b = .err e → e.message = c!"Invalid weekday " ++ [a, b]) ∧
    ∀ ls l e, VAlarm.tryFrom ls = .err e → ls.find? (fun x => x.key = c!"ACTION") = some l →
      l.value ≠ c!"AUDIO" → l.value ≠ c!"DISPLAY" → l.value ≠ c!"EMAIL" → e.message = c!"Invalid alarm action: " ++ l.value := by
  refine ⟨?_, ?_, ?_⟩
  · intro l n hn hp
    refine ⟨.priority n, ?_, rfl⟩
    unfold priority
    rw [hp]
    simp only [gt_iff_lt, if_pos hn]
  · intro a b e h
    unfold Weekday.ofChars at h
    repeat' split at h
    all_goals cases h
    rfl
  · intro ls l e h hf h1 h2 h3
    unfold VAlarm.tryFrom at h
    rw [hf] at h
    simp only [h1, h2, h3, if_false] at h
    cases h
    rfl

/-- **C89**: the messages of chrono, of integers, of durations and of the parser of components are passed on as they are; that of a time that is not one local time is introduced by a
fixed text. -/
theorem C89_passed_on [Payloads] (s : Str) (e : Error) :
    (DateTime.ofStr s = .err e → e.message = Payloads.date) ∧ (Date.ofStr s = .err e → e.message = Payloads.date) ∧
    (Trigger.ofStr s = .err e → e.message = Payloads.parseInt ∨ e.message = Payloads.parseDuration) ∧
    (∀ t : DateTime, t.toLocal = .err e → e.message = c!"Invalid date in local timezone: " ++ Payloads.localTime) ∧
    (VAlarm.ofStr s = .err e ∨ VEvent.ofStr s = .err e ∨ VTodo.ofStr s = .err e ∨ VJournal.ofStr s = .err e ∨ VFreebusy.ofStr s = .err e ∨
      Standard.ofStr s = .err e ∨ Daylight.ofStr s = .err e ∨ VTimezone.ofStr s = .err e ∨ VCalendar.ofStr s = .err e → e.message = Payloads.parser) := by
  obtain ⟨h1, h2, h3, h4⟩ := C89_dates s e
  refine ⟨fun h => by rw [h1 h]; rfl, fun h => by rw [h2 h]; rfl, fun h => ?_, fun t h => by rw [h4 t h]; rfl, fun h => ?_⟩
  · rcases h3 h with rfl | rfl
    · exact .inl rfl
    · exact .inr rfl
  · rcases h with h | h | h | h | h | h | h | h | h <;> (rw [componentOfStr_err h]; rfl)

end

/-! ## Examples -/

section Examples
attribute [local instance] utc

/-- Each of the errors is returned by some reading. -/
example : Status.ofStr c!"DONE" = .err (.status c!"DONE") ∧ DateTime.ofStr c!"today" = .err .date ∧ Trigger.ofStr c!"PD" = .err .parseInt ∧
    Trigger.ofStr c!"soon" = .err .parseDuration ∧ Recur.ofStr c!"every day" = .err .parser ∧ period c!"now/then" = .err .parser := by decide +kernel
example [Payloads] : (Error.freq c!"daily").message = c!"Invalid freq daily" := rfl

end Examples

end Ikal
