import Verif.Spec.Document
import Verif.Props.Parse
import Verif.Lemmas.Component
import Verif.TestPlatform
import Verif.Props.Fold

/-! # C13 – C21 on texts -/

namespace Ikal

open Nom Spec

set_option linter.unusedSectionVars false

section Main

variable [Platform]

/-! ## Sequences of parts -/

theorem seqText_of_many {α : Type} {p : P α} {T : Str → α → Str → Prop} (h : ∀ i r a, p i = .ok r a ↔ T i a r) {i r : Str} {as : List α}
    (hm : Many p i as r) : SeqText T i as r := by
  induction hm with
  | nil _ => exact .nil
  | cons h1 _ _ ih => exact .cons ((h _ _ _).1 h1) ih

theorem many_of_seqText {α : Type} {p : P α} {T : Str → α → Str → Prop} (h : ∀ i r a, p i = .ok r a ↔ T i a r) (hl : Local p)
    (hf : FailsAtEnd p) {i r : Str} {as : List α} (hm : SeqText T i as r) (hr : c!"END:" <+: r) : Many p i as r := by
  induction hm with
  | nil => exact .nil (hf _ hr)
  | @cons i r r' a as h1 _ ih =>
    have h1 := (h _ _ _).2 h1
    obtain ⟨c, hc, _, rfl, _⟩ := hl _ _ _ h1
    refine .cons h1 ?_ (ih hr)
    have := List.length_pos_iff.2 hc
    simp; omega

/-! ## The alarm -/

theorem named_head (n : Str) (ls : List ContentLine) : (ls.find? fun l => l.key = n) = (named n ls).head? := by
  unfold named
  rw [← List.head?_filter]

/-- The conversion of the lines of an alarm (C13 – C18 for alarms of every kind). -/
theorem C14_VAlarm_iff (ls : List ContentLine) (v : VAlarm) : VAlarm.tryFrom ls = .ok v ↔ VAlarmFrom ls v := by
  unfold VAlarm.tryFrom
  rw [named_head]
  have hmap : ∀ {α : Type} (x : Res α) (f : α → VAlarm), x.map f = .ok v ↔ ∃ a, x = .ok a ∧ f a = v := by
    intro α x f; cases x <;> simp
  cases h : (named c!"ACTION" ls).head? with
  | none => cases v <;> simp [VAlarmFrom, firstAction, h]
  | some l =>
    simp only []
    split
    · next h1 => rw [hmap]; cases v <;> simp [VAlarmFrom, firstAction, h, h1, C14_Audio_iff]
    split
    · next h1 => rw [hmap]; cases v <;> simp [VAlarmFrom, firstAction, h, h1, C14_Display_iff]
    split
    · next h1 => rw [hmap]; cases v <;> simp [VAlarmFrom, firstAction, h, h1, C14_Email_iff]
    · next h1 h2 h3 => cases v <;> simp_all [VAlarmFrom, firstAction]

/-! ## Each parser reads exactly the text of its component -/

theorem leaf_ok {α : Type} {name : Str} {conv : List ContentLine → Res α} {From : List ContentLine → α → Prop}
    (h : ∀ ls v, conv ls = .ok v ↔ From ls v) (i r : Str) (v : α) :
    componentP name conv i = .ok r v ↔ ∃ ls, LeafText name i ls r ∧ From ls v := by
  rw [componentP_ok]
  constructor
  · rintro ⟨body, ls, h1, h2, h3⟩
    exact ⟨ls, ⟨body, h1, h2⟩, (h _ _).1 h3⟩
  · rintro ⟨ls, ⟨body, h1, h2⟩, h3⟩
    exact ⟨body, ls, h1, h2, (h _ _).2 h3⟩

theorem valarm_ok (i r : Str) (v : VAlarm) : valarm i = .ok r v ↔ AlarmText i v r := leaf_ok C14_VAlarm_iff i r v
theorem vtodo_ok (i r : Str) (v : VTodo) : vtodo i = .ok r v ↔ TodoText i v r := leaf_ok C14_VTodo_iff i r v
theorem vjournal_ok (i r : Str) (v : VJournal) : vjournal i = .ok r v ↔ JournalText i v r := leaf_ok C14_VJournal_iff i r v
theorem vfreebusy_ok (i r : Str) (v : VFreebusy) : vfreebusy i = .ok r v ↔ FreebusyText i v r := leaf_ok C14_VFreebusy_iff i r v
theorem standard_ok (i r : Str) (v : Standard) : standard i = .ok r v ↔ StandardText i v r := leaf_ok C14_Standard_iff i r v
theorem daylight_ok (i r : Str) (v : Daylight) : daylight i = .ok r v ↔ DaylightText i v r := leaf_ok C14_Daylight_iff i r v

theorem valarm_local : Local valarm := componentP_local _ _
theorem vtodo_local : Local vtodo := componentP_local _ _
theorem vjournal_local : Local vjournal := componentP_local _ _
theorem vfreebusy_local : Local vfreebusy := componentP_local _ _
theorem standard_local : Local standard := componentP_local _ _
theorem daylight_local : Local daylight := componentP_local _ _

theorem valarm_opens : Opens c!"BEGIN:VALARM\r\n" valarm := opens_componentP c!"VALARM" _
theorem vtodo_opens : Opens c!"BEGIN:VTODO\r\n" vtodo := opens_componentP c!"VTODO" _
theorem vjournal_opens : Opens c!"BEGIN:VJOURNAL\r\n" vjournal := opens_componentP c!"VJOURNAL" _
theorem vfreebusy_opens : Opens c!"BEGIN:VFREEBUSY\r\n" vfreebusy := opens_componentP c!"VFREEBUSY" _
theorem standard_opens : Opens c!"BEGIN:STANDARD\r\n" standard := opens_componentP c!"STANDARD" _
theorem daylight_opens : Opens c!"BEGIN:DAYLIGHT\r\n" daylight := opens_componentP c!"DAYLIGHT" _
theorem vevent_opens : Opens c!"BEGIN:VEVENT\r\n" vevent := opens_mapRes _ _ _ _
theorem vtimezone_opens : Opens c!"BEGIN:VTIMEZONE\r\n" vtimezone := opens_mapRes _ _ _ _

theorem valarm_end : FailsAtEnd valarm := valarm_opens.failsAtEnd (by decide)

/-- A block with parts, in terms of the texts of the parts. -/
theorem parts_ok {α γ : Type} {o e : Str} {q : P α} {T : Str → α → Str → Prop} {f : List ContentLine × List α → Res γ}
    (h : ∀ i r a, q i = .ok r a ↔ T i a r) (hl : Local q) (hf : FailsAtEnd q) (he : c!"END:" <+: e) {i r : Str} {v : γ} :
    mapRes (delimited (tag o) (pair contentLines (many0 q)) (tag e)) f i = .ok r v ↔
      ∃ body ls r1 as, i = o ++ body ∧ LinesText body ls r1 ∧ SeqText T r1 as (e ++ r) ∧ f (ls, as) = .ok v := by
  rw [block_ok]
  constructor
  · rintro ⟨body, ls, r1, as, h1, h2, h3, h4⟩
    exact ⟨body, ls, r1, as, h1, h2, seqText_of_many h (many0_ok.1 h3), h4⟩
  · rintro ⟨body, ls, r1, as, h1, h2, h3, h4⟩
    exact ⟨body, ls, r1, as, h1, h2, many0_ok.2 (many_of_seqText h hl hf h3 (he.trans (List.prefix_append _ _))), h4⟩

theorem map_eq_ok {α β : Type} {x : Res α} {f : α → β} {b : β} : x.map f = .ok b ↔ ∃ a, x = .ok a ∧ f a = b := by
  cases x <;> simp

theorem vevent_ok (i r : Str) (v : VEvent) : vevent i = .ok r v ↔ EventText i v r := by
  unfold vevent EventText
  rw [parts_ok valarm_ok valarm_local valarm_end (e := c!"END:VEVENT\r\n") (by decide)]
  simp only [map_eq_ok, C14_VEvent_iff]
  constructor
  · rintro ⟨body, ls, r1, as, h1, h2, h3, a, h4, rfl⟩
    refine ⟨body, ls, r1, h1, h2, h3, ?_⟩
    have : a.alarms = [] := h4.alarms
    rw [← this]; exact h4
  · rintro ⟨body, ls, r1, h1, h2, h3, h4⟩
    exact ⟨body, ls, r1, _, h1, h2, h3, _, h4, rfl⟩

theorem vevent_local : Local vevent :=
  block_local (n := c!"VEVENT\r\n") (e' := c!"VEVENT\r\n") valarm_local valarm_end (fun _ _ _ h => valarm_opens.begin (by decide) h) (by decide)

theorem tzPart_ok (i r : Str) (v : TzPart) :
    alt (map standard .standard) (map daylight .daylight) i = .ok r v ↔ TzPartText i v r := by
  rw [alt_ok, map_ok, map_err, map_ok]
  simp only [standard_ok, daylight_ok]
  constructor
  · rintro (⟨a, h, rfl⟩ | ⟨_, a, h, rfl⟩) <;> exact h
  · intro h
    cases v with
    | standard a => exact .inl ⟨a, h, rfl⟩
    | daylight a => exact .inr ⟨standard_opens.disjoint daylight_opens (by decide) (by decide) ((daylight_ok i r a).2 h), a, h, rfl⟩

theorem tzPart_local : Local (alt (map standard TzPart.standard) (map daylight TzPart.daylight)) :=
  alt_local (standard_local.map _) (daylight_local.map _) fun _ _ _ h =>
    (standard_opens.map _).disjoint (daylight_opens.map _) (by decide) (by decide) h

theorem tzPart_end : FailsAtEnd (alt (map standard TzPart.standard) (map daylight TzPart.daylight)) :=
  ((standard_opens.map _).failsAtEnd (by decide)).alt ((daylight_opens.map _).failsAtEnd (by decide))

theorem tzPart_begin (i r : Str) (v : TzPart) (h : alt (map standard .standard) (map daylight .daylight) i = .ok r v) :
    c!"BEGIN:" <+: i := by
  rcases alt_ok.1 h with h | ⟨_, h⟩
  · exact (standard_opens.map _).begin (by decide) h
  · exact (daylight_opens.map _).begin (by decide) h

theorem file_parts (ps : List TzPart) (z : VTimezone) :
    ps.foldl VTimezone.file z = { z with standard := z.standard ++ standardParts ps, daylight := z.daylight ++ daylightParts ps } := by
  induction ps generalizing z with
  | nil => simp [standardParts, daylightParts]
  | cons p ps ih => rw [List.foldl_cons, ih]; cases p <;> simp [VTimezone.file, standardParts, daylightParts]

theorem vtimezone_ok (i r : Str) (v : VTimezone) : vtimezone i = .ok r v ↔ TimezoneText i v r := by
  unfold vtimezone TimezoneText
  rw [parts_ok tzPart_ok tzPart_local tzPart_end (e := c!"END:VTIMEZONE\r\n") (by decide)]
  simp only [map_eq_ok, C14_VTimezone_iff, file_parts]
  constructor
  · rintro ⟨body, ls, r1, as, h1, h2, h3, a, h4, rfl⟩
    have e1 : a.standard = [] := h4.standard
    have e2 : a.daylight = [] := h4.daylight
    refine ⟨body, ls, r1, as, h1, h2, h3, ?_, by simp [e1], by simp [e2]⟩
    rw [show ([] : List Standard) = a.standard from e1.symm, show ([] : List Daylight) = a.daylight from e2.symm]
    exact h4
  · rintro ⟨body, ls, r1, as, h1, h2, h3, h4, e1, e2⟩
    exact ⟨body, ls, r1, as, h1, h2, h3, _, h4, by simp [← e1, ← e2]⟩

theorem vtimezone_local : Local vtimezone :=
  block_local (n := c!"VTIMEZONE\r\n") (e' := c!"VTIMEZONE\r\n") tzPart_local tzPart_end tzPart_begin (by decide)

/-! ### Components of a calendar -/

theorem component_ok (i r : Str) (v : Component) : component i = .ok r v ↔ ComponentText i v r := by
  unfold component
  simp only [alt_ok, map_ok, map_err, valarm_ok, vevent_ok, vfreebusy_ok, vjournal_ok, vtimezone_ok, vtodo_ok]
  constructor
  · rintro (⟨a, h, rfl⟩ | ⟨_, ⟨a, h, rfl⟩ | ⟨_, ⟨a, h, rfl⟩ | ⟨_, ⟨a, h, rfl⟩ | ⟨_, ⟨a, h, rfl⟩ | ⟨_, a, h, rfl⟩⟩⟩⟩⟩) <;> exact h
  · intro h
    have key : ∀ {o : Str}, o <+: i → (¬ c!"BEGIN:VALARM\r\n" <+: o ∧ ¬ o <+: c!"BEGIN:VALARM\r\n" → valarm i = .err) ∧
        (¬ c!"BEGIN:VEVENT\r\n" <+: o ∧ ¬ o <+: c!"BEGIN:VEVENT\r\n" → vevent i = .err) ∧
        (¬ c!"BEGIN:VFREEBUSY\r\n" <+: o ∧ ¬ o <+: c!"BEGIN:VFREEBUSY\r\n" → vfreebusy i = .err) ∧
        (¬ c!"BEGIN:VJOURNAL\r\n" <+: o ∧ ¬ o <+: c!"BEGIN:VJOURNAL\r\n" → vjournal i = .err) ∧
        (¬ c!"BEGIN:VTIMEZONE\r\n" <+: o ∧ ¬ o <+: c!"BEGIN:VTIMEZONE\r\n" → vtimezone i = .err) := fun h =>
      ⟨fun hx => valarm_opens i (not_both_prefix hx.2 hx.1 h), fun hx => vevent_opens i (not_both_prefix hx.2 hx.1 h),
       fun hx => vfreebusy_opens i (not_both_prefix hx.2 hx.1 h), fun hx => vjournal_opens i (not_both_prefix hx.2 hx.1 h),
       fun hx => vtimezone_opens i (not_both_prefix hx.2 hx.1 h)⟩
    cases v with
    | alarm a => exact .inl ⟨a, h, rfl⟩
    | event a =>
      have k := key (vevent_opens.prefix ((vevent_ok i r a).2 h))
      exact .inr ⟨k.1 (by decide), .inl ⟨a, h, rfl⟩⟩
    | freebusy a =>
      have k := key (vfreebusy_opens.prefix ((vfreebusy_ok i r a).2 h))
      exact .inr ⟨k.1 (by decide), .inr ⟨k.2.1 (by decide), .inl ⟨a, h, rfl⟩⟩⟩
    | journal a =>
      have k := key (vjournal_opens.prefix ((vjournal_ok i r a).2 h))
      exact .inr ⟨k.1 (by decide), .inr ⟨k.2.1 (by decide), .inr ⟨k.2.2.1 (by decide), .inl ⟨a, h, rfl⟩⟩⟩⟩
    | timezone a =>
      have k := key (vtimezone_opens.prefix ((vtimezone_ok i r a).2 h))
      exact .inr ⟨k.1 (by decide), .inr ⟨k.2.1 (by decide), .inr ⟨k.2.2.1 (by decide), .inr ⟨k.2.2.2.1 (by decide), .inl ⟨a, h, rfl⟩⟩⟩⟩⟩
    | todo a =>
      have k := key (vtodo_opens.prefix ((vtodo_ok i r a).2 h))
      exact .inr ⟨k.1 (by decide), .inr ⟨k.2.1 (by decide), .inr ⟨k.2.2.1 (by decide), .inr ⟨k.2.2.2.1 (by decide),
        .inr ⟨k.2.2.2.2 (by decide), ⟨a, h, rfl⟩⟩⟩⟩⟩⟩

theorem component_end : FailsAtEnd component :=
  ((valarm_opens.map _).failsAtEnd (by decide)).alt <| ((vevent_opens.map _).failsAtEnd (by decide)).alt <|
  ((vfreebusy_opens.map _).failsAtEnd (by decide)).alt <| ((vjournal_opens.map _).failsAtEnd (by decide)).alt <|
  ((vtimezone_opens.map _).failsAtEnd (by decide)).alt ((vtodo_opens.map _).failsAtEnd (by decide))

theorem component_begin (i r : Str) (v : Component) (h : component i = .ok r v) : c!"BEGIN:" <+: i := by
  unfold component at h
  simp only [alt_ok] at h
  rcases h with h | ⟨_, h | ⟨_, h | ⟨_, h | ⟨_, h | ⟨_, h⟩⟩⟩⟩⟩
  · exact (valarm_opens.map _).begin (by decide) h
  · exact (vevent_opens.map _).begin (by decide) h
  · exact (vfreebusy_opens.map _).begin (by decide) h
  · exact (vjournal_opens.map _).begin (by decide) h
  · exact (vtimezone_opens.map _).begin (by decide) h
  · exact (vtodo_opens.map _).begin (by decide) h

theorem opens_not {α : Type} {o o' i : Str} {p : P α} (h : Opens o p) (h1 : ¬ o <+: o') (h2 : ¬ o' <+: o) (hi : o' <+: i) : p i = .err :=
  h i (not_both_prefix h2 h1 hi)

theorem component_local : Local component := by
  unfold component
  refine alt_local (valarm_local.map _) (alt_local (vevent_local.map _) (alt_local (vfreebusy_local.map _)
    (alt_local (vjournal_local.map _) (alt_local (vtimezone_local.map _) (vtodo_local.map _) ?_) ?_) ?_) ?_) ?_ <;> intro i r a h
  all_goals try simp only [alt_ok] at h
  · exact opens_not (vtimezone_opens.map _) (by decide) (by decide) ((vtodo_opens.map _).prefix h)
  · rcases h with h | ⟨_, h⟩
    · exact opens_not (vjournal_opens.map _) (by decide) (by decide) ((vtimezone_opens.map _).prefix h)
    · exact opens_not (vjournal_opens.map _) (by decide) (by decide) ((vtodo_opens.map _).prefix h)
  · rcases h with h | ⟨_, h | ⟨_, h⟩⟩
    · exact opens_not (vfreebusy_opens.map _) (by decide) (by decide) ((vjournal_opens.map _).prefix h)
    · exact opens_not (vfreebusy_opens.map _) (by decide) (by decide) ((vtimezone_opens.map _).prefix h)
    · exact opens_not (vfreebusy_opens.map _) (by decide) (by decide) ((vtodo_opens.map _).prefix h)
  · rcases h with h | ⟨_, h | ⟨_, h | ⟨_, h⟩⟩⟩
    · exact opens_not (vevent_opens.map _) (by decide) (by decide) ((vfreebusy_opens.map _).prefix h)
    · exact opens_not (vevent_opens.map _) (by decide) (by decide) ((vjournal_opens.map _).prefix h)
    · exact opens_not (vevent_opens.map _) (by decide) (by decide) ((vtimezone_opens.map _).prefix h)
    · exact opens_not (vevent_opens.map _) (by decide) (by decide) ((vtodo_opens.map _).prefix h)
  · rcases h with h | ⟨_, h | ⟨_, h | ⟨_, h | ⟨_, h⟩⟩⟩⟩
    · exact opens_not (valarm_opens.map _) (by decide) (by decide) ((vevent_opens.map _).prefix h)
    · exact opens_not (valarm_opens.map _) (by decide) (by decide) ((vfreebusy_opens.map _).prefix h)
    · exact opens_not (valarm_opens.map _) (by decide) (by decide) ((vjournal_opens.map _).prefix h)
    · exact opens_not (valarm_opens.map _) (by decide) (by decide) ((vtimezone_opens.map _).prefix h)
    · exact opens_not (valarm_opens.map _) (by decide) (by decide) ((vtodo_opens.map _).prefix h)

theorem file_components (cs : List Component) (v : VCalendar) :
    cs.foldl VCalendar.file v = { v with
      alarms := v.alarms ++ alarmsOf cs, events := v.events ++ eventsOf cs, freebusy := v.freebusy ++ freebusyOf cs,
      journals := v.journals ++ journalsOf cs, todo := v.todo ++ todosOf cs, timezones := v.timezones ++ timezonesOf cs } := by
  induction cs generalizing v with
  | nil => simp [alarmsOf, eventsOf, freebusyOf, journalsOf, todosOf, timezonesOf]
  | cons p ps ih =>
    rw [List.foldl_cons, ih]
    cases p <;> simp [VCalendar.file, alarmsOf, eventsOf, freebusyOf, journalsOf, todosOf, timezonesOf]

theorem vcalendar_ok (i r : Str) (v : VCalendar) : vcalendar i = .ok r v ↔ ∃ cs, CalendarText i v cs r := by
  unfold vcalendar CalendarText Filed components
  rw [parts_ok component_ok component_local component_end (e := c!"END:VCALENDAR") (by decide)]
  simp only [map_eq_ok, C14_VCalendar_iff, file_components]
  constructor
  · rintro ⟨body, ls, r1, as, h1, h2, h3, a, h4, rfl⟩
    have e1 : a.alarms = [] := h4.alarms
    have e2 : a.events = [] := h4.events
    have e3 : a.freebusy = [] := h4.freebusy
    have e4 : a.journals = [] := h4.journals
    have e5 : a.todo = [] := h4.todo
    have e6 : a.timezones = [] := h4.timezones
    refine ⟨as, body, ls, r1, h1, h2, h3, ?_, by simp [e1], by simp [e2], by simp [e3], by simp [e4], by simp [e5], by simp [e6]⟩
    have : a = { a with alarms := [], events := [], freebusy := [], journals := [], todo := [], timezones := [] } := by
      conv => rhs; rw [← e1, ← e2, ← e3, ← e4, ← e5, ← e6]
    exact this ▸ h4
  · rintro ⟨as, body, ls, r1, h1, h2, h3, h4, e1, e2, e3, e4, e5, e6⟩
    exact ⟨body, ls, r1, as, h1, h2, h3, _, h4, by simp [← e1, ← e2, ← e3, ← e4, ← e5, ← e6]⟩

theorem vcalendar_local : Local vcalendar :=
  block_local (n := c!"VCALENDAR\r\n") (e' := c!"VCALENDAR") component_local component_end component_begin (by decide)

/-! ## C19: parsing a component from a text -/

/-- **C19** (and C13 – C18 on texts): what parsing an alarm returns. -/
theorem C19_VAlarm (s : Str) (v : VAlarm) : VAlarm.ofStr s = .ok v ↔ ∃ r, AlarmText (unfold s) v r := by
  simp [VAlarm.ofStr, componentOfStr_ok, valarm_ok]
/-- The same for events: the alarms are all there, in order. -/
theorem C19_VEvent (s : Str) (v : VEvent) : VEvent.ofStr s = .ok v ↔ ∃ r, EventText (unfold s) v r := by
  simp [VEvent.ofStr, componentOfStr_ok, vevent_ok]
/-- The same for to-dos. -/
theorem C19_VTodo (s : Str) (v : VTodo) : VTodo.ofStr s = .ok v ↔ ∃ r, TodoText (unfold s) v r := by
  simp [VTodo.ofStr, componentOfStr_ok, vtodo_ok]
/-- The same for journals. -/
theorem C19_VJournal (s : Str) (v : VJournal) : VJournal.ofStr s = .ok v ↔ ∃ r, JournalText (unfold s) v r := by
  simp [VJournal.ofStr, componentOfStr_ok, vjournal_ok]
/-- The same for free/busy components. -/
theorem C19_VFreebusy (s : Str) (v : VFreebusy) : VFreebusy.ofStr s = .ok v ↔ ∃ r, FreebusyText (unfold s) v r := by
  simp [VFreebusy.ofStr, componentOfStr_ok, vfreebusy_ok]
/-- The same for the standard part of a time zone. -/
theorem C19_Standard (s : Str) (v : Standard) : Standard.ofStr s = .ok v ↔ ∃ r, StandardText (unfold s) v r := by
  simp [Standard.ofStr, componentOfStr_ok, standard_ok]
/-- The same for the daylight part of a time zone. -/
theorem C19_Daylight (s : Str) (v : Daylight) : Daylight.ofStr s = .ok v ↔ ∃ r, DaylightText (unfold s) v r := by
  simp [Daylight.ofStr, componentOfStr_ok, daylight_ok]
/-- The same for time zones: the parts are all there, each under its kind, in order. -/
theorem C19_VTimezone (s : Str) (v : VTimezone) : VTimezone.ofStr s = .ok v ↔ ∃ r, TimezoneText (unfold s) v r := by
  simp [VTimezone.ofStr, componentOfStr_ok, vtimezone_ok]
/-- The same for calendars: the components are all there, each under its kind, in order. -/
theorem C19_VCalendar (s : Str) (v : VCalendar) : VCalendar.ofStr s = .ok v ↔ ∃ cs r, CalendarText (unfold s) v cs r := by
  simp only [VCalendar.ofStr, componentOfStr_ok, vcalendar_ok]
  exact ⟨fun ⟨r, cs, h⟩ => ⟨cs, r, h⟩, fun ⟨cs, r, h⟩ => ⟨r, cs, h⟩⟩

theorem filed_length (cs : List Component) : cs.length = (alarmsOf cs).length + (eventsOf cs).length + (freebusyOf cs).length +
    (journalsOf cs).length + (todosOf cs).length + (timezonesOf cs).length := by
  induction cs with
  | nil => simp [alarmsOf, eventsOf, freebusyOf, journalsOf, todosOf, timezonesOf]
  | cons p ps ih =>
    simp only [alarmsOf, eventsOf, freebusyOf, journalsOf, todosOf, timezonesOf] at ih
    cases p <;> simp [alarmsOf, eventsOf, freebusyOf, journalsOf, todosOf, timezonesOf] <;> omega

/-- **C19**: no component is lost or duplicated: there are as many sub-components in the calendar as components in the text. -/
theorem C19_none_lost (i r : Str) (v : VCalendar) (cs : List Component) (h : CalendarText i v cs r) :
    cs.length = v.alarms.length + v.events.length + v.freebusy.length + v.journals.length + v.todo.length + v.timezones.length := by
  obtain ⟨_, _, _, _, _, _, _, e1, e2, e3, e4, e5, e6⟩ := h
  rw [e1, e2, e3, e4, e5, e6]
  exact filed_length cs

/-- The text determines the components: what was read is a function of the text. -/
theorem C19_unique (i r r' : Str) (v v' : VCalendar) (cs cs' : List Component) (h : CalendarText i v cs r) (h' : CalendarText i v' cs' r') :
    v = v' ∧ r = r' := by
  have h1 := (vcalendar_ok i r v).2 ⟨cs, h⟩
  have h2 := (vcalendar_ok i r' v').2 ⟨cs', h'⟩
  rw [h1] at h2; cases h2; exact ⟨rfl, rfl⟩

/-! ## C20: what follows the component -/

/-- **C20**: appending a text that does not begin with a space and has no double quote changes nothing. -/
theorem C20_VCalendar (s t : Str) (v : VCalendar) (h : VCalendar.ofStr s = .ok v) (h1 : t.head? ≠ some ' ') (h2 : '"' ∉ t) :
    VCalendar.ofStr (s ++ t) = .ok v := componentOfStr_append vcalendar_local h h1 h2
/-- The same for events. -/
theorem C20_VEvent (s t : Str) (v : VEvent) (h : VEvent.ofStr s = .ok v) (h1 : t.head? ≠ some ' ') (h2 : '"' ∉ t) :
    VEvent.ofStr (s ++ t) = .ok v := componentOfStr_append vevent_local h h1 h2
/-- The same for to-dos. -/
theorem C20_VTodo (s t : Str) (v : VTodo) (h : VTodo.ofStr s = .ok v) (h1 : t.head? ≠ some ' ') (h2 : '"' ∉ t) :
    VTodo.ofStr (s ++ t) = .ok v := componentOfStr_append vtodo_local h h1 h2
/-- The same for journals. -/
theorem C20_VJournal (s t : Str) (v : VJournal) (h : VJournal.ofStr s = .ok v) (h1 : t.head? ≠ some ' ') (h2 : '"' ∉ t) :
    VJournal.ofStr (s ++ t) = .ok v := componentOfStr_append vjournal_local h h1 h2
/-- The same for free/busy components. -/
theorem C20_VFreebusy (s t : Str) (v : VFreebusy) (h : VFreebusy.ofStr s = .ok v) (h1 : t.head? ≠ some ' ') (h2 : '"' ∉ t) :
    VFreebusy.ofStr (s ++ t) = .ok v := componentOfStr_append vfreebusy_local h h1 h2
/-- The same for time zones. -/
theorem C20_VTimezone (s t : Str) (v : VTimezone) (h : VTimezone.ofStr s = .ok v) (h1 : t.head? ≠ some ' ') (h2 : '"' ∉ t) :
    VTimezone.ofStr (s ++ t) = .ok v := componentOfStr_append vtimezone_local h h1 h2
/-- The same for alarms. -/
theorem C20_VAlarm (s t : Str) (v : VAlarm) (h : VAlarm.ofStr s = .ok v) (h1 : t.head? ≠ some ' ') (h2 : '"' ∉ t) :
    VAlarm.ofStr (s ++ t) = .ok v := componentOfStr_append valarm_local h h1 h2
/-- The same for the parts of time zones. -/
theorem C20_Standard (s t : Str) (v : Standard) (h : Standard.ofStr s = .ok v) (h1 : t.head? ≠ some ' ') (h2 : '"' ∉ t) :
    Standard.ofStr (s ++ t) = .ok v := componentOfStr_append standard_local h h1 h2
/-- The same for the parts of time zones. -/
theorem C20_Daylight (s t : Str) (v : Daylight) (h : Daylight.ofStr s = .ok v) (h1 : t.head? ≠ some ' ') (h2 : '"' ∉ t) :
    Daylight.ofStr (s ++ t) = .ok v := componentOfStr_append daylight_local h h1 h2

/-! ## C21: the only error -/

theorem componentOfStr_err {α : Type} {p : P α} {s : Str} {e : Error} (h : componentOfStr p s = .err e) : e = .parser := by
  unfold componentOfStr at h
  cases hp : p (unfold s) <;> rw [hp] at h <;> simp [NRes.toRes] at h
  exact h.symm

/-- **C21**: parsing a component fails with the parser error only. -/
theorem C21_only_parser_error (s : Str) (e : Error) :
    (VCalendar.ofStr s = .err e → e = .parser) ∧ (VEvent.ofStr s = .err e → e = .parser) ∧
    (VTodo.ofStr s = .err e → e = .parser) ∧ (VJournal.ofStr s = .err e → e = .parser) ∧
    (VFreebusy.ofStr s = .err e → e = .parser) ∧ (VTimezone.ofStr s = .err e → e = .parser) ∧
    (VAlarm.ofStr s = .err e → e = .parser) ∧ (Standard.ofStr s = .err e → e = .parser) ∧
    (Daylight.ofStr s = .err e → e = .parser) :=
  ⟨componentOfStr_err, componentOfStr_err, componentOfStr_err, componentOfStr_err, componentOfStr_err, componentOfStr_err,
   componentOfStr_err, componentOfStr_err, componentOfStr_err⟩

end Main

/-! ### The hypotheses are met, and needed -/

section Examples

attribute [local instance] utc

/-- A time zone with one part, an unknown property and text after it. -/
abbrev sampleZone : Str := c!"BEGIN:VTIMEZONE\r\nTZID:A\r\nX-B:c\r\nBEGIN:STANDARD\r\nDTSTART:20200101T000000\r\nTZOFFSETTO:+0100\r\nTZOFFSETFROM:+0200\r\nEND:STANDARD\r\nEND:VTIMEZONE\r\n"

/-- Does parsing succeed? -/
def Res.isOk {α : Type} : Res α → Bool
  | .ok _ => true
  | _ => false

theorem Res.isOk_iff {α : Type} {x : Res α} : x.isOk = true ↔ ∃ a, x = .ok a := by
  cases x <;> simp [Res.isOk]

/-- `C20_VTimezone` applies to a non-trivial text. -/
example : (VTimezone.ofStr sampleZone).isOk = true := by decide +kernel
example : (VTimezone.ofStr sampleZone).map (·.standard.length) = .ok 1 := by decide +kernel

/-- A text whose unquoted parameter value begins with a double quote. -/
abbrev openQuote : Str := c!"BEGIN:VTIMEZONE\r\nTZID;P=\"b:c\r\nEND:VTIMEZONE\r\n"

/-- **C20**, the provisos are needed: a space joins the closing line, a double quote closes a quotation opened in
the component. -/
theorem C20_provisos_needed :
    (VTimezone.ofStr openQuote).isOk = true ∧
    (VTimezone.ofStr (openQuote ++ c!"\"")).isOk = false ∧
    (VTimezone.ofStr sampleZone).isOk = true ∧
    (VTimezone.ofStr (sampleZone ++ c!" ")).isOk = false := by decide +kernel

/-- **C18**, the part that fails: an unreadable line of a *required* property is ignored when a readable one
follows. -/
theorem C18_earlier_required_ignored :
    (VTodo.ofStr c!"BEGIN:VTODO\r\nDTSTAMP:nonsense\r\nDTSTAMP:20200101T000000\r\nUID:1\r\nEND:VTODO\r\n").map
      (·.dtstamp) = .ok (.naive ⟨⟨2020, 1, 1⟩, 0, 0⟩) ∧
    (VTodo.ofStr c!"BEGIN:VTODO\r\nDTSTAMP:20200101T000000\r\nDTSTAMP:nonsense\r\nUID:1\r\nEND:VTODO\r\n").isOk
      = false ∧
    (VTodo.ofStr c!"BEGIN:VTODO\r\nDTSTAMP:20200101T000000\r\nCREATED:nonsense\r\nCREATED:20200101T000000\r\nUID:1\r\nEND:VTODO\r\n").isOk
      = false := by decide +kernel

/-- Repeated, unknown and permuted properties of a to-do (C14 – C17). -/
example :
    (VTodo.ofStr c!"BEGIN:VTODO\r\nCATEGORIES:a,b\r\nDTSTAMP:20200101T000000\r\nX-A:1\r\nCATEGORIES:c\r\nX-A:2\r\nUID:1\r\nUID:2\r\nEND:VTODO\r\n").map
      (fun v => (v.categories.map (·.text), v.uid.text, v.xProp.map fun p => (p.1, p.2.value))) =
    .ok ([c!"a", c!"b", c!"c"], c!"2", [(c!"X-A", c!"2")]) := by decide +kernel

/-- An alarm of an unknown kind: the specific error is replaced by the parser error. -/
example : @VAlarm.tryFrom utc [⟨c!"ACTION", [], c!"SING"⟩] = .err (.alarm c!"SING") := by
  simp [VAlarm.tryFrom]
example : (VAlarm.ofStr c!"BEGIN:VALARM\r\nACTION:SING\r\nEND:VALARM\r\n").map (fun _ => ()) = .err .parser := by
  decide +kernel

end Examples

end Ikal
