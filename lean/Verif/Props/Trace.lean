import Verif.Lemmas.TraceStops
import Verif.TestPlatform

/-!
# C95: what a parser error says

`Traced.ofStr Traced.vevent s` is `s.parse::<VEvent>()` with the entries of the error; `Trace.message` is the text of the error.
-/

set_option linter.unusedSectionVars false

namespace Ikal

open Spec Spec.Full

section
variable [Platform]

/-! ## The same program -/

theorem ofStr_forget {α : Type} {p : TP α} {q : P α} (h : Traced.Sim p q) (s : Str) :
    (Traced.ofStr p s).forget.toRes = componentOfStr q s := by
  unfold Traced.ofStr componentOfStr; rw [h]

/-- **C95.** The readings of this property are those of all the others: with the entries of the error forgotten, the results are the same. -/
theorem C95_same (s : Str) :
    (Traced.ofStr Traced.vcalendar s).forget.toRes = VCalendar.ofStr s ∧
    (Traced.ofStr Traced.vevent s).forget.toRes = VEvent.ofStr s ∧
    (Traced.ofStr Traced.vtodo s).forget.toRes = VTodo.ofStr s ∧
    (Traced.ofStr Traced.vjournal s).forget.toRes = VJournal.ofStr s ∧
    (Traced.ofStr Traced.vfreebusy s).forget.toRes = VFreebusy.ofStr s ∧
    (Traced.ofStr Traced.vtimezone s).forget.toRes = VTimezone.ofStr s ∧
    (Traced.ofStr Traced.valarm s).forget.toRes = VAlarm.ofStr s ∧
    (Traced.ofStr Traced.standard s).forget.toRes = Standard.ofStr s ∧
    (Traced.ofStr Traced.daylight s).forget.toRes = Daylight.ofStr s :=
  ⟨ofStr_forget Traced.sim_vcalendar s, ofStr_forget Traced.sim_vevent s, ofStr_forget Traced.sim_vtodo s,
    ofStr_forget Traced.sim_vjournal s, ofStr_forget Traced.sim_vfreebusy s, ofStr_forget Traced.sim_vtimezone s,
    ofStr_forget Traced.sim_valarm s, ofStr_forget Traced.sim_standard s, ofStr_forget Traced.sim_daylight s⟩

/-! ## Where reading stopped -/

theorem traced_iff {α : Type} {p : TP α} {q : P α} (h : Traced.Sim p q) {S : Str → Trace → Prop} (h1 : ∀ i t, p i = .err t → S i t)
    (h2 : ∀ i t t', S i t → S i t' → t = t') (s : Str) (t : Trace) :
    Traced.ofStr p s = .err t ↔ componentOfStr q s = .err .parser ∧ ∃ u, Unfolds s u ∧ S u t := by
  rw [← unfolds_exists (P := fun u => S u t)]
  unfold Traced.ofStr componentOfStr
  rcases h.cases (unfold s) with ⟨r, a, k1, k2⟩ | ⟨t', k1, k2⟩ | ⟨k1, k2⟩
  · simp [k1, k2, NRes.toRes]
  · rw [k1, k2]
    constructor
    · intro e; injection e with e; subst e; exact ⟨rfl, h1 _ _ k1⟩
    · rintro ⟨-, e⟩; rw [h2 _ _ _ e (h1 _ _ k1)]
  · simp [k1, k2, NRes.toRes]

theorem stopsDet_leaf {o e : Str} {i : Str} {t t' : Trace} (h : ∃ x, Stops o e NoParts i x ∧ t = [x])
    (h' : ∃ x, Stops o e NoParts i x ∧ t' = [x]) : t = t' := by
  obtain ⟨x, hx, rfl⟩ := h
  obtain ⟨y, hy, rfl⟩ := h'
  rw [Traced.stops_det (fun _ _ _ _ _ h => h.elim) (fun _ _ _ h => h) hx hy]

/-- **C95** for an alarm: the entries of the error of a failed `parse()` are exactly those described. -/
theorem C95_VAlarm (s : Str) (t : Trace) :
    Traced.ofStr Traced.valarm s = .err t ↔ VAlarm.ofStr s = .err .parser ∧ ∃ u, Unfolds s u ∧ AlarmStops u t :=
  traced_iff Traced.sim_valarm (fun _ _ => Traced.leaf_stops) (fun _ _ _ => stopsDet_leaf) s t
/-- **C95** for a to-do. -/
theorem C95_VTodo (s : Str) (t : Trace) :
    Traced.ofStr Traced.vtodo s = .err t ↔ VTodo.ofStr s = .err .parser ∧ ∃ u, Unfolds s u ∧ TodoStops u t :=
  traced_iff Traced.sim_vtodo (fun _ _ => Traced.leaf_stops) (fun _ _ _ => stopsDet_leaf) s t
/-- **C95** for a journal entry. -/
theorem C95_VJournal (s : Str) (t : Trace) :
    Traced.ofStr Traced.vjournal s = .err t ↔ VJournal.ofStr s = .err .parser ∧ ∃ u, Unfolds s u ∧ JournalStops u t :=
  traced_iff Traced.sim_vjournal (fun _ _ => Traced.leaf_stops) (fun _ _ _ => stopsDet_leaf) s t
/-- **C95** for a free/busy component. -/
theorem C95_VFreebusy (s : Str) (t : Trace) :
    Traced.ofStr Traced.vfreebusy s = .err t ↔ VFreebusy.ofStr s = .err .parser ∧ ∃ u, Unfolds s u ∧ FreebusyStops u t :=
  traced_iff Traced.sim_vfreebusy (fun _ _ => Traced.leaf_stops) (fun _ _ _ => stopsDet_leaf) s t
/-- **C95** for the standard part of a time zone. -/
theorem C95_Standard (s : Str) (t : Trace) :
    Traced.ofStr Traced.standard s = .err t ↔ Standard.ofStr s = .err .parser ∧ ∃ u, Unfolds s u ∧ StandardStops u t :=
  traced_iff Traced.sim_standard (fun _ _ => Traced.leaf_stops) (fun _ _ _ => stopsDet_leaf) s t
/-- **C95** for the daylight part of a time zone. -/
theorem C95_Daylight (s : Str) (t : Trace) :
    Traced.ofStr Traced.daylight s = .err t ↔ Daylight.ofStr s = .err .parser ∧ ∃ u, Unfolds s u ∧ DaylightStops u t :=
  traced_iff Traced.sim_daylight (fun _ _ => Traced.leaf_stops) (fun _ _ _ => stopsDet_leaf) s t

theorem stopsDet_block {α : Type} {o e c : Str} {q : P α} {T : Str → α → Str → Prop} (h : ∀ i r a, q i = .ok r a ↔ T i a r)
    (hf : FailsAtEnd q) (he : c!"END:" <+: e) {i : Str} {t t' : Trace} (h1 : ∃ x, Stops o e T i x ∧ t = [x, (i, .context c)])
    (h2 : ∃ x, Stops o e T i x ∧ t' = [x, (i, .context c)]) : t = t' := by
  obtain ⟨x, hx, rfl⟩ := h1
  obtain ⟨y, hy, rfl⟩ := h2
  rw [Traced.stops_det (fun i a r a' r' k k' => ?_) (fun v r x k => ?_) hx hy]
  · rw [← h] at k k'; rw [k] at k'; injection k' with k1 k2; exact ⟨k2, k1⟩
  · rw [← h, hf _ (he.trans (List.prefix_append _ _))] at k; cases k

theorem contextOf {α : Type} {c : Str} {p : TP α} {S : Str → Str × TraceKind → Prop} (h : ∀ i t, p i = .err t → ∃ x, S i x ∧ t = [x])
    (i : Str) (t : Trace) (hi : Traced.context c p i = .err t) : ∃ x, S i x ∧ t = [x, (i, .context c)] := by
  obtain ⟨t', h1, rfl⟩ := Traced.context_err hi
  obtain ⟨x, hx, rfl⟩ := h _ _ h1
  exact ⟨x, hx, rfl⟩

theorem Local.shorter {α : Type} {p : P α} (h : Local p) (i r : Str) (a : α) (hi : p i = .ok r a) : r.length < i.length := by
  obtain ⟨c, hc, _, rfl, _⟩ := h _ _ _ hi
  have := List.length_pos_iff.2 hc
  simp; omega

/-- **C95** for an event. -/
theorem C95_VEvent (s : Str) (t : Trace) :
    Traced.ofStr Traced.vevent s = .err t ↔ VEvent.ofStr s = .err .parser ∧ ∃ u, Unfolds s u ∧ EventStops u t := by
  refine traced_iff Traced.sim_vevent ?_ ?_ s t
  · unfold EventStops
    rw [← full_alarm]
    exact contextOf fun i t h => Traced.block_stops Traced.sim_valarm (.inl rfl) valarm_ok valarm_local.shorter h
  · intro i t t'
    unfold EventStops
    rw [← full_alarm]
    exact stopsDet_block valarm_ok valarm_end (by decide)

/-- **C95** for a time zone. -/
theorem C95_VTimezone (s : Str) (t : Trace) :
    Traced.ofStr Traced.vtimezone s = .err t ↔ VTimezone.ofStr s = .err .parser ∧ ∃ u, Unfolds s u ∧ TimezoneStops u t := by
  refine traced_iff Traced.sim_vtimezone ?_ ?_ s t
  · unfold TimezoneStops
    rw [← full_tzPart]
    exact contextOf fun i t h => Traced.block_stops Traced.sim_tzPart (.inl rfl) tzPart_ok tzPart_local.shorter h
  · intro i t t'
    unfold TimezoneStops
    rw [← full_tzPart]
    exact stopsDet_block tzPart_ok tzPart_end (by decide)

/-- **C95** for a calendar. -/
theorem C95_VCalendar (s : Str) (t : Trace) :
    Traced.ofStr Traced.vcalendar s = .err t ↔ VCalendar.ofStr s = .err .parser ∧ ∃ u, Unfolds s u ∧ CalendarStops u t := by
  refine traced_iff Traced.sim_vcalendar ?_ ?_ s t
  · unfold CalendarStops
    rw [← full_component]
    exact contextOf fun i t h => Traced.block_stops Traced.sim_component (.inr ⟨_, rfl⟩) component_ok component_local.shorter h
  · intro i t t'
    unfold CalendarStops
    rw [← full_component]
    exact stopsDet_block component_ok component_end (by decide)

/-! ## What this means for a calendar -/

theorem calendar_of_stops {s u : Str} {e : Str × TraceKind} (hu : Unfolds s u) (h : VCalendar.ofStr s = .err .parser)
    (he : Stops c!"BEGIN:VCALENDAR\r\n" c!"END:VCALENDAR" Full.ComponentText u e) :
    Traced.ofStr Traced.vcalendar s = .err [e, (u, .context c!"vcalendar")] :=
  (C95_VCalendar s _).2 ⟨h, u, hu, e, he, rfl⟩

/-- **C95.** The error of a calendar shows the first component that cannot be read: if after the property lines of the calendar and some
components there is a component (or anything else but the end of the calendar) that cannot be read, then the innermost entry of the error is
the text from there on - whatever the fault is, and however far inside the component. -/
theorem C95_first_unreadable (s u body r1 r : Str) (ls : List ContentLine) (cs : List Component) (hs : VCalendar.ofStr s = .err .parser)
    (hu : Unfolds s u) (h0 : u = c!"BEGIN:VCALENDAR\r\n" ++ body) (h1 : LinesText body ls r1) (h2 : SeqText Full.ComponentText r1 cs r)
    (h3 : ¬ ∃ v r', Full.ComponentText r v r') (h4 : ¬ c!"END:VCALENDAR" <+: r) :
    Traced.ofStr Traced.vcalendar s = .err [(r, .nom .tag), (u, .context c!"vcalendar")] :=
  calendar_of_stops hu hs (.unclosed h0 h1 h2 (fun v r' h => h3 ⟨v, r', h⟩) h4)

/-- **C95.** The error of a calendar whose components can all be read does not tell what is wrong with its own properties: whatever it is, the
entries are the same. -/
theorem C95_own_properties (s u body r1 r : Str) (ls : List ContentLine) (cs : List Component) (hs : VCalendar.ofStr s = .err .parser)
    (hu : Unfolds s u) (h0 : u = c!"BEGIN:VCALENDAR\r\n" ++ body) (h1 : LinesText body ls r1)
    (h2 : SeqText Full.ComponentText r1 cs (c!"END:VCALENDAR" ++ r)) :
    Traced.ofStr Traced.vcalendar s = .err [(u, .nom .mapRes), (u, .context c!"vcalendar")] :=
  calendar_of_stops hu hs (.unconverted h0 h1 h2)

/-- **C95**, likewise for an event with a wrong or missing property: the error has its whole text, not the property. -/
theorem C95_event_properties (s u body r1 r : Str) (ls : List ContentLine) (as : List VAlarm) (hs : VEvent.ofStr s = .err .parser)
    (hu : Unfolds s u) (h0 : u = c!"BEGIN:VEVENT\r\n" ++ body) (h1 : LinesText body ls r1)
    (h2 : SeqText Full.AlarmText r1 as (c!"END:VEVENT\r\n" ++ r)) :
    Traced.ofStr Traced.vevent s = .err [(u, .nom .mapRes), (u, .context c!"vevent")] :=
  (C95_VEvent s _).2 ⟨hs, u, hu, _, .unconverted h0 h1 h2, rfl⟩

theorem linesText_suffix {i r : Str} {ls : List ContentLine} (h : LinesText i ls r) : r <:+ i := by
  obtain ⟨tls, -, h2, -⟩ := C11_nothing_lost i r ls (contentLines_ok.2 h)
  exact ⟨_, h2.symm⟩

theorem seqText_suffix {α : Type} {T : Str → α → Str → Prop} (hT : ∀ i a r, T i a r → r <:+ i) {i r : Str} {as : List α}
    (h : SeqText T i as r) : r <:+ i := by
  induction h with
  | nil => exact List.suffix_refl _
  | cons h1 _ ih => exact ih.trans (hT _ _ _ h1)

theorem stops_suffix {α : Type} {o e : Str} {T : Str → α → Str → Prop} (hT : ∀ i a r, T i a r → r <:+ i) {u : Str} {x : Str × TraceKind}
    (h : Stops o e T u x) : x.1 <:+ u := by
  cases h with
  | unopened _ => exact List.suffix_refl _
  | unclosed h0 h1 h2 _ _ =>
    rw [h0]
    exact ((seqText_suffix hT h2).trans (linesText_suffix h1)).trans (List.suffix_append _ _)
  | unconverted _ _ _ => exact List.suffix_refl _

theorem Local.suffix {α : Type} {p : P α} {T : Str → α → Str → Prop} (h : Local p) (hp : ∀ i r a, p i = .ok r a ↔ T i a r) (i : Str) (a : α)
    (r : Str) (hi : T i a r) : r <:+ i := by
  obtain ⟨c, _, _, rfl, _⟩ := h _ _ _ ((hp _ _ _).2 hi)
  exact List.suffix_append _ _

theorem noParts_suffix (i : Str) (a : Unit) (r : Str) (h : NoParts i a r) : r <:+ i := h.elim

/-- **C95.** Every text in an error is an end of the text that was read, after unfolding: the position of what it is about can be computed
from its length. -/
theorem C95_positions (s u : Str) (hu : Unfolds s u) (t : Trace) (h : Traced.ofStr Traced.vcalendar s = .err t ∨
      Traced.ofStr Traced.vevent s = .err t ∨ Traced.ofStr Traced.vtodo s = .err t ∨ Traced.ofStr Traced.vjournal s = .err t ∨
      Traced.ofStr Traced.vfreebusy s = .err t ∨ Traced.ofStr Traced.vtimezone s = .err t ∨ Traced.ofStr Traced.valarm s = .err t ∨
      Traced.ofStr Traced.standard s = .err t ∨ Traced.ofStr Traced.daylight s = .err t) :
    t ≠ [] ∧ ∀ e ∈ t, e.1 <:+ u := by
  have one {o e : Str} (k : ∃ u', Unfolds s u' ∧ ∃ x, Stops o e NoParts u' x ∧ t = [x]) : t ≠ [] ∧ ∀ e ∈ t, e.1 <:+ u := by
    obtain ⟨u', hu', x, hx, rfl⟩ := k
    rw [unfolds_iff] at hu hu'
    subst hu; subst hu'
    refine ⟨by simp, fun e he => ?_⟩
    rw [List.mem_singleton.1 he]
    exact stops_suffix noParts_suffix hx
  have two {α : Type} {o e c : Str} {T : Str → α → Str → Prop} (hT : ∀ i a r, T i a r → r <:+ i)
      (k : ∃ u', Unfolds s u' ∧ ∃ x, Stops o e T u' x ∧ t = [x, (u', .context c)]) : t ≠ [] ∧ ∀ e ∈ t, e.1 <:+ u := by
    obtain ⟨u', hu', x, hx, rfl⟩ := k
    rw [unfolds_iff] at hu hu'
    subst hu; subst hu'
    refine ⟨by simp, fun e he => ?_⟩
    simp only [List.mem_cons, List.not_mem_nil, or_false] at he
    rcases he with rfl | rfl
    · exact stops_suffix hT hx
    · exact List.suffix_refl _
  rcases h with h | h | h | h | h | h | h | h | h
  · exact two (full_component ▸ component_local.suffix component_ok) ((C95_VCalendar s t).1 h).2
  · exact two (full_alarm ▸ valarm_local.suffix valarm_ok) ((C95_VEvent s t).1 h).2
  · exact one ((C95_VTodo s t).1 h).2
  · exact one ((C95_VJournal s t).1 h).2
  · exact one ((C95_VFreebusy s t).1 h).2
  · exact two (full_tzPart ▸ tzPart_local.suffix tzPart_ok) ((C95_VTimezone s t).1 h).2
  · exact one ((C95_VAlarm s t).1 h).2
  · exact one ((C95_Standard s t).1 h).2
  · exact one ((C95_Daylight s t).1 h).2

end

end Ikal
