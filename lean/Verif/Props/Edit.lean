import Verif.Lemmas.EditUnknown

/-!
# C106: Editing a text

What an edit of a text changes in what is read, and what it leaves as it is.
-/

set_option linter.unusedSectionVars false

namespace Ikal
open Spec Spec.Edit Spec.Abnf

section
variable [Platform]

/-! ## Editing the lines of one property -/

theorem leaf_line {α : Type} {name : Str} {From : List ContentLine → α → Prop} {Q : α → α → Prop} {k n : Str} {lines lines' : List Line} {parts : List Tree}
    (hl : OnlyLines k lines lines') (key : ∀ ls ls' v w, (∀ n, n ≠ k → named n ls = named n ls') → From ls v → From ls' w → Q v w) {v w : α}
    (h : IsLeaf name From (.mk n lines parts) v) (h' : IsLeaf name From (.mk n lines' parts) w) : Q v w := by
  obtain ⟨_, ls, e, h1, h2⟩ := h
  obtain ⟨_, ls', e', h1', h2'⟩ := h'
  injection e with _ e _
  injection e' with _ e' _
  subst e e'
  exact key _ _ _ _ (named_only hl h1 h1') h2 h2'

theorem alarm_line {k n : Str} (hk : k ≠ c!"ACTION") {lines lines' : List Line} {parts : List Tree} (hl : OnlyLines k lines lines') {v w : VAlarm}
    (h : IsLeaf c!"VALARM" Full.VAlarmFrom (.mk n lines parts) v) (h' : IsLeaf c!"VALARM" Full.VAlarmFrom (.mk n lines' parts) w) : AlarmAllBut k v w := by
  rw [← full_VAlarm] at h h'
  exact leaf_line (Q := AlarmAllBut k) hl (fun _ _ _ _ hn hv hw => kept_VAlarm hk (firstAction_only hk hn) hn hv hw) h h'

theorem event_line {k n : Str} {lines lines' : List Line} {parts : List Tree} (hl : OnlyLines k lines lines') {v w : VEvent}
    (h : IsEvent (.mk n lines parts) v) (h' : IsEvent (.mk n lines' parts) w) : AllButProperty VEvent.members k v w := by
  obtain ⟨_, ls, _, e, h1, h2, h3⟩ := h
  obtain ⟨_, ls', _, e', h1', h2', h3'⟩ := h'
  injection e with _ e ep
  injection e' with _ e' ep'
  subst e e' ep ep'
  rw [← full_VEvent] at h2 h2'
  have hq := kept_VEvent (named_only hl h1 h1') h2 h2'
  have ha := pairs_unique alarm_unique h3 h3'
  simp only [AllButProperty, VEvent.members, List.forall_mem_cons] at hq ⊢
  repeat (refine ⟨(by first | exact hq.1 | exact fun _ => ha), ?_⟩; replace hq := hq.2)
  simp

theorem timezone_line {k n : Str} {lines lines' : List Line} {parts : List Tree} (hl : OnlyLines k lines lines') {v w : VTimezone}
    (h : IsTimezone (.mk n lines parts) v) (h' : IsTimezone (.mk n lines' parts) w) : AllButProperty VTimezone.members k v w := by
  obtain ⟨_, ls, _, ps, e, h1, h2, h3, h4, h5⟩ := h
  obtain ⟨_, ls', _, ps', e', h1', h2', h3', h4', h5'⟩ := h'
  injection e with _ e ep
  injection e' with _ e' ep'
  subst e e' ep ep'
  rw [← full_VTimezone] at h2 h2'
  have hq := kept_VTimezone (named_only hl h1 h1') h2 h2'
  have ha := pairs_unique tzPart_unique h3 h3'
  subst ha
  simp only [AllButProperty, VTimezone.members, List.forall_mem_cons] at hq ⊢
  repeat (refine ⟨(by first | exact hq.1 | exact fun _ => h4.trans h4'.symm | exact fun _ => h5.trans h5'.symm), ?_⟩; replace hq := hq.2)
  simp

theorem calendar_line {k n : Str} {lines lines' : List Line} {parts : List Tree} (hl : OnlyLines k lines lines') {v w : VCalendar}
    (h : IsCalendar (.mk n lines parts) v) (h' : IsCalendar (.mk n lines' parts) w) : AllButProperty VCalendar.members k v w := by
  obtain ⟨_, ls, _, ps, e, h1, h2, h3, a1, a2, a3, a4, a5, a6⟩ := h
  obtain ⟨_, ls', _, ps', e', h1', h2', h3', b1, b2, b3, b4, b5, b6⟩ := h'
  injection e with _ e ep
  injection e' with _ e' ep'
  subst e e' ep ep'
  rw [← full_VCalendar] at h2 h2'
  have hq := kept_VCalendar (named_only hl h1 h1') h2 h2'
  have ha := pairs_unique component_unique h3 h3'
  subst ha
  simp only [AllButProperty, VCalendar.members, List.forall_mem_cons] at hq ⊢
  repeat (refine ⟨(by first | exact hq.1 | exact fun _ => a1.trans b1.symm | exact fun _ => a2.trans b2.symm | exact fun _ => a3.trans b3.symm | exact fun _ => a4.trans b4.symm | exact fun _ => a5.trans b5.symm | exact fun _ => a6.trans b6.symm), ?_⟩; replace hq := hq.2)
  simp

/-- A text of a component says what the component says. -/
theorem text_says {α : Type} {of : Str → Res α} {Is : Tree → α → Prop}
    (c99 : ∀ (t : Tree), t.Good → ∀ (s rest : Str), Abnf.Unfolds s (t.str ++ rest) → ¬ c!"\r\n\t" <:+: s → ∀ v, of s = .ok v ↔ Is t v)
    {t : Tree} {s : Str} (h : TextOf t s) {v : α} (hv : of s = .ok v) : Is t v := by
  obtain ⟨h1, ⟨rest, h2⟩, h3⟩ := h
  exact (c99 t h1 s rest h2 h3 v).1 hv

/-- **C106** for a to-do: an edit of the lines named `k` changes nothing in what is read but the field of that property. -/
theorem C106_VTodo_line (k n : Str) (lines lines' : List Line) (parts : List Tree) (hl : OnlyLines k lines lines') (s s' : Str) (hs : TextOf (.mk n lines parts) s)
    (hs' : TextOf (.mk n lines' parts) s') (v w : VTodo) (hv : VTodo.ofStr s = .ok v) (hw : VTodo.ofStr s' = .ok w) : AllButProperty VTodo.members k v w :=
  leaf_line (Q := AllButProperty VTodo.members k) hl (fun _ _ _ _ hn hv hw => kept_VTodo hn (full_VTodo ▸ hv) (full_VTodo ▸ hw)) (text_says C99_VTodo hs hv) (text_says C99_VTodo hs' hw)

/-- **C106** for a journal entry: an edit of the lines named `k` changes nothing in what is read but the field of that property. -/
theorem C106_VJournal_line (k n : Str) (lines lines' : List Line) (parts : List Tree) (hl : OnlyLines k lines lines') (s s' : Str) (hs : TextOf (.mk n lines parts) s)
    (hs' : TextOf (.mk n lines' parts) s') (v w : VJournal) (hv : VJournal.ofStr s = .ok v) (hw : VJournal.ofStr s' = .ok w) : AllButProperty VJournal.members k v w :=
  leaf_line (Q := AllButProperty VJournal.members k) hl (fun _ _ _ _ hn hv hw => kept_VJournal hn (full_VJournal ▸ hv) (full_VJournal ▸ hw)) (text_says C99_VJournal hs hv) (text_says C99_VJournal hs' hw)

/-- **C106** for a free/busy time: an edit of the lines named `k` changes nothing in what is read but the field of that property. -/
theorem C106_VFreebusy_line (k n : Str) (lines lines' : List Line) (parts : List Tree) (hl : OnlyLines k lines lines') (s s' : Str) (hs : TextOf (.mk n lines parts) s)
    (hs' : TextOf (.mk n lines' parts) s') (v w : VFreebusy) (hv : VFreebusy.ofStr s = .ok v) (hw : VFreebusy.ofStr s' = .ok w) : AllButProperty VFreebusy.members k v w :=
  leaf_line (Q := AllButProperty VFreebusy.members k) hl (fun _ _ _ _ hn hv hw => kept_VFreebusy hn (full_VFreebusy ▸ hv) (full_VFreebusy ▸ hw)) (text_says C99_VFreebusy hs hv) (text_says C99_VFreebusy hs' hw)

/-- **C106** for standard time: an edit of the lines named `k` changes nothing in what is read but the field of that property. -/
theorem C106_Standard_line (k n : Str) (lines lines' : List Line) (parts : List Tree) (hl : OnlyLines k lines lines') (s s' : Str) (hs : TextOf (.mk n lines parts) s)
    (hs' : TextOf (.mk n lines' parts) s') (v w : Standard) (hv : Standard.ofStr s = .ok v) (hw : Standard.ofStr s' = .ok w) : AllButProperty Standard.members k v w :=
  leaf_line (Q := AllButProperty Standard.members k) hl (fun _ _ _ _ hn hv hw => kept_Standard hn (full_Standard ▸ hv) (full_Standard ▸ hw)) (text_says C99_Standard hs hv) (text_says C99_Standard hs' hw)

/-- **C106** for daylight saving time: an edit of the lines named `k` changes nothing in what is read but the field of that property. -/
theorem C106_Daylight_line (k n : Str) (lines lines' : List Line) (parts : List Tree) (hl : OnlyLines k lines lines') (s s' : Str) (hs : TextOf (.mk n lines parts) s)
    (hs' : TextOf (.mk n lines' parts) s') (v w : Daylight) (hv : Daylight.ofStr s = .ok v) (hw : Daylight.ofStr s' = .ok w) : AllButProperty Daylight.members k v w :=
  leaf_line (Q := AllButProperty Daylight.members k) hl (fun _ _ _ _ hn hv hw => kept_Daylight hn (full_Daylight ▸ hv) (full_Daylight ▸ hw)) (text_says C99_Daylight hs hv) (text_says C99_Daylight hs' hw)

/-- **C106** for an event: an edit of the lines named `k` changes nothing in what is read but the field of that property. -/
theorem C106_VEvent_line (k n : Str) (lines lines' : List Line) (parts : List Tree) (hl : OnlyLines k lines lines') (s s' : Str) (hs : TextOf (.mk n lines parts) s)
    (hs' : TextOf (.mk n lines' parts) s') (v w : VEvent) (hv : VEvent.ofStr s = .ok v) (hw : VEvent.ofStr s' = .ok w) : AllButProperty VEvent.members k v w :=
  event_line hl (text_says C99_VEvent hs hv) (text_says C99_VEvent hs' hw)

/-- **C106** for a time zone: an edit of the lines named `k` changes nothing in what is read but the field of that property. -/
theorem C106_VTimezone_line (k n : Str) (lines lines' : List Line) (parts : List Tree) (hl : OnlyLines k lines lines') (s s' : Str) (hs : TextOf (.mk n lines parts) s)
    (hs' : TextOf (.mk n lines' parts) s') (v w : VTimezone) (hv : VTimezone.ofStr s = .ok v) (hw : VTimezone.ofStr s' = .ok w) : AllButProperty VTimezone.members k v w :=
  timezone_line hl (text_says C99_VTimezone hs hv) (text_says C99_VTimezone hs' hw)

/-- **C106** for a calendar: an edit of the lines named `k` changes nothing in what is read but the field of that property. -/
theorem C106_VCalendar_line (k n : Str) (lines lines' : List Line) (parts : List Tree) (hl : OnlyLines k lines lines') (s s' : Str) (hs : TextOf (.mk n lines parts) s)
    (hs' : TextOf (.mk n lines' parts) s') (v w : VCalendar) (hv : VCalendar.ofStr s = .ok v) (hw : VCalendar.ofStr s' = .ok w) : AllButProperty VCalendar.members k v w :=
  calendar_line hl (text_says C99_VCalendar hs hv) (text_says C99_VCalendar hs' hw)

/-- **C106** for an alarm: an edit of the lines named `k`, which is not `ACTION`, changes nothing in what is read but the field of that property. -/
theorem C106_VAlarm_line (k n : Str) (hk : k ≠ c!"ACTION") (lines lines' : List Line) (parts : List Tree) (hl : OnlyLines k lines lines') (s s' : Str)
    (hs : TextOf (.mk n lines parts) s) (hs' : TextOf (.mk n lines' parts) s') (v w : VAlarm) (hv : VAlarm.ofStr s = .ok v) (hw : VAlarm.ofStr s' = .ok w) :
    AlarmAllBut k v w :=
  alarm_line hk hl (text_says C99_VAlarm hs hv) (text_says C99_VAlarm hs' hw)

/-- **C106**: adding, removing, changing and moving lines named `k` in one place are such edits. -/
theorem C106_only (k : Str) (a p p' b : List Line) (hp : ∀ l ∈ p, l.name = k) (hp' : ∀ l ∈ p', l.name = k) : OnlyLines k (a ++ p ++ b) (a ++ p' ++ b) := by
  intro n hn
  have no : ∀ {p : List Line}, (∀ l ∈ p, l.name = k) → (p.filter fun l => l.name = n) = [] := fun h => by
    rw [List.filter_eq_nil_iff]
    intro l hl
    rw [h l hl]
    simp [Ne.symm hn]
  simp only [List.filter_append, no hp, no hp']

/-- **C106**: so are several of them. -/
theorem C106_several (k : Str) (a b c : List Line) (h : OnlyLines k a b) (h' : OnlyLines k b c) : OnlyLines k a c :=
  fun n hn => (h n hn).trans (h' n hn)

/-! ## Lines of properties that are not known -/

theorem says_text {α : Type} {of : Str → Res α} {Is : Tree → α → Prop}
    (c99 : ∀ (t : Tree), t.Good → ∀ (s rest : Str), Abnf.Unfolds s (t.str ++ rest) → ¬ c!"\r\n\t" <:+: s → ∀ v, of s = .ok v ↔ Is t v)
    {t : Tree} {s : Str} (h : TextOf t s) (hv : ∃ v, Is t v) : ∃ v, of s = .ok v := by
  obtain ⟨h1, ⟨rest, h2⟩, h3⟩ := h
  obtain ⟨v, hv⟩ := hv
  exact ⟨v, (c99 t h1 s rest h2 h3 v).2 hv⟩

/-- **C106** for a to-do: an edit of the lines named `k`, which is no property that is known, does not make a text unreadable. -/
theorem C106_VTodo_unknown (k n : Str) (hk : Unknown VTodo.members k) (lines lines' : List Line) (parts : List Tree) (hl : OnlyLines k lines lines') (s s' : Str)
    (hs : TextOf (.mk n lines parts) s) (hs' : TextOf (.mk n lines' parts) s') (v : VTodo) (hv : VTodo.ofStr s = .ok v) :
    ∃ w, VTodo.ofStr s' = .ok w ∧ AllButProperty VTodo.members k v w := by
  obtain ⟨w, hw⟩ := says_text C99_VTodo hs' (leaf_unknown hl (fun _ _ _ hn hv => full_VTodo ▸ unknown_VTodo hk hn (full_VTodo ▸ hv)) (text_says C99_VTodo hs hv))
  exact ⟨w, hw, C106_VTodo_line k n lines lines' parts hl s s' hs hs' v w hv hw⟩

/-- **C106** for a journal entry: an edit of the lines named `k`, which is no property that is known, does not make a text unreadable. -/
theorem C106_VJournal_unknown (k n : Str) (hk : Unknown VJournal.members k) (lines lines' : List Line) (parts : List Tree) (hl : OnlyLines k lines lines') (s s' : Str)
    (hs : TextOf (.mk n lines parts) s) (hs' : TextOf (.mk n lines' parts) s') (v : VJournal) (hv : VJournal.ofStr s = .ok v) :
    ∃ w, VJournal.ofStr s' = .ok w ∧ AllButProperty VJournal.members k v w := by
  obtain ⟨w, hw⟩ := says_text C99_VJournal hs' (leaf_unknown hl (fun _ _ _ hn hv => full_VJournal ▸ unknown_VJournal hk hn (full_VJournal ▸ hv)) (text_says C99_VJournal hs hv))
  exact ⟨w, hw, C106_VJournal_line k n lines lines' parts hl s s' hs hs' v w hv hw⟩

/-- **C106** for a free/busy time: an edit of the lines named `k`, which is no property that is known, does not make a text unreadable. -/
theorem C106_VFreebusy_unknown (k n : Str) (hk : Unknown VFreebusy.members k) (lines lines' : List Line) (parts : List Tree) (hl : OnlyLines k lines lines') (s s' : Str)
    (hs : TextOf (.mk n lines parts) s) (hs' : TextOf (.mk n lines' parts) s') (v : VFreebusy) (hv : VFreebusy.ofStr s = .ok v) :
    ∃ w, VFreebusy.ofStr s' = .ok w ∧ AllButProperty VFreebusy.members k v w := by
  obtain ⟨w, hw⟩ := says_text C99_VFreebusy hs' (leaf_unknown hl (fun _ _ _ hn hv => full_VFreebusy ▸ unknown_VFreebusy hk hn (full_VFreebusy ▸ hv)) (text_says C99_VFreebusy hs hv))
  exact ⟨w, hw, C106_VFreebusy_line k n lines lines' parts hl s s' hs hs' v w hv hw⟩

/-- **C106** for standard time: an edit of the lines named `k`, which is no property that is known, does not make a text unreadable. -/
theorem C106_Standard_unknown (k n : Str) (hk : Unknown Standard.members k) (lines lines' : List Line) (parts : List Tree) (hl : OnlyLines k lines lines') (s s' : Str)
    (hs : TextOf (.mk n lines parts) s) (hs' : TextOf (.mk n lines' parts) s') (v : Standard) (hv : Standard.ofStr s = .ok v) :
    ∃ w, Standard.ofStr s' = .ok w ∧ AllButProperty Standard.members k v w := by
  obtain ⟨w, hw⟩ := says_text C99_Standard hs' (leaf_unknown hl (fun _ _ _ hn hv => full_Standard ▸ unknown_Standard hk hn (full_Standard ▸ hv)) (text_says C99_Standard hs hv))
  exact ⟨w, hw, C106_Standard_line k n lines lines' parts hl s s' hs hs' v w hv hw⟩

/-- **C106** for daylight saving time: an edit of the lines named `k`, which is no property that is known, does not make a text unreadable. -/
theorem C106_Daylight_unknown (k n : Str) (hk : Unknown Daylight.members k) (lines lines' : List Line) (parts : List Tree) (hl : OnlyLines k lines lines') (s s' : Str)
    (hs : TextOf (.mk n lines parts) s) (hs' : TextOf (.mk n lines' parts) s') (v : Daylight) (hv : Daylight.ofStr s = .ok v) :
    ∃ w, Daylight.ofStr s' = .ok w ∧ AllButProperty Daylight.members k v w := by
  obtain ⟨w, hw⟩ := says_text C99_Daylight hs' (leaf_unknown hl (fun _ _ _ hn hv => full_Daylight ▸ unknown_Daylight hk hn (full_Daylight ▸ hv)) (text_says C99_Daylight hs hv))
  exact ⟨w, hw, C106_Daylight_line k n lines lines' parts hl s s' hs hs' v w hv hw⟩

/-- **C106** for an event: an edit of the lines named `k`, which is no property that is known, does not make a text unreadable. -/
theorem C106_VEvent_unknown (k n : Str) (hk : Unknown VEvent.members k) (lines lines' : List Line) (parts : List Tree) (hl : OnlyLines k lines lines') (s s' : Str)
    (hs : TextOf (.mk n lines parts) s) (hs' : TextOf (.mk n lines' parts) s') (v : VEvent) (hv : VEvent.ofStr s = .ok v) :
    ∃ w, VEvent.ofStr s' = .ok w ∧ AllButProperty VEvent.members k v w := by
  obtain ⟨w, hw⟩ := says_text C99_VEvent hs' (event_unknown hl hk (text_says C99_VEvent hs hv))
  exact ⟨w, hw, C106_VEvent_line k n lines lines' parts hl s s' hs hs' v w hv hw⟩

/-- **C106** for a time zone: an edit of the lines named `k`, which is no property that is known, does not make a text unreadable. -/
theorem C106_VTimezone_unknown (k n : Str) (hk : Unknown VTimezone.members k) (lines lines' : List Line) (parts : List Tree) (hl : OnlyLines k lines lines') (s s' : Str)
    (hs : TextOf (.mk n lines parts) s) (hs' : TextOf (.mk n lines' parts) s') (v : VTimezone) (hv : VTimezone.ofStr s = .ok v) :
    ∃ w, VTimezone.ofStr s' = .ok w ∧ AllButProperty VTimezone.members k v w := by
  obtain ⟨w, hw⟩ := says_text C99_VTimezone hs' (timezone_unknown hl hk (text_says C99_VTimezone hs hv))
  exact ⟨w, hw, C106_VTimezone_line k n lines lines' parts hl s s' hs hs' v w hv hw⟩

/-- **C106** for a calendar: an edit of the lines named `k`, which is no property that is known, does not make a text unreadable. -/
theorem C106_VCalendar_unknown (k n : Str) (hk : Unknown VCalendar.members k) (lines lines' : List Line) (parts : List Tree) (hl : OnlyLines k lines lines') (s s' : Str)
    (hs : TextOf (.mk n lines parts) s) (hs' : TextOf (.mk n lines' parts) s') (v : VCalendar) (hv : VCalendar.ofStr s = .ok v) :
    ∃ w, VCalendar.ofStr s' = .ok w ∧ AllButProperty VCalendar.members k v w := by
  obtain ⟨w, hw⟩ := says_text C99_VCalendar hs' (calendar_unknown hl hk (text_says C99_VCalendar hs hv))
  exact ⟨w, hw, C106_VCalendar_line k n lines lines' parts hl s s' hs hs' v w hv hw⟩

/-- **C106** for an alarm: an edit of the lines named `k`, which is no property that is known, does not make a text unreadable. -/
theorem C106_VAlarm_unknown (k n : Str) (hk : Unknown Audio.members k ∧ Unknown Display.members k ∧ Unknown Email.members k) (lines lines' : List Line)
    (parts : List Tree) (hl : OnlyLines k lines lines') (s s' : Str) (hs : TextOf (.mk n lines parts) s) (hs' : TextOf (.mk n lines' parts) s') (v : VAlarm)
    (hv : VAlarm.ofStr s = .ok v) : ∃ w, VAlarm.ofStr s' = .ok w ∧ AlarmAllBut k v w := by
  obtain ⟨w, hw⟩ := says_text C99_VAlarm hs' (leaf_unknown hl (fun _ _ _ hn hv => full_VAlarm ▸ unknown_VAlarm hk hn (full_VAlarm ▸ hv)) (text_says C99_VAlarm hs hv))
  refine ⟨w, hw, C106_VAlarm_line k n ?_ lines lines' parts hl s s' hs hs' v w hv hw⟩
  have hn : c!"ACTION" ≠ k := hk.1 ⟨c!"action", .text, (·.action), fun x v => { v with action := x }⟩ (by simp [Audio.members]) RTy.noConfusion
  exact hn.symm

/-! ## Editing the parts of a component -/

theorem event_part {n : Str} {lines : List Line} {a p p' b : List Tree} {v w : VEvent} (h : IsEvent (.mk n lines (a ++ p ++ b)) v)
    (h' : IsEvent (.mk n lines (a ++ p' ++ b)) w) : AllButFields VEvent.members [c!"alarms"] v w ∧
      OnePlace (Pairs (IsLeaf c!"VALARM" Full.VAlarmFrom) p) (Pairs (IsLeaf c!"VALARM" Full.VAlarmFrom) p') v.alarms w.alarms := by
  obtain ⟨_, ls, _, e, h1, h2, h3⟩ := h
  obtain ⟨_, ls', _, e', h1', h2', h3'⟩ := h'
  injection e with _ e ep
  injection e' with _ e' ep'
  subst e e' ep ep'
  rw [← full_VEvent] at h2 h2'
  rw [pairs_unique tree_means_unique h1 h1'] at h2
  have hq := from_unique_VEvent _ _ _ h2 h2'
  refine ⟨?_, pairs_place alarm_unique h3 h3'⟩
  obtain ⟨⟩ := v
  obtain ⟨⟩ := w
  simp only [VEvent.mk.injEq] at hq
  simp only [AllButFields, VEvent.members, List.forall_mem_cons]
  simp [hq]

theorem timezone_part {n : Str} {lines : List Line} {a p p' b : List Tree} {v w : VTimezone} (h : IsTimezone (.mk n lines (a ++ p ++ b)) v)
    (h' : IsTimezone (.mk n lines (a ++ p' ++ b)) w) : AllButFields VTimezone.members [c!"standard", c!"daylight"] v w ∧
      OnePlace (fun as => ∃ q, Pairs IsTzPart p q ∧ as = standardParts q) (fun as => ∃ q, Pairs IsTzPart p' q ∧ as = standardParts q) v.standard w.standard ∧
      OnePlace (fun as => ∃ q, Pairs IsTzPart p q ∧ as = daylightParts q) (fun as => ∃ q, Pairs IsTzPart p' q ∧ as = daylightParts q) v.daylight w.daylight := by
  obtain ⟨_, ls, _, ps, e, h1, h2, h3, h4, h5⟩ := h
  obtain ⟨_, ls', _, ps', e', h1', h2', h3', h4', h5'⟩ := h'
  injection e with _ e ep
  injection e' with _ e' ep'
  subst e e' ep ep'
  rw [← full_VTimezone] at h2 h2'
  rw [pairs_unique tree_means_unique h1 h1'] at h2
  have hq := from_unique_VTimezone _ _ _ h2 h2'
  have hp := pairs_place tzPart_unique h3 h3'
  rw [h4, h4', h5, h5']
  refine ⟨?_, place_map hp standardParts (by simp [standardParts]), place_map hp daylightParts (by simp [daylightParts])⟩
  obtain ⟨⟩ := v
  obtain ⟨⟩ := w
  simp only [VTimezone.mk.injEq] at hq
  simp only [AllButFields, VTimezone.members, List.forall_mem_cons]
  simp [hq]

theorem calendar_part {n : Str} {lines : List Line} {a p p' b : List Tree} {v w : VCalendar} (h : IsCalendar (.mk n lines (a ++ p ++ b)) v)
    (h' : IsCalendar (.mk n lines (a ++ p' ++ b)) w) : AllButFields VCalendar.members [c!"alarms", c!"events", c!"freebusy", c!"journals", c!"todo", c!"timezones"] v w ∧
      ∃ x q q' y, Pairs IsComponent p q ∧ Pairs IsComponent p' q' ∧ Filed (x ++ q ++ y) v ∧ Filed (x ++ q' ++ y) w := by
  obtain ⟨_, ls, _, ps, e, h1, h2, h3, h4⟩ := h
  obtain ⟨_, ls', _, ps', e', h1', h2', h3', h4'⟩ := h'
  injection e with _ e ep
  injection e' with _ e' ep'
  subst e e' ep ep'
  rw [← full_VCalendar] at h2 h2'
  rw [pairs_unique tree_means_unique h1 h1'] at h2
  have hq := from_unique_VCalendar _ _ _ h2 h2'
  obtain ⟨x, q, q', y, rfl, rfl, hp, hp'⟩ := pairs_place component_unique h3 h3'
  refine ⟨?_, x, q, q', y, hp, hp', h4, h4'⟩
  obtain ⟨⟩ := v
  obtain ⟨⟩ := w
  simp only [VCalendar.mk.injEq] at hq
  simp only [AllButFields, VCalendar.members, List.forall_mem_cons]
  simp [hq]

theorem pair_one {α β : Type} {R : α → β → Prop} {a : α} {bs : List β} (h : Pairs R [a] bs) : ∃ b, bs = [b] ∧ R a b := by
  cases h with | cons h1 h2 => cases h2; exact ⟨_, rfl, h1⟩

/-- **C106** for an event: an edit of some of its parts changes nothing but its alarms, and of these only those that are the edited parts. -/
theorem C106_VEvent_part (n : Str) (lines : List Line) (a p p' b : List Tree) (s s' : Str) (hs : TextOf (.mk n lines (a ++ p ++ b)) s)
    (hs' : TextOf (.mk n lines (a ++ p' ++ b)) s') (v w : VEvent) (hv : VEvent.ofStr s = .ok v) (hw : VEvent.ofStr s' = .ok w) :
    AllButFields VEvent.members [c!"alarms"] v w ∧
      OnePlace (Pairs (IsLeaf c!"VALARM" Full.VAlarmFrom) p) (Pairs (IsLeaf c!"VALARM" Full.VAlarmFrom) p') v.alarms w.alarms :=
  event_part (text_says C99_VEvent hs hv) (text_says C99_VEvent hs' hw)

/-- **C106** for a time zone: an edit of some of its parts changes nothing but its standard and daylight parts, and of these only those that are the edited parts. -/
theorem C106_VTimezone_part (n : Str) (lines : List Line) (a p p' b : List Tree) (s s' : Str) (hs : TextOf (.mk n lines (a ++ p ++ b)) s)
    (hs' : TextOf (.mk n lines (a ++ p' ++ b)) s') (v w : VTimezone) (hv : VTimezone.ofStr s = .ok v) (hw : VTimezone.ofStr s' = .ok w) :
    AllButFields VTimezone.members [c!"standard", c!"daylight"] v w ∧
      OnePlace (fun as => ∃ q, Pairs IsTzPart p q ∧ as = standardParts q) (fun as => ∃ q, Pairs IsTzPart p' q ∧ as = standardParts q) v.standard w.standard ∧
      OnePlace (fun as => ∃ q, Pairs IsTzPart p q ∧ as = daylightParts q) (fun as => ∃ q, Pairs IsTzPart p' q ∧ as = daylightParts q) v.daylight w.daylight :=
  timezone_part (text_says C99_VTimezone hs hv) (text_says C99_VTimezone hs' hw)

/-- **C106** for a calendar: an edit of some of its components changes nothing but these: the others are read as before, in the same order. -/
theorem C106_VCalendar_part (n : Str) (lines : List Line) (a p p' b : List Tree) (s s' : Str) (hs : TextOf (.mk n lines (a ++ p ++ b)) s)
    (hs' : TextOf (.mk n lines (a ++ p' ++ b)) s') (v w : VCalendar) (hv : VCalendar.ofStr s = .ok v) (hw : VCalendar.ofStr s' = .ok w) :
    AllButFields VCalendar.members [c!"alarms", c!"events", c!"freebusy", c!"journals", c!"todo", c!"timezones"] v w ∧
      ∃ x q q' y, Pairs IsComponent p q ∧ Pairs IsComponent p' q' ∧ Filed (x ++ q ++ y) v ∧ Filed (x ++ q' ++ y) w :=
  calendar_part (text_says C99_VCalendar hs hv) (text_says C99_VCalendar hs' hw)

/-- **C106** for a calendar: an edit of the lines named `k` of an event in it changes nothing in what is read but the field of that property in that component. -/
theorem C106_VCalendar_events (k : Str) (n : Str) (lines0 lines lines' : List Line) (a b parts : List Tree) (hl : OnlyLines k lines lines') (s s' : Str)
    (hs : TextOf (.mk n lines0 (a ++ [.mk c!"VEVENT" lines parts] ++ b)) s) (hs' : TextOf (.mk n lines0 (a ++ [.mk c!"VEVENT" lines' parts] ++ b)) s') (v w : VCalendar)
    (hv : VCalendar.ofStr s = .ok v) (hw : VCalendar.ofStr s' = .ok w) : AllButFields VCalendar.members [c!"events"] v w ∧
      ∃ x e e' y, v.events = x ++ [e] ++ y ∧ w.events = x ++ [e'] ++ y ∧ AllButProperty VEvent.members k e e' := by
  obtain ⟨hf, x, q, q', y, hq, hq', ⟨a1, a2, a3, a4, a5, a6⟩, ⟨b1, b2, b3, b4, b5, b6⟩⟩ := C106_VCalendar_part n lines0 a _ _ b s s' hs hs' v w hv hw
  obtain ⟨e, rfl, h1⟩ := pair_one hq
  obtain ⟨e', rfl, h2⟩ := pair_one hq'
  obtain ⟨e, rfl⟩ : ∃ c, e = .event c := by
    obtain ⟨_, _, hn⟩ := kind_name h1
    injection hn with hn
    cases e <;> first | exact ⟨_, rfl⟩ | exact absurd hn (by simp only [kindName]; decide)
  obtain ⟨e', rfl⟩ : ∃ c, e' = .event c := by
    obtain ⟨_, _, hn⟩ := kind_name h2
    injection hn with hn
    cases e' <;> first | exact ⟨_, rfl⟩ | exact absurd hn (by simp only [kindName]; decide)
  simp only [alarmsOf, eventsOf, freebusyOf, journalsOf, todosOf, timezonesOf, List.filterMap_append, List.filterMap_cons, List.filterMap_nil, List.append_nil] at a1 a2 a3 a4 a5 a6 b1 b2 b3 b4 b5 b6
  refine ⟨?_, _, e, e', _, by assumption, by assumption, event_line hl h1 h2⟩
  simp only [AllButFields, VCalendar.members, List.forall_mem_cons] at hf ⊢
  simp_all

/-- **C106** for a calendar: an edit of the lines named `k` of a to-do in it changes nothing in what is read but the field of that property in that component. -/
theorem C106_VCalendar_todo (k : Str) (n : Str) (lines0 lines lines' : List Line) (a b parts : List Tree) (hl : OnlyLines k lines lines') (s s' : Str)
    (hs : TextOf (.mk n lines0 (a ++ [.mk c!"VTODO" lines parts] ++ b)) s) (hs' : TextOf (.mk n lines0 (a ++ [.mk c!"VTODO" lines' parts] ++ b)) s') (v w : VCalendar)
    (hv : VCalendar.ofStr s = .ok v) (hw : VCalendar.ofStr s' = .ok w) : AllButFields VCalendar.members [c!"todo"] v w ∧
      ∃ x e e' y, v.todo = x ++ [e] ++ y ∧ w.todo = x ++ [e'] ++ y ∧ AllButProperty VTodo.members k e e' := by
  obtain ⟨hf, x, q, q', y, hq, hq', ⟨a1, a2, a3, a4, a5, a6⟩, ⟨b1, b2, b3, b4, b5, b6⟩⟩ := C106_VCalendar_part n lines0 a _ _ b s s' hs hs' v w hv hw
  obtain ⟨e, rfl, h1⟩ := pair_one hq
  obtain ⟨e', rfl, h2⟩ := pair_one hq'
  obtain ⟨e, rfl⟩ : ∃ c, e = .todo c := by
    obtain ⟨_, _, hn⟩ := kind_name h1
    injection hn with hn
    cases e <;> first | exact ⟨_, rfl⟩ | exact absurd hn (by simp only [kindName]; decide)
  obtain ⟨e', rfl⟩ : ∃ c, e' = .todo c := by
    obtain ⟨_, _, hn⟩ := kind_name h2
    injection hn with hn
    cases e' <;> first | exact ⟨_, rfl⟩ | exact absurd hn (by simp only [kindName]; decide)
  simp only [alarmsOf, eventsOf, freebusyOf, journalsOf, todosOf, timezonesOf, List.filterMap_append, List.filterMap_cons, List.filterMap_nil, List.append_nil] at a1 a2 a3 a4 a5 a6 b1 b2 b3 b4 b5 b6
  refine ⟨?_, _, e, e', _, by assumption, by assumption, leaf_line (Q := AllButProperty VTodo.members k) hl (fun _ _ _ _ hn hv hw => kept_VTodo hn (full_VTodo ▸ hv) (full_VTodo ▸ hw)) h1 h2⟩
  simp only [AllButFields, VCalendar.members, List.forall_mem_cons] at hf ⊢
  simp_all

/-- **C106** for a calendar: an edit of the lines named `k` of a journal entry in it changes nothing in what is read but the field of that property in that component. -/
theorem C106_VCalendar_journals (k : Str) (n : Str) (lines0 lines lines' : List Line) (a b parts : List Tree) (hl : OnlyLines k lines lines') (s s' : Str)
    (hs : TextOf (.mk n lines0 (a ++ [.mk c!"VJOURNAL" lines parts] ++ b)) s) (hs' : TextOf (.mk n lines0 (a ++ [.mk c!"VJOURNAL" lines' parts] ++ b)) s') (v w : VCalendar)
    (hv : VCalendar.ofStr s = .ok v) (hw : VCalendar.ofStr s' = .ok w) : AllButFields VCalendar.members [c!"journals"] v w ∧
      ∃ x e e' y, v.journals = x ++ [e] ++ y ∧ w.journals = x ++ [e'] ++ y ∧ AllButProperty VJournal.members k e e' := by
  obtain ⟨hf, x, q, q', y, hq, hq', ⟨a1, a2, a3, a4, a5, a6⟩, ⟨b1, b2, b3, b4, b5, b6⟩⟩ := C106_VCalendar_part n lines0 a _ _ b s s' hs hs' v w hv hw
  obtain ⟨e, rfl, h1⟩ := pair_one hq
  obtain ⟨e', rfl, h2⟩ := pair_one hq'
  obtain ⟨e, rfl⟩ : ∃ c, e = .journal c := by
    obtain ⟨_, _, hn⟩ := kind_name h1
    injection hn with hn
    cases e <;> first | exact ⟨_, rfl⟩ | exact absurd hn (by simp only [kindName]; decide)
  obtain ⟨e', rfl⟩ : ∃ c, e' = .journal c := by
    obtain ⟨_, _, hn⟩ := kind_name h2
    injection hn with hn
    cases e' <;> first | exact ⟨_, rfl⟩ | exact absurd hn (by simp only [kindName]; decide)
  simp only [alarmsOf, eventsOf, freebusyOf, journalsOf, todosOf, timezonesOf, List.filterMap_append, List.filterMap_cons, List.filterMap_nil, List.append_nil] at a1 a2 a3 a4 a5 a6 b1 b2 b3 b4 b5 b6
  refine ⟨?_, _, e, e', _, by assumption, by assumption, leaf_line (Q := AllButProperty VJournal.members k) hl (fun _ _ _ _ hn hv hw => kept_VJournal hn (full_VJournal ▸ hv) (full_VJournal ▸ hw)) h1 h2⟩
  simp only [AllButFields, VCalendar.members, List.forall_mem_cons] at hf ⊢
  simp_all

/-- **C106** for a calendar: an edit of the lines named `k` of a free/busy time in it changes nothing in what is read but the field of that property in that component. -/
theorem C106_VCalendar_freebusy (k : Str) (n : Str) (lines0 lines lines' : List Line) (a b parts : List Tree) (hl : OnlyLines k lines lines') (s s' : Str)
    (hs : TextOf (.mk n lines0 (a ++ [.mk c!"VFREEBUSY" lines parts] ++ b)) s) (hs' : TextOf (.mk n lines0 (a ++ [.mk c!"VFREEBUSY" lines' parts] ++ b)) s') (v w : VCalendar)
    (hv : VCalendar.ofStr s = .ok v) (hw : VCalendar.ofStr s' = .ok w) : AllButFields VCalendar.members [c!"freebusy"] v w ∧
      ∃ x e e' y, v.freebusy = x ++ [e] ++ y ∧ w.freebusy = x ++ [e'] ++ y ∧ AllButProperty VFreebusy.members k e e' := by
  obtain ⟨hf, x, q, q', y, hq, hq', ⟨a1, a2, a3, a4, a5, a6⟩, ⟨b1, b2, b3, b4, b5, b6⟩⟩ := C106_VCalendar_part n lines0 a _ _ b s s' hs hs' v w hv hw
  obtain ⟨e, rfl, h1⟩ := pair_one hq
  obtain ⟨e', rfl, h2⟩ := pair_one hq'
  obtain ⟨e, rfl⟩ : ∃ c, e = .freebusy c := by
    obtain ⟨_, _, hn⟩ := kind_name h1
    injection hn with hn
    cases e <;> first | exact ⟨_, rfl⟩ | exact absurd hn (by simp only [kindName]; decide)
  obtain ⟨e', rfl⟩ : ∃ c, e' = .freebusy c := by
    obtain ⟨_, _, hn⟩ := kind_name h2
    injection hn with hn
    cases e' <;> first | exact ⟨_, rfl⟩ | exact absurd hn (by simp only [kindName]; decide)
  simp only [alarmsOf, eventsOf, freebusyOf, journalsOf, todosOf, timezonesOf, List.filterMap_append, List.filterMap_cons, List.filterMap_nil, List.append_nil] at a1 a2 a3 a4 a5 a6 b1 b2 b3 b4 b5 b6
  refine ⟨?_, _, e, e', _, by assumption, by assumption, leaf_line (Q := AllButProperty VFreebusy.members k) hl (fun _ _ _ _ hn hv hw => kept_VFreebusy hn (full_VFreebusy ▸ hv) (full_VFreebusy ▸ hw)) h1 h2⟩
  simp only [AllButFields, VCalendar.members, List.forall_mem_cons] at hf ⊢
  simp_all

/-- **C106** for a calendar: an edit of the lines named `k` of a time zone in it changes nothing in what is read but the field of that property in that component. -/
theorem C106_VCalendar_timezones (k : Str) (n : Str) (lines0 lines lines' : List Line) (a b parts : List Tree) (hl : OnlyLines k lines lines') (s s' : Str)
    (hs : TextOf (.mk n lines0 (a ++ [.mk c!"VTIMEZONE" lines parts] ++ b)) s) (hs' : TextOf (.mk n lines0 (a ++ [.mk c!"VTIMEZONE" lines' parts] ++ b)) s') (v w : VCalendar)
    (hv : VCalendar.ofStr s = .ok v) (hw : VCalendar.ofStr s' = .ok w) : AllButFields VCalendar.members [c!"timezones"] v w ∧
      ∃ x e e' y, v.timezones = x ++ [e] ++ y ∧ w.timezones = x ++ [e'] ++ y ∧ AllButProperty VTimezone.members k e e' := by
  obtain ⟨hf, x, q, q', y, hq, hq', ⟨a1, a2, a3, a4, a5, a6⟩, ⟨b1, b2, b3, b4, b5, b6⟩⟩ := C106_VCalendar_part n lines0 a _ _ b s s' hs hs' v w hv hw
  obtain ⟨e, rfl, h1⟩ := pair_one hq
  obtain ⟨e', rfl, h2⟩ := pair_one hq'
  obtain ⟨e, rfl⟩ : ∃ c, e = .timezone c := by
    obtain ⟨_, _, hn⟩ := kind_name h1
    injection hn with hn
    cases e <;> first | exact ⟨_, rfl⟩ | exact absurd hn (by simp only [kindName]; decide)
  obtain ⟨e', rfl⟩ : ∃ c, e' = .timezone c := by
    obtain ⟨_, _, hn⟩ := kind_name h2
    injection hn with hn
    cases e' <;> first | exact ⟨_, rfl⟩ | exact absurd hn (by simp only [kindName]; decide)
  simp only [alarmsOf, eventsOf, freebusyOf, journalsOf, todosOf, timezonesOf, List.filterMap_append, List.filterMap_cons, List.filterMap_nil, List.append_nil] at a1 a2 a3 a4 a5 a6 b1 b2 b3 b4 b5 b6
  refine ⟨?_, _, e, e', _, by assumption, by assumption, timezone_line hl h1 h2⟩
  simp only [AllButFields, VCalendar.members, List.forall_mem_cons] at hf ⊢
  simp_all

/-- **C106** for a calendar: an edit of the lines named `k` of an alarm in it changes nothing in what is read but the field of that property in that component. -/
theorem C106_VCalendar_alarms (k : Str) (hk : k ≠ c!"ACTION") (n : Str) (lines0 lines lines' : List Line) (a b parts : List Tree) (hl : OnlyLines k lines lines') (s s' : Str)
    (hs : TextOf (.mk n lines0 (a ++ [.mk c!"VALARM" lines parts] ++ b)) s) (hs' : TextOf (.mk n lines0 (a ++ [.mk c!"VALARM" lines' parts] ++ b)) s') (v w : VCalendar)
    (hv : VCalendar.ofStr s = .ok v) (hw : VCalendar.ofStr s' = .ok w) : AllButFields VCalendar.members [c!"alarms"] v w ∧
      ∃ x e e' y, v.alarms = x ++ [e] ++ y ∧ w.alarms = x ++ [e'] ++ y ∧ AlarmAllBut k e e' := by
  obtain ⟨hf, x, q, q', y, hq, hq', ⟨a1, a2, a3, a4, a5, a6⟩, ⟨b1, b2, b3, b4, b5, b6⟩⟩ := C106_VCalendar_part n lines0 a _ _ b s s' hs hs' v w hv hw
  obtain ⟨e, rfl, h1⟩ := pair_one hq
  obtain ⟨e', rfl, h2⟩ := pair_one hq'
  obtain ⟨e, rfl⟩ : ∃ c, e = .alarm c := by
    obtain ⟨_, _, hn⟩ := kind_name h1
    injection hn with hn
    cases e <;> first | exact ⟨_, rfl⟩ | exact absurd hn (by simp only [kindName]; decide)
  obtain ⟨e', rfl⟩ : ∃ c, e' = .alarm c := by
    obtain ⟨_, _, hn⟩ := kind_name h2
    injection hn with hn
    cases e' <;> first | exact ⟨_, rfl⟩ | exact absurd hn (by simp only [kindName]; decide)
  simp only [alarmsOf, eventsOf, freebusyOf, journalsOf, todosOf, timezonesOf, List.filterMap_append, List.filterMap_cons, List.filterMap_nil, List.append_nil] at a1 a2 a3 a4 a5 a6 b1 b2 b3 b4 b5 b6
  refine ⟨?_, _, e, e', _, by assumption, by assumption, alarm_line hk hl h1 h2⟩
  simp only [AllButFields, VCalendar.members, List.forall_mem_cons] at hf ⊢
  simp_all


end

section
attribute [local instance] utc

/-- The lines of a to-do, with the summary `x`. -/
private def todoWith (x : Str) : List Line := [⟨c!"DTSTAMP", [], c!"19970901T130000Z"⟩] ++ [⟨c!"SUMMARY", [], x⟩] ++ [⟨c!"UID", [], c!"u"⟩, ⟨c!"X-A", [], c!"1"⟩]

/-- A calendar with two to-dos. -/
private def calWith (x : Str) : Tree := .mk c!"VCALENDAR" [⟨c!"PRODID", [], c!"p"⟩, ⟨c!"VERSION", [], c!"2.0"⟩]
  ([.mk c!"VTODO" (todoWith c!"a") []] ++ [.mk c!"VTODO" (todoWith x) []] ++ [])

private theorem line_good {k x : Str} (h : (⟨k, [], x⟩ : Line).Ok) (hf : ¬ (⟨k, [], x⟩ : Line).Frame) : GoodLine ⟨k, [], x⟩ := ⟨h, hf, by simp⟩

private theorem todoWith_good {x : Str} (hx : ∀ c ∈ x, ¬ Control c) : ∀ l ∈ todoWith x, GoodLine l := by
  intro l hl
  simp only [todoWith, List.mem_append, List.mem_cons, List.not_mem_nil, or_false] at hl
  rcases hl with (rfl | rfl) | rfl | rfl
  · exact line_good (by decide +kernel) (by decide +kernel)
  · exact line_good ⟨(show IsToken c!"SUMMARY" by decide +kernel), by simp, hx⟩ (by
      rintro ⟨_, h | h⟩
      · exact absurd (show c!"SUMMARY" = c!"BEGIN" from h) (by decide)
      · exact absurd (show c!"SUMMARY" = c!"END" from h) (by decide))
  · exact line_good (by decide +kernel) (by decide +kernel)
  · exact line_good (by decide +kernel) (by decide +kernel)

private theorem calWith_good {x : Str} (hx : ∀ c ∈ x, ¬ Control c) : (calWith x).Good := by
  refine .mk (by decide +kernel) ?_ ?_
  · intro l hl
    simp only [List.mem_cons, List.not_mem_nil, or_false] at hl
    rcases hl with rfl | rfl <;> exact line_good (by decide +kernel) (by decide +kernel)
  · intro t ht
    simp only [List.mem_append, List.mem_cons, List.not_mem_nil, or_false] at ht
    rcases ht with rfl | rfl
    · exact .mk (by decide +kernel) (todoWith_good (by decide +kernel)) (by simp)
    · exact .mk (by decide +kernel) (todoWith_good hx) (by simp)

private theorem text_self {t : Tree} (h : t.Good) (hu : unfold t.str = t.str) (hi : ¬ c!"\r\n\t" <:+: t.str) : TextOf t t.str := by
  refine ⟨h, ⟨[], ?_⟩, hi⟩
  obtain ⟨u', h1, h2⟩ := (C99_unfold t.str).2 hi
  rw [unfolds_iff, hu] at h1
  rw [List.append_nil]
  exact h1 ▸ h2

-- the summary of the second to-do is changed: both texts are read, and only that to-do differs, in its summary
set_option maxRecDepth 8000 in
example : ∃ v w, VCalendar.ofStr (calWith c!"b").str = .ok v ∧ VCalendar.ofStr (calWith c!"c").str = .ok w ∧
    (∃ x e e' y, v.todo = x ++ [e] ++ y ∧ w.todo = x ++ [e'] ++ y ∧ e.xProp.get? c!"X-A" = e'.xProp.get? c!"X-A" ∧ e.uid = e'.uid) ∧
    v.todo.map (fun t => t.summary.map (·.text)) = [some c!"a", some c!"b"] ∧ w.todo.map (fun t => t.summary.map (·.text)) = [some c!"a", some c!"c"] := by
  have h : ∃ v, VCalendar.ofStr (calWith c!"b").str = .ok v ∧ v.todo.map (fun t => t.summary.map (·.text)) = [some c!"a", some c!"b"] := ⟨_, rfl, rfl⟩
  have h' : ∃ v, VCalendar.ofStr (calWith c!"c").str = .ok v ∧ v.todo.map (fun t => t.summary.map (·.text)) = [some c!"a", some c!"c"] := ⟨_, rfl, rfl⟩
  obtain ⟨v, hv, h1⟩ := h
  obtain ⟨w, hw, h2⟩ := h'
  obtain ⟨_, x, e, e', y, h3, h4, h5⟩ := C106_VCalendar_todo c!"SUMMARY" _ _ (todoWith c!"b") (todoWith c!"c") _ [] []
    (C106_only _ _ _ _ _ (by simp) (by simp)) _ _ (text_self (calWith_good (by decide +kernel)) (by decide +kernel) (by decide +kernel))
    (text_self (calWith_good (by decide +kernel)) (by decide +kernel) (by decide +kernel)) v w hv hw
  refine ⟨v, w, hv, hw, ⟨x, e, e', y, h3, h4, ?_, ?_⟩, h1, h2⟩
  · exact h5 ⟨c!"x_prop", .lines, (·.xProp), fun x v => { v with xProp := x }⟩ (by simp [VTodo.members]) (by decide) c!"X-A" (by decide)
  · exact h5 ⟨c!"uid", .text, (·.uid), fun x v => { v with uid := x }⟩ (by simp [VTodo.members]) (by decide)

-- `X-A` is no property of a to-do, and `SUMMARY` is
example : Unknown VTodo.members c!"X-A" ∧ ¬ Unknown VTodo.members c!"SUMMARY" := by
  constructor
  · have h : ∀ n ∈ VTodo.members.map (·.name), propertyOf n ≠ c!"X-A" := by decide
    exact fun m hm _ => h _ (List.mem_map_of_mem hm)
  · intro h
    exact h ⟨c!"summary", (.option .text), (·.summary), fun x v => { v with summary := x }⟩ (by simp [VTodo.members]) RTy.noConfusion rfl

-- an edit of `ACTION` changes the kind of the alarm
example : ∃ v w, VAlarm.ofStr c!"BEGIN:VALARM\r\nACTION:AUDIO\r\nTRIGGER:PT0S\r\nDESCRIPTION:d\r\nEND:VALARM\r\n" = .ok v ∧
    VAlarm.ofStr c!"BEGIN:VALARM\r\nACTION:DISPLAY\r\nTRIGGER:PT0S\r\nDESCRIPTION:d\r\nEND:VALARM\r\n" = .ok w ∧ ¬ AlarmAllBut c!"ACTION" v w :=
  ⟨_, _, rfl, rfl, fun h => h⟩

end
end Ikal
