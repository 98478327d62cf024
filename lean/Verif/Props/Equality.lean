import Verif.Spec.Equality
import Verif.Spec.Output
import Verif.Lemmas.Equality
import Verif.TestPlatform
import Verif.Macros

/-! # Equality of components (C86) -/

set_option linter.unusedSimpArgs false
set_option linter.unusedSectionVars false

namespace Ikal
open Spec

section
variable [Platform]

theorem Audio.peq_iff (v w : Audio) : PEq.eq v w = true ↔ v = w := by
  obtain ⟨a0, a1, a2, a3, a4, a5, a6⟩ := v
  obtain ⟨b0, b1, b2, b3, b4, b5, b6⟩ := w
  show Audio.eq _ _ = true ↔ _
  simp only [Audio.eq, Bool.and_eq_true, peq_lawful, Audio.mk.injEq, and_assoc]

instance : LawfulPEq Audio := ⟨Audio.peq_iff⟩

theorem Display.peq_iff (v w : Display) : PEq.eq v w = true ↔ v = w := by
  obtain ⟨a0, a1, a2, a3, a4, a5, a6⟩ := v
  obtain ⟨b0, b1, b2, b3, b4, b5, b6⟩ := w
  show Display.eq _ _ = true ↔ _
  simp only [Display.eq, Bool.and_eq_true, peq_lawful, Display.mk.injEq, and_assoc]

instance : LawfulPEq Display := ⟨Display.peq_iff⟩

theorem Email.peq_iff (v w : Email) : PEq.eq v w = true ↔ v = w := by
  obtain ⟨a0, a1, a2, a3, a4, a5, a6, a7, a8, a9⟩ := v
  obtain ⟨b0, b1, b2, b3, b4, b5, b6, b7, b8, b9⟩ := w
  show Email.eq _ _ = true ↔ _
  simp only [Email.eq, Bool.and_eq_true, peq_lawful, Email.mk.injEq, and_assoc]

instance : LawfulPEq Email := ⟨Email.peq_iff⟩

theorem VAlarm.peq_iff (v w : VAlarm) : PEq.eq v w = true ↔ v = w := by
  show VAlarm.eq v w = true ↔ _
  cases v <;> cases w <;> simp [VAlarm.eq, peq_lawful]

instance : LawfulPEq VAlarm := ⟨VAlarm.peq_iff⟩

theorem Standard.peq_iff (v w : Standard) : PEq.eq v w = true ↔ v = w := by
  obtain ⟨a0, a1, a2, a3, a4, a5, a6, a7, a8⟩ := v
  obtain ⟨b0, b1, b2, b3, b4, b5, b6, b7, b8⟩ := w
  show Standard.eq _ _ = true ↔ _
  simp only [Standard.eq, Bool.and_eq_true, peq_lawful, Standard.mk.injEq, and_assoc]

instance : LawfulPEq Standard := ⟨Standard.peq_iff⟩

theorem Daylight.peq_iff (v w : Daylight) : PEq.eq v w = true ↔ v = w := by
  obtain ⟨a0, a1, a2, a3, a4, a5, a6, a7, a8⟩ := v
  obtain ⟨b0, b1, b2, b3, b4, b5, b6, b7, b8⟩ := w
  show Daylight.eq _ _ = true ↔ _
  simp only [Daylight.eq, Bool.and_eq_true, peq_lawful, Daylight.mk.injEq, and_assoc]

instance : LawfulPEq Daylight := ⟨Daylight.peq_iff⟩

theorem VTimezone.peq_iff (v w : VTimezone) : PEq.eq v w = true ↔ v = w := by
  obtain ⟨a0, a1, a2, a3, a4, a5, a6⟩ := v
  obtain ⟨b0, b1, b2, b3, b4, b5, b6⟩ := w
  show VTimezone.eq _ _ = true ↔ _
  simp only [VTimezone.eq, Bool.and_eq_true, peq_lawful, VTimezone.mk.injEq, and_assoc]

instance : LawfulPEq VTimezone := ⟨VTimezone.peq_iff⟩

/-- **C86**: alarms, standard and daylight times and time zones are equal exactly if they are the same. -/
theorem C86_exact : (∀ v w : Audio, PEq.eq v w = true ↔ v = w) ∧ (∀ v w : Display, PEq.eq v w = true ↔ v = w) ∧ (∀ v w : Email, PEq.eq v w = true ↔ v = w) ∧
    (∀ v w : VAlarm, PEq.eq v w = true ↔ v = w) ∧ (∀ v w : Standard, PEq.eq v w = true ↔ v = w) ∧ (∀ v w : Daylight, PEq.eq v w = true ↔ v = w) ∧
    ∀ v w : VTimezone, PEq.eq v w = true ↔ v = w :=
  ⟨Audio.peq_iff, Display.peq_iff, Email.peq_iff, VAlarm.peq_iff, Standard.peq_iff, Daylight.peq_iff, VTimezone.peq_iff⟩

variable [FloatEq]

set_option maxHeartbeats 1000000 in
/-- **C86**: two events are equal exactly if they differ at most in floats that are equal. -/
theorem C86_event (v w : VEvent) : PEq.eq v w = true ↔ SameEvent v w := by
  obtain ⟨a0, a1, a2, a3, a4, a5, a6, a7, a8, a9, a10, a11, a12, a13, a14, a15, a16, a17, a18, a19, a20, a21, a22, a23, a24, a25, a26, a27, a28, a29, a30, a31, a32⟩ := v
  obtain ⟨b0, b1, b2, b3, b4, b5, b6, b7, b8, b9, b10, b11, b12, b13, b14, b15, b16, b17, b18, b19, b20, b21, b22, b23, b24, b25, b26, b27, b28, b29, b30, b31, b32⟩ := w
  show VEvent.eq _ _ = true ↔ _
  simp only [VEvent.eq, Bool.and_eq_true, peq_lawful, geosEq_iff, statusesEq_iff, SameEvent, VEvent.mk.injEq, true_and, and_true]
  constructor
  · intro h
    simp only [h, and_self]
  · intro h
    simp only [h, and_self]

set_option maxHeartbeats 1000000 in
/-- **C86**: two to-dos are equal exactly if they differ at most in floats that are equal. -/
theorem C86_todo (v w : VTodo) : PEq.eq v w = true ↔ SameTodo v w := by
  obtain ⟨a0, a1, a2, a3, a4, a5, a6, a7, a8, a9, a10, a11, a12, a13, a14, a15, a16, a17, a18, a19, a20, a21, a22, a23, a24, a25, a26, a27, a28, a29, a30, a31⟩ := v
  obtain ⟨b0, b1, b2, b3, b4, b5, b6, b7, b8, b9, b10, b11, b12, b13, b14, b15, b16, b17, b18, b19, b20, b21, b22, b23, b24, b25, b26, b27, b28, b29, b30, b31⟩ := w
  show VTodo.eq _ _ = true ↔ _
  simp only [VTodo.eq, Bool.and_eq_true, peq_lawful, geosEq_iff, statusesEq_iff, SameTodo, VTodo.mk.injEq, true_and, and_true]
  constructor
  · intro h
    simp only [h, and_self]
  · intro h
    simp only [h, and_self]

set_option maxHeartbeats 1000000 in
/-- **C86**: two journals are equal exactly if they differ at most in floats that are equal. -/
theorem C86_journal (v w : VJournal) : PEq.eq v w = true ↔ SameJournal v w := by
  obtain ⟨a0, a1, a2, a3, a4, a5, a6, a7, a8, a9, a10, a11, a12, a13, a14, a15, a16, a17, a18, a19, a20, a21, a22, a23, a24⟩ := v
  obtain ⟨b0, b1, b2, b3, b4, b5, b6, b7, b8, b9, b10, b11, b12, b13, b14, b15, b16, b17, b18, b19, b20, b21, b22, b23, b24⟩ := w
  show VJournal.eq _ _ = true ↔ _
  simp only [VJournal.eq, Bool.and_eq_true, peq_lawful, geosEq_iff, statusesEq_iff, SameJournal, VJournal.mk.injEq, true_and, and_true]
  constructor
  · intro h
    simp only [h, and_self]
  · intro h
    simp only [h, and_self]

set_option maxHeartbeats 1000000 in
/-- **C86**: two free-busy components are equal exactly if they differ at most in floats that are equal. -/
theorem C86_freebusy (v w : VFreebusy) : PEq.eq v w = true ↔ SameFreebusy v w := by
  obtain ⟨a0, a1, a2, a3, a4, a5, a6, a7, a8, a9, a10, a11, a12⟩ := v
  obtain ⟨b0, b1, b2, b3, b4, b5, b6, b7, b8, b9, b10, b11, b12⟩ := w
  show VFreebusy.eq _ _ = true ↔ _
  simp only [VFreebusy.eq, Bool.and_eq_true, peq_lawful, geosEq_iff, statusesEq_iff, SameFreebusy, VFreebusy.mk.injEq, true_and, and_true]
  constructor
  · intro h
    simp only [h, and_self]
  · intro h
    simp only [h, and_self]

set_option maxHeartbeats 1000000 in
/-- **C86**: two calendars are equal exactly if they differ at most in floats that are equal. -/
theorem C86_calendar (v w : VCalendar) : PEq.eq v w = true ↔ SameCalendar v w := by
  obtain ⟨a0, a1, a2, a3, a4, a5, a6, a7, a8, a9, a10, a11⟩ := v
  obtain ⟨b0, b1, b2, b3, b4, b5, b6, b7, b8, b9, b10, b11⟩ := w
  have he : ∀ as bs : List VEvent, PEq.eq as bs = true ↔ Each SameEvent as bs := fun as bs => listEq_iff.trans (each_congr C86_event)
  have hf : ∀ as bs : List VFreebusy, PEq.eq as bs = true ↔ Each SameFreebusy as bs := fun as bs => listEq_iff.trans (each_congr C86_freebusy)
  have hj : ∀ as bs : List VJournal, PEq.eq as bs = true ↔ Each SameJournal as bs := fun as bs => listEq_iff.trans (each_congr C86_journal)
  have ht : ∀ as bs : List VTodo, PEq.eq as bs = true ↔ Each SameTodo as bs := fun as bs => listEq_iff.trans (each_congr C86_todo)
  show VCalendar.eq _ _ = true ↔ _
  simp only [VCalendar.eq, Bool.and_eq_true, peq_lawful, he, hf, hj, ht, SameCalendar, VCalendar.mk.injEq, true_and, and_true]
  constructor
  · intro h
    simp only [h, and_self]
  · intro h
    simp only [h, and_self]

theorem SameEvent.symm {v w : VEvent} (h : SameEvent v w) : SameEvent w v :=
  ⟨h.1.symm, Both.symm (R := SameGeo) (fun _ _ h => SameGeo.symm h) h.2.1, Each.symm (R := SameStatus) (fun _ _ h => SameStatus.symm h) h.2.2⟩
theorem SameEvent.trans {u v w : VEvent} (h : SameEvent u v) (g : SameEvent v w) : SameEvent u w :=
  ⟨h.1.trans g.1, Both.trans (R := SameGeo) (fun _ _ _ h g => SameGeo.trans h g) h.2.1 g.2.1, Each.trans (R := SameStatus) (fun _ _ _ h g => SameStatus.trans h g) h.2.2 g.2.2⟩
theorem SameTodo.symm {v w : VTodo} (h : SameTodo v w) : SameTodo w v :=
  ⟨h.1.symm, Both.symm (R := SameGeo) (fun _ _ h => SameGeo.symm h) h.2.1, Each.symm (R := SameStatus) (fun _ _ h => SameStatus.symm h) h.2.2⟩
theorem SameTodo.trans {u v w : VTodo} (h : SameTodo u v) (g : SameTodo v w) : SameTodo u w :=
  ⟨h.1.trans g.1, Both.trans (R := SameGeo) (fun _ _ _ h g => SameGeo.trans h g) h.2.1 g.2.1, Each.trans (R := SameStatus) (fun _ _ _ h g => SameStatus.trans h g) h.2.2 g.2.2⟩
theorem SameJournal.symm {v w : VJournal} (h : SameJournal v w) : SameJournal w v := ⟨h.1.symm, Each.symm (R := SameStatus) (fun _ _ h => SameStatus.symm h) h.2⟩
theorem SameJournal.trans {u v w : VJournal} (h : SameJournal u v) (g : SameJournal v w) : SameJournal u w :=
  ⟨h.1.trans g.1, Each.trans (R := SameStatus) (fun _ _ _ h g => SameStatus.trans h g) h.2 g.2⟩
theorem SameFreebusy.symm {v w : VFreebusy} (h : SameFreebusy v w) : SameFreebusy w v := ⟨h.1.symm, Each.symm (R := SameStatus) (fun _ _ h => SameStatus.symm h) h.2⟩
theorem SameFreebusy.trans {u v w : VFreebusy} (h : SameFreebusy u v) (g : SameFreebusy v w) : SameFreebusy u w :=
  ⟨h.1.trans g.1, Each.trans (R := SameStatus) (fun _ _ _ h g => SameStatus.trans h g) h.2 g.2⟩
theorem SameCalendar.symm {v w : VCalendar} (h : SameCalendar v w) : SameCalendar w v :=
  ⟨h.1.symm, Each.symm (R := SameEvent) (fun _ _ h => SameEvent.symm h) h.2.1, Each.symm (R := SameFreebusy) (fun _ _ h => SameFreebusy.symm h) h.2.2.1, Each.symm (R := SameJournal) (fun _ _ h => SameJournal.symm h) h.2.2.2.1,
    Each.symm (R := SameTodo) (fun _ _ h => SameTodo.symm h) h.2.2.2.2⟩
theorem SameCalendar.trans {u v w : VCalendar} (h : SameCalendar u v) (g : SameCalendar v w) : SameCalendar u w :=
  ⟨h.1.trans g.1, Each.trans (R := SameEvent) (fun _ _ _ h g => SameEvent.trans h g) h.2.1 g.2.1, Each.trans (R := SameFreebusy) (fun _ _ _ h g => SameFreebusy.trans h g) h.2.2.1 g.2.2.1,
    Each.trans (R := SameJournal) (fun _ _ _ h g => SameJournal.trans h g) h.2.2.2.1 g.2.2.2.1, Each.trans (R := SameTodo) (fun _ _ _ h g => SameTodo.trans h g) h.2.2.2.2 g.2.2.2.2⟩

/-- **C86**: equality is symmetric. -/
theorem C86_symm : (∀ v w : VEvent, PEq.eq v w = true → PEq.eq w v = true) ∧
    (∀ v w : VTodo, PEq.eq v w = true → PEq.eq w v = true) ∧
    (∀ v w : VJournal, PEq.eq v w = true → PEq.eq w v = true) ∧
    (∀ v w : VFreebusy, PEq.eq v w = true → PEq.eq w v = true) ∧
    (∀ v w : VCalendar, PEq.eq v w = true → PEq.eq w v = true) :=
  ⟨fun v w h => (C86_event w v).2 (SameEvent.symm ((C86_event v w).1 h)), fun v w h => (C86_todo w v).2 (SameTodo.symm ((C86_todo v w).1 h)), fun v w h => (C86_journal w v).2 (SameJournal.symm ((C86_journal v w).1 h)), fun v w h => (C86_freebusy w v).2 (SameFreebusy.symm ((C86_freebusy v w).1 h)), fun v w h => (C86_calendar w v).2 (SameCalendar.symm ((C86_calendar v w).1 h))⟩

/-- **C86**: equality is transitive. -/
theorem C86_trans : (∀ u v w : VEvent, PEq.eq u v = true → PEq.eq v w = true → PEq.eq u w = true) ∧
    (∀ u v w : VTodo, PEq.eq u v = true → PEq.eq v w = true → PEq.eq u w = true) ∧
    (∀ u v w : VJournal, PEq.eq u v = true → PEq.eq v w = true → PEq.eq u w = true) ∧
    (∀ u v w : VFreebusy, PEq.eq u v = true → PEq.eq v w = true → PEq.eq u w = true) ∧
    (∀ u v w : VCalendar, PEq.eq u v = true → PEq.eq v w = true → PEq.eq u w = true) :=
  ⟨fun u v w h g => (C86_event u w).2 (SameEvent.trans ((C86_event u v).1 h) ((C86_event v w).1 g)), fun u v w h g => (C86_todo u w).2 (SameTodo.trans ((C86_todo u v).1 h) ((C86_todo v w).1 g)), fun u v w h g => (C86_journal u w).2 (SameJournal.trans ((C86_journal u v).1 h) ((C86_journal v w).1 g)), fun u v w h g => (C86_freebusy u w).2 (SameFreebusy.trans ((C86_freebusy u v).1 h) ((C86_freebusy v w).1 g)), fun u v w h g => (C86_calendar u w).2 (SameCalendar.trans ((C86_calendar u v).1 h) ((C86_calendar v w).1 g))⟩

theorem numbers_iff {g : Option Geo} {rs : List RequestStatus} : (Both SameGeo g g ∧ Each SameStatus rs rs) ↔ Numbers g rs := by
  rw [both_self, each_self]
  simp [Numbers, SameGeo, SameStatus, Number]

theorem numbers_none_iff {rs : List RequestStatus} : Each SameStatus rs rs ↔ Numbers none rs := by
  rw [each_self]
  simp [Numbers, SameStatus, Number]

theorem sameEvent_self (v : VEvent) : SameEvent v v ↔ Numbers v.geo v.rstatus := by simp only [SameEvent, true_and, numbers_iff]
theorem sameTodo_self (v : VTodo) : SameTodo v v ↔ Numbers v.geo v.rstatus := by simp only [SameTodo, true_and, numbers_iff]
theorem sameJournal_self (v : VJournal) : SameJournal v v ↔ Numbers none v.rstatus := by simp only [SameJournal, true_and, numbers_none_iff]
theorem sameFreebusy_self (v : VFreebusy) : SameFreebusy v v ↔ Numbers none v.rstatus := by simp only [SameFreebusy, true_and, numbers_none_iff]

/-- **C86**: a component is equal to itself, or to its clone, exactly if it contains no `NaN`. -/
theorem C86_self : (∀ v : VEvent, PEq.eq v v = true ↔ Numbers v.geo v.rstatus) ∧ (∀ v : VTodo, PEq.eq v v = true ↔ Numbers v.geo v.rstatus) ∧
    (∀ v : VJournal, PEq.eq v v = true ↔ Numbers none v.rstatus) ∧ (∀ v : VFreebusy, PEq.eq v v = true ↔ Numbers none v.rstatus) ∧
    ∀ v : VCalendar, PEq.eq v v = true ↔ NumbersIn v := by
  refine ⟨fun v => (C86_event v v).trans (sameEvent_self v), fun v => (C86_todo v v).trans (sameTodo_self v), fun v => (C86_journal v v).trans (sameJournal_self v),
    fun v => (C86_freebusy v v).trans (sameFreebusy_self v), fun v => (C86_calendar v v).trans ?_⟩
  simp only [SameCalendar, true_and, each_self, sameEvent_self, sameFreebusy_self, sameJournal_self, sameTodo_self, NumbersIn]

/-! ## Iterating over equal components -/

set_option maxHeartbeats 1000000 in
theorem respected_VEvent : Respected (α := VEvent) (fun a b => PEq.eq a b = true) := by
  constructor
  all_goals intro a b
  all_goals simp only [C86_event, SameEvent]
  · intro h; have := congrArg (Recurring.dtstart (α := VEvent)) h.1; exact this
  · intro h; have := congrArg (Recurring.exdate (α := VEvent)) h.1; exact this
  · intro h; have := congrArg (Recurring.dtend (α := VEvent)) h.1; exact this
  · intro h; have := congrArg (Recurring.rrule (α := VEvent)) h.1; exact this
  · intro d h; have := congrArg (fun x : VEvent => Recurring.setDtstart x d) h.1; exact ⟨this, h.2⟩
  · intro d h; have := congrArg (fun x : VEvent => Recurring.setDtend x d) h.1; exact ⟨this, h.2⟩
  · intro r h; have := congrArg (fun x : VEvent => Recurring.setRrule x r) h.1; exact ⟨this, h.2⟩

set_option maxHeartbeats 1000000 in
theorem respected_VTodo : Respected (α := VTodo) (fun a b => PEq.eq a b = true) := by
  constructor
  all_goals intro a b
  all_goals simp only [C86_todo, SameTodo]
  · intro h; have := congrArg (Recurring.dtstart (α := VTodo)) h.1; exact this
  · intro h; have := congrArg (Recurring.exdate (α := VTodo)) h.1; exact this
  · intro h; have := congrArg (Recurring.dtend (α := VTodo)) h.1; exact this
  · intro h; have := congrArg (Recurring.rrule (α := VTodo)) h.1; exact this
  · intro d h; have := congrArg (fun x : VTodo => Recurring.setDtstart x d) h.1; exact ⟨this, h.2⟩
  · intro d h; have := congrArg (fun x : VTodo => Recurring.setDtend x d) h.1; exact ⟨this, h.2⟩
  · intro r h; have := congrArg (fun x : VTodo => Recurring.setRrule x r) h.1; exact ⟨this, h.2⟩

set_option maxHeartbeats 1000000 in
theorem respected_VJournal : Respected (α := VJournal) (fun a b => PEq.eq a b = true) := by
  constructor
  all_goals intro a b
  all_goals simp only [C86_journal, SameJournal]
  · intro h; have := congrArg (Recurring.dtstart (α := VJournal)) h.1; exact this
  · intro h; have := congrArg (Recurring.exdate (α := VJournal)) h.1; exact this
  · intro h; have := congrArg (Recurring.dtend (α := VJournal)) h.1; exact this
  · intro h; have := congrArg (Recurring.rrule (α := VJournal)) h.1; exact this
  · intro d h; have := congrArg (fun x : VJournal => Recurring.setDtstart x d) h.1; exact ⟨this, h.2⟩
  · intro d h; have := congrArg (fun x : VJournal => Recurring.setDtend x d) h.1; exact ⟨this, h.2⟩
  · intro r h; have := congrArg (fun x : VJournal => Recurring.setRrule x r) h.1; exact ⟨this, h.2⟩

omit [FloatEq] in
theorem calls_respected {α : Type} [Recurring α] [PEq α] (h : Respected (α := α) (fun a b => PEq.eq a b = true)) {v v' : α} {os : List (Outcome α)} (hc : Calls v os v') :
    ∀ w, PEq.eq v w = true → ∃ ps w', Calls w ps w' ∧ All2 SameOutcome os ps ∧ PEq.eq v' w' = true := by
  induction hc with
  | nil => intro w hw; exact ⟨[], w, .nil, .nil, hw⟩
  | @cons s s' s'' o os hr _ ih =>
    intro w hw
    obtain ⟨hne, fuel, hf⟩ := hr
    have hn := h.next fuel hw
    rw [hf] at hn
    obtain ⟨ho, hs⟩ := hn
    simp only at ho hs
    obtain ⟨ps, w', hc, he, hw'⟩ := ih _ hs
    refine ⟨(next fuel w).1 :: ps, w', .cons ⟨?_, fuel, rfl⟩ hc, .cons ?_ he, hw'⟩
    · intro e
      rw [e] at ho
      cases o <;> simp only [OutcomeRel] at ho
      exact hne rfl
    · cases o <;> cases hp : (next fuel w).1 <;> simp only [hp, OutcomeRel] at ho <;> try exact ho.elim
      · exact .item ho
      · exact .done
      · exact .panic
      · exact absurd rfl hne

omit [FloatEq] in
theorem selects_respected {α : Type} [Recurring α] [PEq α] (h : Respected (α := α) (fun a b => PEq.eq a b = true)) {r : Range α} {xs : List α} (hx : Selects r xs)
    {r' : Range α} (hr : RangeRel (fun a b => PEq.eq a b = true) r r') : ∃ ys, Selects r' ys ∧ Each (fun a b => PEq.eq a b = true) xs ys := by
  obtain ⟨e, hrun, hend⟩ := hx
  induction hrun generalizing r' with
  | nil =>
    obtain ⟨fuel, e', he⟩ := hend
    have hn := h.range fuel hr
    rw [he] at hn
    refine ⟨[], ⟨r', .nil, fuel, (r'.next fuel).2, ?_⟩, .nil⟩
    cases hp : (r'.next fuel).1 <;> simp only [hp, OutcomeRel] at hn <;> try exact hn.1.elim
    exact Prod.ext hp rfl
  | @cons r1 r2 r3 x xs hy _ ih =>
    obtain ⟨fuel, hf⟩ := hy
    have hn := h.range fuel hr
    rw [hf] at hn
    obtain ⟨ho, hr2⟩ := hn
    cases hp : (r'.next fuel).1 <;> simp only [hp, OutcomeRel] at ho <;> try exact ho.elim
    rename_i y
    obtain ⟨ys, ⟨e', hrun', hend'⟩, hys⟩ := ih hr2 hend
    exact ⟨y :: ys, ⟨e', .cons ⟨fuel, Prod.ext hp rfl⟩ hrun', hend'⟩, .cons ho hys⟩

omit [FloatEq] in
theorem iteratesAlike {α : Type} [Recurring α] [PEq α] (h : Respected (α := α) (fun a b => PEq.eq a b = true)) {v w : α} (hw : PEq.eq v w = true) : IteratesAlike v w :=
  ⟨fun _ _ hc => calls_respected h hc w hw, fun _ _ _ hx => selects_respected h hx ⟨hw, rfl, rfl, rfl, rfl⟩,
    fun _ _ hx => selects_respected h hx ⟨hw, rfl, rfl, rfl, rfl⟩⟩

/-- **C86**: equal components have equal occurrences, call by call, and equal selections. -/
theorem C86_iterate : (∀ v w : VEvent, PEq.eq v w = true → IteratesAlike v w) ∧ (∀ v w : VTodo, PEq.eq v w = true → IteratesAlike v w) ∧
    ∀ v w : VJournal, PEq.eq v w = true → IteratesAlike v w :=
  ⟨fun _ _ => iteratesAlike respected_VEvent, fun _ _ => iteratesAlike respected_VTodo, fun _ _ => iteratesAlike respected_VJournal⟩

/-! ## Writing equal components -/

/-- Floats that are equal are written in the same way (not true of `0.0` and `-0.0`). -/
def ShownAlike : Prop := ∀ x y, FloatEq.feq x y = true → Platform.floatShow x = Platform.floatShow y ∧ Platform.floatShow1 x = Platform.floatShow1 y

theorem geo_alike (hs : ShownAlike) {a b : Geo} (h : SameGeo a b) : SerAlike a b :=
  ⟨rfl, by show Res.ok a.toStr = Res.ok b.toStr; rw [Geo.toStr, Geo.toStr, (hs _ _ h.1).1, (hs _ _ h.2).1]⟩

theorem status_alike (hs : ShownAlike) {a b : RequestStatus} (h : SameStatus a b) : SerAlike a b := by
  obtain ⟨c, d, e⟩ := a
  obtain ⟨c', d', e'⟩ := b
  obtain ⟨h1, h2, h3⟩ := h
  simp only at h1 h2 h3
  subst h2 h3
  refine ⟨rfl, ?_⟩
  simp only [Ser.ical, (hs _ _ h1).2]

set_option maxHeartbeats 1000000 in
theorem event_alike (hs : ShownAlike) {v w : VEvent} (h : SameEvent v w) : SerAlike v w := by
  obtain ⟨a0, a1, a2, a3, a4, a5, a6, a7, a8, a9, a10, a11, a12, a13, a14, a15, a16, a17, a18, a19, a20, a21, a22, a23, a24, a25, a26, a27, a28, a29, a30, a31, a32⟩ := v
  obtain ⟨b0, b1, b2, b3, b4, b5, b6, b7, b8, b9, b10, b11, b12, b13, b14, b15, b16, b17, b18, b19, b20, b21, b22, b23, b24, b25, b26, b27, b28, b29, b30, b31, b32⟩ := w
  obtain ⟨h, hg, hr⟩ := h
  have hg := (Both.serAlike (hg.elim .inl fun ⟨x, y, h1, h2, h3⟩ => .inr ⟨x, y, h1, h2, geo_alike hs h3⟩)).field c!"GEO"
  have hr := Each.serVec (Each.mono (fun _ _ => status_alike hs) hr) c!"RSTATUS"
  simp only [VEvent.mk.injEq, true_and] at h
  obtain ⟨rfl, rfl, rfl, rfl, rfl, rfl, rfl, rfl, rfl, rfl, rfl, rfl, rfl, rfl, rfl, rfl, rfl, rfl, rfl, rfl, rfl, rfl, rfl, rfl, rfl, rfl, rfl, rfl, rfl, rfl, rfl⟩ := h
  refine ⟨rfl, ?_⟩
  simp only [Ser.ical, VEvent.toComp, Comp.ical, Slots.ser, Field.serField] at hr hg ⊢
  rw [hr, hg]

set_option maxHeartbeats 1000000 in
theorem todo_alike (hs : ShownAlike) {v w : VTodo} (h : SameTodo v w) : SerAlike v w := by
  obtain ⟨a0, a1, a2, a3, a4, a5, a6, a7, a8, a9, a10, a11, a12, a13, a14, a15, a16, a17, a18, a19, a20, a21, a22, a23, a24, a25, a26, a27, a28, a29, a30, a31⟩ := v
  obtain ⟨b0, b1, b2, b3, b4, b5, b6, b7, b8, b9, b10, b11, b12, b13, b14, b15, b16, b17, b18, b19, b20, b21, b22, b23, b24, b25, b26, b27, b28, b29, b30, b31⟩ := w
  obtain ⟨h, hg, hr⟩ := h
  have hg := (Both.serAlike (hg.elim .inl fun ⟨x, y, h1, h2, h3⟩ => .inr ⟨x, y, h1, h2, geo_alike hs h3⟩)).field c!"GEO"
  have hr := Each.serVec (Each.mono (fun _ _ => status_alike hs) hr) c!"RSTATUS"
  simp only [VTodo.mk.injEq, true_and] at h
  obtain ⟨rfl, rfl, rfl, rfl, rfl, rfl, rfl, rfl, rfl, rfl, rfl, rfl, rfl, rfl, rfl, rfl, rfl, rfl, rfl, rfl, rfl, rfl, rfl, rfl, rfl, rfl, rfl, rfl, rfl, rfl⟩ := h
  refine ⟨rfl, ?_⟩
  simp only [Ser.ical, VTodo.toComp, Comp.ical, Slots.ser, Field.serField] at hr hg ⊢
  rw [hr, hg]

set_option maxHeartbeats 1000000 in
theorem journal_alike (hs : ShownAlike) {v w : VJournal} (h : SameJournal v w) : SerAlike v w := by
  obtain ⟨a0, a1, a2, a3, a4, a5, a6, a7, a8, a9, a10, a11, a12, a13, a14, a15, a16, a17, a18, a19, a20, a21, a22, a23, a24⟩ := v
  obtain ⟨b0, b1, b2, b3, b4, b5, b6, b7, b8, b9, b10, b11, b12, b13, b14, b15, b16, b17, b18, b19, b20, b21, b22, b23, b24⟩ := w
  obtain ⟨h, hr⟩ := h
  have hr := Each.serVec (Each.mono (fun _ _ => status_alike hs) hr) c!"RSTATUS"
  simp only [VJournal.mk.injEq, true_and] at h
  obtain ⟨rfl, rfl, rfl, rfl, rfl, rfl, rfl, rfl, rfl, rfl, rfl, rfl, rfl, rfl, rfl, rfl, rfl, rfl, rfl, rfl, rfl, rfl, rfl, rfl⟩ := h
  refine ⟨rfl, ?_⟩
  simp only [Ser.ical, VJournal.toComp, Comp.ical, Slots.ser, Field.serField] at hr ⊢
  rw [hr]

set_option maxHeartbeats 1000000 in
theorem freebusy_alike (hs : ShownAlike) {v w : VFreebusy} (h : SameFreebusy v w) : SerAlike v w := by
  obtain ⟨a0, a1, a2, a3, a4, a5, a6, a7, a8, a9, a10, a11, a12⟩ := v
  obtain ⟨b0, b1, b2, b3, b4, b5, b6, b7, b8, b9, b10, b11, b12⟩ := w
  obtain ⟨h, hr⟩ := h
  have hr := Each.serVec (Each.mono (fun _ _ => status_alike hs) hr) c!"RSTATUS"
  simp only [VFreebusy.mk.injEq, true_and] at h
  obtain ⟨rfl, rfl, rfl, rfl, rfl, rfl, rfl, rfl, rfl, rfl, rfl, rfl⟩ := h
  refine ⟨rfl, ?_⟩
  simp only [Ser.ical, VFreebusy.toComp, Comp.ical, Slots.ser, Field.serField] at hr ⊢
  rw [hr]

set_option maxHeartbeats 1000000 in
theorem calendar_alike (hs : ShownAlike) {v w : VCalendar} (h : SameCalendar v w) : SerAlike v w := by
  obtain ⟨a0, a1, a2, a3, a4, a5, a6, a7, a8, a9, a10, a11⟩ := v
  obtain ⟨b0, b1, b2, b3, b4, b5, b6, b7, b8, b9, b10, b11⟩ := w
  obtain ⟨h, he, hf, hj, ht⟩ := h
  have he := Each.serVec (Each.mono (fun _ _ => event_alike hs) he) c!"EVENTS"
  have hf := Each.serVec (Each.mono (fun _ _ => freebusy_alike hs) hf) c!"FREEBUSY"
  have hj := Each.serVec (Each.mono (fun _ _ => journal_alike hs) hj) c!"JOURNALS"
  have ht := Each.serVec (Each.mono (fun _ _ => todo_alike hs) ht) c!"TODO"
  simp only [VCalendar.mk.injEq, true_and] at h
  obtain ⟨rfl, rfl, rfl, rfl, rfl, rfl, rfl, rfl⟩ := h
  refine ⟨rfl, ?_⟩
  simp only [Ser.ical, VCalendar.toComp, Comp.ical, Slots.ser, Field.serField] at he hf hj ht ⊢
  rw [he, hf, hj, ht]

/-- **C86**: if equal floats are written in the same way then equal components are. -/
theorem C86_text (hs : ∀ x y, FloatEq.feq x y = true → Platform.floatShow x = Platform.floatShow y ∧ Platform.floatShow1 x = Platform.floatShow1 y) :
    (∀ v w : VEvent, PEq.eq v w = true → Ser.ical v = Ser.ical w) ∧
    (∀ v w : VTodo, PEq.eq v w = true → Ser.ical v = Ser.ical w) ∧
    (∀ v w : VJournal, PEq.eq v w = true → Ser.ical v = Ser.ical w) ∧
    (∀ v w : VFreebusy, PEq.eq v w = true → Ser.ical v = Ser.ical w) ∧
    (∀ v w : VCalendar, PEq.eq v w = true → Ser.ical v = Ser.ical w) :=
  ⟨fun v w h => (event_alike hs ((C86_event v w).1 h)).2, fun v w h => (todo_alike hs ((C86_todo v w).1 h)).2, fun v w h => (journal_alike hs ((C86_journal v w).1 h)).2, fun v w h => (freebusy_alike hs ((C86_freebusy v w).1 h)).2, fun v w h => (calendar_alike hs ((C86_calendar v w).1 h)).2⟩

end

/-! ## An example: floats that are equal and written differently, and a float that is not equal to itself -/

section

/-- Floats as texts; `-0` is equal to `0` and `NaN` is not equal to itself. -/
@[reducible, local instance] def exampleZone : Platform := utc

/-- The equality of the example. -/
def exampleFeq (x y : Str) : Bool := (x != c!"NaN") && (y != c!"NaN") && ((if x = c!"-0" then c!"0" else x) = (if y = c!"-0" then c!"0" else y))

@[reducible, local instance] def exampleFloats : FloatEq where
  feq := exampleFeq
  symm x y := by simp only [exampleFeq, Bool.and_eq_true, decide_eq_true_eq]; intro ⟨⟨h1, h2⟩, h3⟩; exact ⟨⟨h2, h1⟩, h3.symm⟩
  trans x y z := by
    simp only [exampleFeq, Bool.and_eq_true, decide_eq_true_eq]
    intro ⟨⟨h1, h2⟩, h3⟩ ⟨⟨g1, g2⟩, g3⟩
    exact ⟨⟨h1, g2⟩, h3.trans g3⟩

/-- An event in the Gulf of Guinea. -/
def exampleAt (lat : Str) : VEvent := { VEvent.default with geo := some ⟨lat, c!"0"⟩, rrule := some { Recur.default with interval := 1, count := some 2 } }

/-- Equal events with different texts. -/
example : PEq.eq (exampleAt c!"0") (exampleAt c!"-0") = true ∧ Ser.ical (exampleAt c!"0") ≠ Ser.ical (exampleAt c!"-0") := by decide +kernel

/-- An event that is not equal to itself. -/
example : PEq.eq (exampleAt c!"NaN") (exampleAt c!"NaN") = false := by decide +kernel

/-- The first of its occurrences. -/
example : (next 5 (exampleAt c!"0")).1 = .item (exampleAt c!"0") ∧ IteratesAlike (exampleAt c!"0") (exampleAt c!"-0") :=
  ⟨by rfl, C86_iterate.1 _ _ (by decide +kernel)⟩

end

end Ikal
