import Verif.Props.Fate
import Verif.Spec.Call

/-!
# One call of the iterator (C83)

For a component with a rule, exactly when a call yields an occurrence, returns `None`, panics, or never returns.  The panics need no assumption on the
rule or the dates: they are described by the dates of the steps, which C56–C58 determine.
-/

namespace Ikal

open Spec

section
variable [Platform] {α : Type} [Recurring α] [LawfulRecurring α]

theorem reachable_iff {s : α} {r : Recur} {d : Date} {k : Nat} :
    Reachable s r d k ↔ ∃ q, pos r k (d, Recurring.dtend s) = some q := by
  constructor
  · rintro ⟨⟨a, ha⟩, h⟩
    cases he : Recurring.dtend s with
    | none => exact ⟨(a, none), pos_iff.2 ⟨ha, rfl, by simp⟩⟩
    | some e =>
      obtain ⟨b, hb⟩ := h e he
      exact ⟨(a, some b), pos_iff.2 ⟨ha, rfl, by rintro _ ⟨⟩; exact hb⟩⟩
  · rintro ⟨q, h⟩
    obtain ⟨h1, h2, h3⟩ := pos_iff.1 h
    refine ⟨⟨_, h1⟩, fun e he => ?_⟩
    have := h3 e he
    rw [show (d, Recurring.dtend s).2 = some e from he] at h2
    cases hq : q.2 with
    | none => rw [hq] at h2; cases h2
    | some b => exact ⟨b, by rw [this, hq]⟩

theorem reachable_zero (s : α) (r : Recur) (d : Date) : Reachable s r d 0 := ⟨⟨d, rfl⟩, fun e _ => ⟨e, rfl⟩⟩

theorem excludedAt_iff {s : α} {r : Recur} {d : Date} {k : Nat} {q : Date × Option Date} (h : pos r k (d, Recurring.dtend s) = some q) :
    ExcludedAt s r d k ↔ q.1 ∈ Recurring.exdate s := by
  have := pos_start h
  unfold ExcludedAt
  rw [show nthDate r k d = some q.1 from this]
  constructor
  · rintro ⟨x, hx, h⟩; cases h; exact hx
  · intro hx; exact ⟨_, hx, rfl⟩

theorem withinAt_iff {s : α} {r : Recur} {d : Date} {k : Nat} {q : Date × Option Date} (h : pos r k (d, Recurring.dtend s) = some q) :
    WithinAt r d k ↔ pastUntil r q.1 = some false := by
  have := pos_start h
  unfold WithinAt
  rw [show nthDate r k d = some q.1 from this, ← within_iff]
  constructor
  · rintro ⟨a, h, h1⟩; cases h; exact h1
  · intro h; exact ⟨_, rfl, h⟩

theorem getsTo_reachable {s : α} {r : Recur} {d : Date} {k : Nat} (h : GetsTo s r d k) {i : Nat} (hi : i ≤ k) : Reachable s r d i := by
  cases i with
  | zero => exact reachable_zero s r d
  | succ i => exact (h i hi).2.1

theorem passes_iff {s : α} {r : Recur} {d : Date} {k : Nat} :
    Passes r (Recurring.exdate s) (d, Recurring.dtend s) k ↔ GetsTo s r d k := by
  constructor
  · intro h i hi
    obtain ⟨a, b, h1, h2, h3, h4⟩ := h i hi
    exact ⟨(withinAt_iff h1).2 h2, reachable_iff.2 ⟨_, h3⟩, (excludedAt_iff h3).2 h4⟩
  · intro h i hi
    obtain ⟨a, ha⟩ := reachable_iff.1 (getsTo_reachable h (Nat.le_of_lt hi))
    obtain ⟨h1, h2, h3⟩ := h i hi
    obtain ⟨b, hb⟩ := reachable_iff.1 h2
    exact ⟨a, b, ha, (withinAt_iff ha).1 h1, hb, (excludedAt_iff hb).1 h3⟩

/-- **C83**: a call yields an occurrence exactly if it arrives at a date that is not excluded and `COUNT` is not used up: the occurrence is the component
itself, and the next one is the component moved to that date, with one less in `COUNT`. -/
theorem C83_yields {s : α} {d : Date} {r : Recur} (hd : Recurring.dtstart s = some d) (hr : Recurring.rrule s = some r) :
    ((∃ x s', Yields s x s') ↔ r.count ≠ some 0 ∧ ∃ k, ArrivesAt s r d k) ∧
    ∀ x s', Yields s x s' → x = s ∧ ∃ k, ArrivesAt s r d k ∧ Recurring.dtstart s' = nthDate r (k + 1) d ∧
      Recurring.dtend s' = (Recurring.dtend s).bind (nthDate r (k + 1)) ∧ Recurring.rrule s' = some { r with count := r.count.map (· - 1) } ∧
      Recurring.exdate s' = Recurring.exdate s := by
  have key : ∀ {x s'}, Yields s x s' ↔ x = s ∧ ∃ k q, ArrivesAt s r d k ∧ pos r (k + 1) (d, Recurring.dtend s) = some q ∧ r.count ≠ some 0 ∧
      s' = place s q r.spend := by
    intro x s'
    rw [yields_iff hd hr]
    refine and_congr_right fun _ => ?_
    constructor
    · rintro ⟨k, q, h1, ⟨a, ha, hu, hq, hx, hc⟩, h3⟩
      exact ⟨k, q, ⟨passes_iff.1 h1, (withinAt_iff ha).2 hu, reachable_iff.2 ⟨_, hq⟩, by rw [excludedAt_iff hq]; exact hx⟩, hq, hc, h3⟩
    · rintro ⟨k, q, ⟨h1, h2, h3, h4⟩, hq, hc, h5⟩
      obtain ⟨a, ha⟩ := reachable_iff.1 (getsTo_reachable h1 (Nat.le_refl k))
      exact ⟨k, q, passes_iff.2 h1, ⟨a, ha, (withinAt_iff ha).1 h2, hq, by rw [excludedAt_iff hq] at h4; exact h4, hc⟩, h5⟩
  constructor
  · constructor
    · rintro ⟨x, s', h⟩
      obtain ⟨-, k, q, h1, -, h2, -⟩ := key.1 h
      exact ⟨h2, k, h1⟩
    · rintro ⟨hc, k, h⟩
      obtain ⟨q, hq⟩ := reachable_iff.1 h.2.2.1
      exact ⟨s, _, key.2 ⟨rfl, k, q, h, hq, hc, rfl⟩⟩
  · intro x s' h
    obtain ⟨rfl, k, q, h1, hq, -, rfl⟩ := key.1 h
    refine ⟨rfl, k, h1, ?_, ?_, ?_, exdate_place _ _ _⟩
    · rw [LawfulRecurring.dtstart_place]; exact (pos_start hq).symm
    · rw [LawfulRecurring.dtend_place _ _ _ (pos_isSome hq).symm]
      obtain ⟨-, h2, h3⟩ := pos_iff.1 hq
      cases he : Recurring.dtend x with
      | none =>
        rw [show (d, Recurring.dtend x).2 = none from he] at h2
        cases hq2 : q.2 with
        | none => rfl
        | some b => rw [hq2] at h2; cases h2
      | some e => exact (h3 e he).symm
    · rw [LawfulRecurring.rrule_place]; obtain ⟨f, u, c, _⟩ := r; cases c <;> rfl

/-- **C83**: a call returns `None` exactly if it gets to a date after `UNTIL`, or arrives at a date that is not excluded when `COUNT` is used up. -/
theorem C83_none {s : α} {d : Date} {r : Recur} (hd : Recurring.dtstart s = some d) (hr : Recurring.rrule s = some r) :
    Exhausted s ↔ (∃ k a, GetsTo s r d k ∧ nthDate r k d = some a ∧ PastUntil r a) ∨ r.count = some 0 ∧ ∃ k, ArrivesAt s r d k := by
  rw [ends_iff hd hr]
  constructor
  · rintro ⟨k, h1, a, ha, h | ⟨hu, q, hq, hx, hc⟩⟩
    · exact .inl ⟨k, a.1, passes_iff.1 h1, pos_start ha, (past_iff _ _).2 h⟩
    · exact .inr ⟨hc, k, passes_iff.1 h1, (withinAt_iff ha).2 hu, reachable_iff.2 ⟨_, hq⟩, by rw [excludedAt_iff hq]; exact hx⟩
  · rintro (⟨k, a, h1, ha, h⟩ | ⟨hc, k, h1, h2, h3, h4⟩)
    · obtain ⟨b, hb⟩ := reachable_iff.1 (getsTo_reachable h1 (Nat.le_refl k))
      have := pos_start hb
      rw [show nthDate r k (d, Recurring.dtend s).1 = some a from ha] at this
      cases this
      exact ⟨k, passes_iff.2 h1, b, hb, .inl ((past_iff _ _).1 h)⟩
    · obtain ⟨a, ha⟩ := reachable_iff.1 (getsTo_reachable h1 (Nat.le_refl k))
      obtain ⟨q, hq⟩ := reachable_iff.1 h3
      exact ⟨k, passes_iff.2 h1, a, ha, .inr ⟨(withinAt_iff ha).1 h2, q, hq, by rw [excludedAt_iff hq] at h4; exact h4, hc⟩⟩

/-- **C83**: a call panics exactly if it gets to a date that cannot be compared with `UNTIL`, or to one from which the start or the end cannot be moved
on by the rule. -/
theorem C83_panics {s : α} {d : Date} {r : Recur} (hd : Recurring.dtstart s = some d) (hr : Recurring.rrule s = some r) :
    Panics s ↔ ∃ k, GetsTo s r d k ∧ ((∃ a, nthDate r k d = some a ∧ OffUntil r a) ∨ WithinAt r d k ∧ ¬ Reachable s r d (k + 1)) := by
  rw [panics_iff hd hr]
  refine exists_congr fun k => ?_
  rw [passes_iff]
  refine and_congr_right fun h1 => ?_
  obtain ⟨b, hb⟩ := reachable_iff.1 (getsTo_reachable h1 (Nat.le_refl k))
  have hn : nthDate r k d = some b.1 := pos_start hb
  have hno : pos r (k + 1) (d, Recurring.dtend s) = none ↔ ¬ Reachable s r d (k + 1) := by
    rw [reachable_iff, Option.eq_none_iff_forall_not_mem]
    exact ⟨fun h ⟨q, hq⟩ => h q hq, fun h q hq => h ⟨q, hq⟩⟩
  constructor
  · rintro ⟨a, ha, h | ⟨hu, h⟩⟩
    · exact .inl ⟨a.1, pos_start ha, (off_iff _ _).2 h⟩
    · exact .inr ⟨(withinAt_iff ha).2 hu, hno.1 h⟩
  · rintro (⟨a, ha, h⟩ | ⟨hu, h⟩)
    · rw [hn] at ha; cases ha
      exact ⟨b, hb, .inl ((off_iff _ _).1 h)⟩
    · exact ⟨b, hb, .inr ⟨(withinAt_iff hb).1 hu, hno.2 h⟩⟩

/-- **C83**: a call never returns exactly if all dates of the steps are excluded (the start aside) and not after `UNTIL`. -/
theorem C83_never_returns {s : α} {d : Date} {r : Recur} (hd : Recurring.dtstart s = some d) (hr : Recurring.rrule s = some r) :
    RunsForever s ↔ ∀ k, WithinAt r d k ∧ Reachable s r d (k + 1) ∧ ExcludedAt s r d (k + 1) := by
  constructor
  · intro h k
    have := (running_iff hd hr _).1 (h (k + 1))
    exact passes_iff.1 this k (Nat.lt_succ_self k)
  · intro h fuel
    exact (running_iff hd hr _).2 (passes_iff.2 fun i _ => h i)

/-- **C83**: a call does one of the four, and only one. -/
theorem C83_one (s : α) : (∃ x s', Yields s x s') ∨ Exhausted s ∨ Panics s ∨ RunsForever s := by
  by_cases h : RunsForever s
  · exact .inr (.inr (.inr h))
  · obtain ⟨fuel, hf⟩ := Classical.not_forall.1 h
    rcases ho : next fuel s with ⟨o, s'⟩
    rw [ho] at hf
    have hs : o = .done ∨ o = .panic → s' = s := by
      intro h'
      rw [next_fst] at ho
      rcases h' with rfl | rfl <;> (split at ho <;> cases ho <;> rfl)
    cases o with
    | item x => exact .inl ⟨x, s', by simp, fuel, ho⟩
    | done => cases hs (.inl rfl); exact .inr (.inl ⟨by simp, fuel, ho⟩)
    | panic => cases hs (.inr rfl); exact .inr (.inr (.inl ⟨by simp, fuel, ho⟩))
    | running => exact absurd rfl hf

theorem C83_only_one (s : α) : ¬ ((∃ x s', Yields s x s') ∧ Exhausted s) ∧ ¬ ((∃ x s', Yields s x s') ∧ Panics s) ∧ ¬ (Exhausted s ∧ Panics s) ∧
    (RunsForever s → ¬ (∃ x s', Yields s x s') ∧ ¬ Exhausted s ∧ ¬ Panics s) := by
  have hd : ∀ {o o' : Outcome α} {s1 s2 : α}, Returns s o s1 → Returns s o' s2 → o = o' := fun h1 h2 => (Returns.det h1 h2).1
  refine ⟨fun ⟨⟨_, _, h⟩, h'⟩ => ?_, fun ⟨⟨_, _, h⟩, h'⟩ => ?_, fun ⟨h, h'⟩ => ?_, fun h => ⟨?_, ?_, ?_⟩⟩
  · cases hd h h'
  · cases hd h h'
  · cases hd h h'
  · rintro ⟨_, _, h1, f, h2⟩; exact h1 (by rw [← h f, h2])
  · rintro ⟨h1, f, h2⟩; exact h1 (by rw [← h f, h2])
  · rintro ⟨h1, f, h2⟩; exact h1 (by rw [← h f, h2])

end

/-! ## Examples -/

section
attribute [local instance] utc

/-- Every day from 30 January, 31 January excluded: the first call arrives at 1 February. -/
example : ArrivesAt (sampleEvent (jan 30) (some (jan 31)) (everyDays 1) [jan 31]) (everyDays 1) (jan 30) 1 := by
  refine ⟨?_, ⟨.date ⟨2024, 1, 31⟩, by decide +kernel, by rintro u ⟨⟩⟩, ⟨⟨.date ⟨2024, 2, 1⟩, by decide +kernel⟩, ?_⟩, ?_⟩
  · intro i hi
    have : i = 0 := by omega
    subst this
    refine ⟨⟨_, rfl, by rintro u ⟨⟩⟩, ⟨⟨jan 31, by decide +kernel⟩, ?_⟩, ⟨jan 31, by simp [sampleEvent, Recurring.exdate], by decide +kernel⟩⟩
    rintro e he; cases he; exact ⟨.date ⟨2024, 2, 1⟩, by decide +kernel⟩
  · rintro e he; cases he; exact ⟨.date ⟨2024, 2, 2⟩, by decide +kernel⟩
  · rintro ⟨x, hx, h⟩
    have : x = jan 31 := by simpa [sampleEvent, Recurring.exdate] using hx
    subst this
    exact absurd h (by decide +kernel)

/-- A yearly rule on 29 February: the first step is not reachable, so the first call panics. -/
example : Panics (sampleEvent (.date ⟨2024, 2, 29⟩) none { Recur.default with freq := .yearly, interval := 1 } []) :=
  (C83_panics (d := .date ⟨2024, 2, 29⟩) rfl rfl).2 ⟨0, fun i hi => absurd hi (Nat.not_lt_zero _), .inr ⟨⟨_, rfl, by rintro u ⟨⟩⟩,
    fun h => by obtain ⟨⟨a, ha⟩, -⟩ := h; exact absurd ha (by rw [show nthDate _ 1 (Date.date ⟨2024, 2, 29⟩) = none by decide +kernel]; simp)⟩⟩

/-- Interval 0 and the start excluded: the call never returns. -/
example : RunsForever (sampleEvent (jan 1) none (everyDays 0) [jan 1]) := by
  have h : ∀ k, nthDate (everyDays 0) k (jan 1) = some (jan 1) := by
    intro k
    induction k with
    | zero => rfl
    | succ k ih => simp only [nthDate, ih, Option.bind_some]; decide +kernel
  exact (C83_never_returns (d := jan 1) rfl rfl).2 fun k =>
    ⟨⟨_, h k, by rintro u ⟨⟩⟩, ⟨⟨_, h (k + 1)⟩, by rintro e ⟨⟩⟩, ⟨jan 1, by simp [sampleEvent, Recurring.exdate], h (k + 1)⟩⟩

end

end Ikal
