import Verif.Lemmas.Recur
import Verif.Props.Order
import Verif.TestPlatform

/-!
# Iterating over occurrences (C48–C55, C62, C64)

`Recurring` is the trait of the components that can recur; `LawfulRecurring` says that its setters and getters do what their names say,
and holds of events, to-dos and journals (`Verif/Lemmas/Recur.lean`).
-/

namespace Ikal

open Spec

set_option linter.unusedSectionVars false
set_option linter.unusedSimpArgs false

section
variable [Platform] {α : Type} [Recurring α] [LawfulRecurring α]

/-! ## C48 -/

theorem ends_of_none_rule {s : α} (h : Recurring.rrule s = none) : Exhausted s :=
  ⟨by simp, 1, by rw [next_fst, advance_none_rule h]⟩

theorem ends_of_none_start {s : α} (h : Recurring.dtstart s = none) : Exhausted s :=
  ⟨by simp, 1, by rw [next_fst, advance_none_start h]⟩

theorem run_of_ends {s s' : α} {xs : List α} (he : Exhausted s) (h : Run s xs s') : xs = [] ∧ s' = s := by
  cases h with
  | nil => exact ⟨rfl, rfl⟩
  | cons h1 h2 => exact absurd (Returns.det h1 he).1 (by simp)

/-- **C48**: a component without a rule, or without a start, yields nothing, not even itself. -/
theorem C48_nothing (s : α) (h : Recurring.rrule s = none ∨ Recurring.dtstart s = none) :
    Exhausted s ∧ ∀ xs s', Run s xs s' → xs = [] := by
  have he : Exhausted s := h.elim ends_of_none_rule ends_of_none_start
  exact ⟨he, fun xs s' hr => (run_of_ends he hr).1⟩

/-- **C48** for the three components that can recur. -/
theorem C48_components :
    (∀ e : VEvent, e.rrule = none → Exhausted e) ∧ (∀ j : VJournal, j.rrule = none → Exhausted j) ∧
    (∀ t : VTodo, t.rrule = none ∨ t.dtstart = none → Exhausted t) :=
  ⟨fun e h => (C48_nothing e (.inl h)).1, fun j h => (C48_nothing j (.inl h)).1, fun t h => (C48_nothing t h).1⟩

theorem run_rule {s s' x : α} {xs : List α} (h : Run s (x :: xs) s') :
    ∃ d r, Recurring.dtstart s = some d ∧ Recurring.rrule s = some r := by
  cases hd : Recurring.dtstart s with
  | none => exact absurd (run_of_ends (ends_of_none_start hd) h).1 (by simp)
  | some d =>
    cases hr : Recurring.rrule s with
    | none => exact absurd (run_of_ends (ends_of_none_rule hr) h).1 (by simp)
    | some r => exact ⟨d, r, rfl, rfl⟩

/-! ## C49 -/

/-- **C49**: the first occurrence yielded is the component itself. -/
theorem C49_first {s s' x : α} {xs : List α} (h : Run s (x :: xs) s') : x = s := by
  obtain ⟨d, r, hd, hr⟩ := run_rule h
  cases h with
  | cons h1 _ => exact ((yields_iff hd hr).1 h1).1

/-! ## What the occurrences are -/

theorem map_stateAt {β : Type} {s : α} {d : Date} {r : Recur} {m : Nat} {xs : List α} (h : xs.map some = yielded s d r m) {f : α → β}
    {g : Nat → Nat → β} (hfg : ∀ j k q, pos r k (d, Recurring.dtend s) = some q → f (stateAt s r j q) = g j k) :
    xs.map f = (keptSteps r (Recurring.exdate s) d m).mapIdx g := by
  refine List.ext_getElem? fun j => ?_
  have hj := congrArg (·[j]?) h
  unfold yielded at hj
  simp only [List.getElem?_map, List.getElem?_mapIdx] at hj ⊢
  cases hk : (keptSteps r (Recurring.exdate s) d m)[j]? with
  | none =>
    rw [hk] at hj
    cases hx : xs[j]? with
    | none => rfl
    | some x => rw [hx] at hj; simp at hj
  | some k =>
    rw [hk] at hj
    cases hx : xs[j]? with
    | none => rw [hx] at hj; simp at hj
    | some x =>
      rw [hx] at hj
      simp only [Option.map_some, Option.some.injEq] at hj
      obtain ⟨q, hq, rfl⟩ := Option.map_eq_some_iff.1 hj.symm
      simp only [Option.map_some, Option.some.injEq]
      exact hfg j k q hq

theorem mapIdx_const {β γ : Type} (f : β → γ) (l : List β) : l.mapIdx (fun _ b => f b) = l.map f := by
  refine List.ext_getElem? fun j => ?_
  simp only [List.getElem?_map, List.getElem?_mapIdx]

theorem length_yielded {s : α} {d : Date} {r : Recur} {m : Nat} {xs : List α} (h : xs.map some = yielded s d r m) :
    xs.length = (keptSteps r (Recurring.exdate s) d m).length := by
  have := congrArg List.length h
  simpa [yielded] using this

theorem starts_yielded {s : α} {d : Date} {r : Recur} {m : Nat} {xs : List α} (h : xs.map some = yielded s d r m) :
    starts xs = (keptSteps r (Recurring.exdate s) d m).map fun k => nthDate r k d := by
  unfold starts
  rw [map_stateAt h (g := fun _ k => nthDate r k d), mapIdx_const]
  intro j k q hq
  rw [stateAt_dtstart]
  exact (pos_start hq).symm

theorem ends_yielded {s : α} {d : Date} {r : Recur} {m : Nat} {xs : List α} (h : xs.map some = yielded s d r m) :
    ends xs = (keptSteps r (Recurring.exdate s) d m).map fun k => (Recurring.dtend s).bind (nthDate r k) := by
  unfold ends
  rw [map_stateAt h (g := fun _ k => (Recurring.dtend s).bind (nthDate r k)), mapIdx_const]
  intro j k q hq
  rw [stateAt_dtend hq]
  have h2 := (pos_iff.1 hq).2
  cases he : Recurring.dtend s with
  | none =>
    rw [he] at h2
    cases hq2 : q.2 with
    | none => rfl
    | some _ => rw [hq2] at h2; simp at h2
  | some e => exact (h2.2 e he).symm

theorem mem_yielded {s x : α} {d : Date} {r : Recur} {m : Nat} {xs : List α} (h : xs.map some = yielded s d r m) (hx : x ∈ xs) :
    ∃ j k q, k ∈ keptSteps r (Recurring.exdate s) d m ∧ pos r k (d, Recurring.dtend s) = some q ∧ x = stateAt s r j q := by
  have : some x ∈ yielded s d r m := h ▸ List.mem_map_of_mem hx
  unfold yielded at this
  obtain ⟨j, hj, he⟩ := List.mem_mapIdx.1 this
  obtain ⟨q, hq, hq2⟩ := Option.map_eq_some_iff.1 he
  exact ⟨j, _, q, List.getElem_mem _, hq, hq2.symm⟩

theorem past_cases (r : Recur) (d : Date) : match pastUntil r d with
    | some false => WithinUntil r d ∧ ¬ PastUntil r d ∧ ¬ OffUntil r d
    | some true => PastUntil r d ∧ ¬ WithinUntil r d ∧ ¬ OffUntil r d
    | none => OffUntil r d ∧ ¬ WithinUntil r d ∧ ¬ PastUntil r d := by
  unfold WithinUntil PastUntil OffUntil pastUntil
  cases r.until_ with
  | none => simp
  | some u =>
    simp only [Option.some.injEq, forall_eq', exists_eq_left']
    cases hd : d.dateNaive? with
    | none =>
      have hd := Date.dateNaive?_none.1 hd
      simp only [Option.bind_eq_bind, Option.bind_none]
      simp [hd]
    | some a =>
      obtain ⟨hd', rfl⟩ := Date.dateNaive?_iff.1 hd
      cases hu : u.dateNaive? with
      | none =>
        have hu := Date.dateNaive?_none.1 hu
        simp only [Option.bind_eq_bind, Option.bind_none, Option.bind_some]
        simp [hu]
      | some b =>
        obtain ⟨hu', rfl⟩ := Date.dateNaive?_iff.1 hu
        simp only [Option.bind_eq_bind, Option.bind_some, Option.pure_def]
        have : d.dateNaive.cmp u.dateNaive = .gt ↔ EarlierDay u.dateNaive d.dateNaive := by
          rw [NaiveDate.cmp_gt_iff]; unfold EarlierDay; omega
        by_cases h : d.dateNaive.cmp u.dateNaive = .gt
        · simp [h, hd', hu', this.1 h]
        · have h' := mt this.2 h
          simp [h, hd', hu', h']

theorem within_iff (r : Recur) (d : Date) : WithinUntil r d ↔ pastUntil r d = some false := by
  have := past_cases r d
  split at this <;> simp_all

theorem past_iff (r : Recur) (d : Date) : PastUntil r d ↔ pastUntil r d = some true := by
  have := past_cases r d
  split at this <;> simp_all

theorem off_iff (r : Recur) (d : Date) : OffUntil r d ↔ pastUntil r d = none := by
  have := past_cases r d
  split at this <;> simp_all

/-! ## C50 -/

theorem run_mem {s s' x : α} {xs : List α} (h : Run s xs s') (hx : x ∈ xs) :
    ∃ d r n q, Recurring.dtstart s = some d ∧ Recurring.rrule s = some r ∧ q.2.isSome = (Recurring.dtend s).isSome ∧ x = stateAt s r n q := by
  cases xs with
  | nil => cases hx
  | cons y ys =>
    obtain ⟨d, r, hd, hr⟩ := run_rule h
    obtain ⟨m, q, hm, -, hxs⟩ := run_reached hd hr h
    obtain ⟨j, k, q', -, hq', rfl⟩ := mem_yielded hxs hx
    exact ⟨d, r, j, q', hd, hr, (pos_isSome hq').symm, rfl⟩

/-- **C50**: the occurrences of an event differ from it only in start, end (which they have or lack like the event) and remaining count. -/
theorem C50_event {s s' x : VEvent} {xs : List VEvent} (h : Run s xs s') (hx : x ∈ xs) :
    ∃ start stop count, x = { s with dtstart := start, dtend := stop, rrule := s.rrule.map fun r => { r with count := count } } ∧
      stop.isSome = s.dtend.isSome := by
  obtain ⟨d, r, n, ⟨a, e⟩, hd, hr, he, rfl⟩ := run_mem h hx
  have hr' : s.rrule = some r := hr
  have he' : e.isSome = s.dtend.isSome := he
  refine ⟨a, e, r.count.map (· - n), ?_, he⟩
  rw [hr']
  cases e with
  | some e => rfl
  | none =>
    have hn : s.dtend = none := by cases hs : s.dtend with
      | none => rfl
      | some _ => rw [hs] at he'; cases he'
    simp only [stateAt, place, Recurring.setRrule, Recurring.setDtstart, Recur.spent, Option.map_some]
    rw [← hn]

/-- **C50**: the occurrences of a journal entry differ from it only in start and remaining count. -/
theorem C50_journal {s s' x : VJournal} {xs : List VJournal} (h : Run s xs s') (hx : x ∈ xs) :
    ∃ start count, x = { s with dtstart := start, rrule := s.rrule.map fun r => { r with count := count } } := by
  obtain ⟨d, r, n, ⟨a, e⟩, hd, hr, he, rfl⟩ := run_mem h hx
  have hr' : s.rrule = some r := hr
  refine ⟨a, r.count.map (· - n), ?_⟩
  rw [hr']
  cases e with
  | some e => rfl
  | none => rfl

/-- **C50**: the occurrences of a to-do differ from it only in start and remaining count; in particular all have its due date. -/
theorem C50_todo {s s' x : VTodo} {xs : List VTodo} (h : Run s xs s') (hx : x ∈ xs) :
    (∃ start count, x = { s with dtstart := some start, rrule := s.rrule.map fun r => { r with count := count } }) ∧ x.due = s.due := by
  obtain ⟨d, r, n, ⟨a, e⟩, hd, hr, he, rfl⟩ := run_mem h hx
  have hr' : s.rrule = some r := hr
  have : ∃ start count, stateAt s r n (a, e) = { s with dtstart := some start, rrule := s.rrule.map fun r => { r with count := count } } := by
    refine ⟨a, r.count.map (· - n), ?_⟩
    rw [hr']
    cases e with
    | some e => rfl
    | none => rfl
  refine ⟨this, ?_⟩
  obtain ⟨start, count, hst⟩ := this
  rw [hst]

/-! ## C51 -/

/-- **C51**: with `COUNT=n` at most `n` occurrences are yielded. -/
theorem C51_at_most {s s' : α} {xs : List α} {r : Recur} {n : Nat} (hr : Recurring.rrule s = some r) (hn : r.count = some n)
    (h : Run s xs s') : xs.length ≤ n := by
  cases xs with
  | nil => exact Nat.zero_le _
  | cons x xs =>
    obtain ⟨d, r', hd, hr'⟩ := run_rule h
    rw [hr] at hr'
    cases hr'
    obtain ⟨m, q, hm, -, hxs⟩ := run_reached hd hr h
    rw [length_yielded hxs]
    exact hm.hcount n hn

/-- **C51**: the occurrence yielded after `j` others carries the rule with `j` less in its `COUNT`; without `COUNT` the rule itself. -/
theorem C51_remaining {s s' x : α} {xs : List α} {r : Recur} {j : Nat} (hr : Recurring.rrule s = some r) (h : Run s xs s')
    (hx : xs[j]? = some x) : Recurring.rrule x = some { r with count := r.count.map (· - j) } := by
  have hne : ∃ y ys, xs = y :: ys := by cases xs with
    | nil => simp at hx
    | cons y ys => exact ⟨y, ys, rfl⟩
  obtain ⟨y, ys, rfl⟩ := hne
  obtain ⟨d, r', hd, hr'⟩ := run_rule h
  rw [hr] at hr'
  cases hr'
  obtain ⟨m, q, hm, -, hxs⟩ := run_reached hd hr h
  have := congrArg (·[j]?) (map_stateAt hxs (f := Recurring.rrule) (g := fun j _ => some (r.spent j)) (fun j k q _ => stateAt_rrule s r j q))
  simp only [List.getElem?_map, List.getElem?_mapIdx, hx, Option.map_some] at this
  cases hk : (keptSteps r (Recurring.exdate s) d m)[j]? with
  | none => rw [hk] at this; simp at this
  | some k => rw [hk] at this; exact Option.some.inj this

/-- What it means for the iterator to be at its end. -/
theorem end_reached {s s' : α} {xs : List α} {d : Date} {r : Recur} (hd : Recurring.dtstart s = some d) (hr : Recurring.rrule s = some r)
    (h : Run s xs s') (he : Exhausted s') : ∃ m k, starts xs = (keptSteps r (Recurring.exdate s) d m).map (fun k => nthDate r k d) ∧
      Recurring.dtstart s' = nthDate r m d ∧
      (m = 0 ∨ ∀ e ∈ Recurring.exdate s, nthDate r m d ≠ some e) ∧
      (∀ i, i < k → ∃ e ∈ Recurring.exdate s, nthDate r (m + i + 1) d = some e) ∧
      ((∃ a, nthDate r (m + k) d = some a ∧ ¬ WithinUntil r a) ∨ r.count = some xs.length) := by
  obtain ⟨m, q, hm, rfl, hxs⟩ := run_reached hd hr h
  obtain ⟨k, h1, a, ha, h2⟩ := (ends_iff (stateAt_dtstart _ _ _ _) (stateAt_rrule _ _ _ _)).1 he
  rw [stateAt_exdate] at h1 h2
  rw [stateAt_pos hm.hpos] at ha
  refine ⟨m, k, starts_yielded hxs, ?_, hm.kept, ?_, ?_⟩
  · rw [stateAt_dtstart]; exact (pos_start hm.hpos).symm
  · intro i hi
    obtain ⟨a, b, -, -, hb, hx⟩ := h1 i hi
    rw [stateAt_pos hm.hpos] at hb
    exact ⟨b.1, hx, pos_start hb⟩
  · rcases h2 with h2 | ⟨-, q', -, -, hc⟩
    · refine .inl ⟨a.1, pos_start ha, ?_⟩
      rw [within_iff]
      rw [spent_past] at h2
      simp [h2]
    · right
      simp only [Recur.spent, Option.map_eq_some_iff] at hc
      obtain ⟨c, hc, h0⟩ := hc
      have := hm.hcount c hc
      rw [hc, length_yielded hxs]
      congr 1
      omega

/-- **C51**: with `COUNT=n`, no `UNTIL`, an iteration that comes to its end has yielded exactly `n` occurrences; excluded dates do not
count. -/
theorem C51_exactly {s s' : α} {xs : List α} {d : Date} {r : Recur} {n : Nat} (hd : Recurring.dtstart s = some d)
    (hr : Recurring.rrule s = some r) (hn : r.count = some n) (hu : r.until_ = none) (h : Run s xs s') (he : Exhausted s') : xs.length = n := by
  obtain ⟨m, k, -, -, -, -, ⟨a, -, ha⟩ | hc⟩ := end_reached hd hr h he
  · exact absurd (fun u h => by rw [hu] at h; cases h) ha
  · rw [hn] at hc; exact (Option.some.inj hc).symm

/-- **C51**, without `COUNT` and `UNTIL`: the iteration never comes to an end. -/
theorem C51_endless {s s' : α} {xs : List α} {d : Date} {r : Recur} (hd : Recurring.dtstart s = some d)
    (hr : Recurring.rrule s = some r) (hn : r.count = none) (hu : r.until_ = none) (h : Run s xs s') : ¬ Exhausted s' := by
  intro he
  obtain ⟨m, k, -, -, -, -, ⟨a, -, ha⟩ | hc⟩ := end_reached hd hr h he
  · exact absurd (fun u h => by rw [hu] at h; cases h) ha
  · rw [hn] at hc; cases hc

/-! ## C52, C53 -/

/-- **C52**: every occurrence starts on the day of `UNTIL` or before. -/
theorem C52_until {s s' x : α} {xs : List α} {r : Recur} (hr : Recurring.rrule s = some r) (h : Run s xs s') (hx : x ∈ xs) :
    ∃ d, Recurring.dtstart x = some d ∧ WithinUntil r d := by
  have hne : ∃ y ys, xs = y :: ys := by cases xs with
    | nil => cases hx
    | cons y ys => exact ⟨y, ys, rfl⟩
  obtain ⟨y, ys, rfl⟩ := hne
  obtain ⟨d, r', hd, hr'⟩ := run_rule h
  rw [hr] at hr'
  cases hr'
  obtain ⟨m, q, hm, -, hxs⟩ := run_reached hd hr h
  obtain ⟨j, k, q', hk, hq', rfl⟩ := mem_yielded hxs hx
  refine ⟨q'.1, stateAt_dtstart _ _ _ _, ?_⟩
  rw [within_iff]
  exact hm.hwithin k (List.mem_range.1 (List.mem_filter.1 hk).1) _ hq'

/-- **C53**: no occurrence after the first starts at an excluded date. -/
theorem C53_excluded {s s' x y : α} {xs : List α} (h : Run s (x :: xs) s') (hy : y ∈ xs) :
    ∃ d, Recurring.dtstart y = some d ∧ d ∉ Recurring.exdate s := by
  obtain ⟨d, r, hd, hr⟩ := run_rule h
  obtain ⟨m, q, hm, -, hxs⟩ := run_reached hd hr h
  have hst := starts_yielded hxs
  have hmem : Recurring.dtstart y ∈ starts xs := List.mem_map_of_mem hy
  have hm0 : ∃ m', m = m' + 1 := by
    cases m with
    | zero => have := length_yielded hxs; simp [keptSteps] at this
    | succ m' => exact ⟨m', rfl⟩
  obtain ⟨m', rfl⟩ := hm0
  -- the kept steps begin with 0, and the others are not 0
  have hk : ∃ l, keptSteps r (Recurring.exdate s) d (m' + 1) = 0 :: l ∧ ∀ k ∈ l, k ≠ 0 ∧ k < m' + 1 ∧ ∀ e ∈ Recurring.exdate s, nthDate r k d ≠ some e := by
    unfold keptSteps
    rw [List.range_succ_eq_map, List.filter_cons_of_pos (by simp)]
    refine ⟨_, rfl, fun k hk => ?_⟩
    obtain ⟨hk1, hk2⟩ := List.mem_filter.1 hk
    obtain ⟨i, hi, rfl⟩ := List.mem_map.1 hk1
    simp only [decide_eq_true_eq] at hk2
    have := List.mem_range.1 hi
    exact ⟨Nat.succ_ne_zero _, by omega, hk2.resolve_left (Nat.succ_ne_zero _)⟩
  obtain ⟨l, hl, hall⟩ := hk
  rw [hl] at hst
  simp only [starts, List.map_cons, List.cons.injEq] at hst
  rw [starts, hst.2, List.mem_map] at hmem
  obtain ⟨k, hk, hky⟩ := hmem
  obtain ⟨-, hlt, hx⟩ := hall k hk
  obtain ⟨a, ha⟩ := pos_le hm.hpos (Nat.le_of_lt hlt)
  have hka := pos_start ha
  refine ⟨a.1, by rw [← hky]; exact hka, fun he => hx _ he hka⟩

/-! ## C54 -/

/-- **C54**: the starts of the occurrences are, in order, the start and the dates of the later steps that are not excluded, and all of
them: a list of dates is what some number of calls yields iff it is that of the kept steps before a step `m` which both start and end
can reach, such that no date before it is after `UNTIL`, that is itself kept, and `COUNT` allows for the list. -/
theorem C54_progression {s : α} {d : Date} {r : Recur} (hd : Recurring.dtstart s = some d) (hr : Recurring.rrule s = some r)
    (l : List (Option Date)) : (∃ xs s', Run s xs s' ∧ starts xs = l) ↔
      ∃ m, l = (keptSteps r (Recurring.exdate s) d m).map (fun k => nthDate r k d) ∧
        (∃ a, nthDate r m d = some a ∧ (m ≠ 0 → a ∉ Recurring.exdate s)) ∧
        (∀ e, Recurring.dtend s = some e → ∃ a, nthDate r m e = some a) ∧
        (∀ i, i < m → ∀ a, nthDate r i d = some a → WithinUntil r a) ∧
        (∀ c, r.count = some c → l.length ≤ c) := by
  constructor
  · rintro ⟨xs, s', h, rfl⟩
    obtain ⟨m, q, hm, -, hxs⟩ := run_reached hd hr h
    have hp := pos_iff.1 hm.hpos
    refine ⟨m, starts_yielded hxs, ⟨q.1, hp.1, fun hne => hm.hkept.resolve_left hne⟩, ?_, ?_, ?_⟩
    · intro e he
      have h1 := hp.2.2 e he
      have h2 := hp.2.1
      simp only [he] at h2
      cases hq : q.2 with
      | none => rw [hq] at h2; cases h2
      | some e' => rw [hq] at h1; exact ⟨e', h1⟩
    · intro i hi a ha
      obtain ⟨b, hb⟩ := pos_le hm.hpos (Nat.le_of_lt hi)
      have := pos_start hb
      simp only [ha, Option.some.injEq] at this
      rw [within_iff, this]
      exact hm.hwithin i hi b hb
    · intro c hc
      rw [starts, List.length_map, length_yielded hxs]
      exact hm.hcount c hc
  · rintro ⟨m, rfl, ⟨a, ha, hk⟩, he, hw, hc⟩
    obtain ⟨q, hq⟩ : ∃ q, pos r m (d, Recurring.dtend s) = some q := by
      cases hend : Recurring.dtend s with
      | none => exact ⟨(a, none), pos_iff.2 ⟨ha, rfl, by simp⟩⟩
      | some e =>
        obtain ⟨e', he'⟩ := he e hend
        exact ⟨(a, some e'), pos_iff.2 ⟨ha, rfl, by intro x hx; cases hx; exact he'⟩⟩
    have hqa : q.1 = a := by
      have := pos_start hq
      simp only [ha, Option.some.injEq] at this
      exact this.symm
    have hm : Reached s d r m q := by
      refine ⟨hq, ?_, ?_, ?_⟩
      · intro i hi b hb
        rw [← within_iff]
        exact hw i hi _ (pos_start hb)
      · by_cases h0 : m = 0
        · exact .inl h0
        · exact .inr (by rw [hqa]; exact hk h0)
      · intro c hcc
        have := hc c hcc
        rwa [List.length_map] at this
    obtain ⟨xs, s', h1, -, h2⟩ := reached_run hd hr hm
    exact ⟨xs, s', h1, starts_yielded h2⟩

/-- **C54**: the end of every occurrence is the end of the component after as many steps as its start. -/
theorem C54_ends {s s' : α} {xs : List α} {d : Date} {r : Recur} (hd : Recurring.dtstart s = some d) (hr : Recurring.rrule s = some r)
    (h : Run s xs s') : ∃ m, starts xs = (keptSteps r (Recurring.exdate s) d m).map (fun k => nthDate r k d) ∧
      ends xs = (keptSteps r (Recurring.exdate s) d m).map fun k => (Recurring.dtend s).bind (nthDate r k) := by
  obtain ⟨m, q, hm, -, hxs⟩ := run_reached hd hr h
  exact ⟨m, starts_yielded hxs, ends_yielded hxs⟩

/-- **C54**: when the iteration ends, what follows the last kept step that was not yielded is excluded up to a date after `UNTIL`, or
`COUNT` is used up. -/
theorem C54_end {s s' : α} {xs : List α} {d : Date} {r : Recur} (hd : Recurring.dtstart s = some d) (hr : Recurring.rrule s = some r)
    (h : Run s xs s') (he : Exhausted s') : ∃ m k, starts xs = (keptSteps r (Recurring.exdate s) d m).map (fun k => nthDate r k d) ∧
      (∀ i, i < k → ∃ e ∈ Recurring.exdate s, nthDate r (m + i + 1) d = some e) ∧
      ((∃ a, nthDate r (m + k) d = some a ∧ ¬ WithinUntil r a) ∨ r.count = some xs.length) := by
  obtain ⟨m, k, h1, -, -, h2, h3⟩ := end_reached hd hr h he
  exact ⟨m, k, h1, h2, h3⟩

/-! ## C55 -/

/-- **C55**: if the dates of the steps after `m` are excluded up to one that is after `UNTIL`, then the date of step `m` is never yielded,
be it before `UNTIL` and not excluded. -/
theorem C55_lost {s s' : α} {xs : List α} {d : Date} {r : Recur} (hd : Recurring.dtstart s = some d) (hr : Recurring.rrule s = some r)
    {m k : Nat} (hx : ∀ i, i < k → ∃ e ∈ Recurring.exdate s, nthDate r (m + i + 1) d = some e)
    (hu : ∃ a, nthDate r (m + k) d = some a ∧ ¬ WithinUntil r a) (h : Run s xs s') :
    ∃ m', m' ≤ m ∧ starts xs = (keptSteps r (Recurring.exdate s) d m').map fun k => nthDate r k d := by
  obtain ⟨m', q, hm, -, hxs⟩ := run_reached hd hr h
  refine ⟨m', ?_, starts_yielded hxs⟩
  refine Classical.byContradiction fun hlt => ?_
  obtain ⟨a, ha, hua⟩ := hu
  rcases Nat.lt_or_ge (m + k) m' with h1 | h1
  · obtain ⟨b, hb⟩ := pos_le hm.hpos (Nat.le_of_lt h1)
    have h3 := pos_start hb
    simp only [ha, Option.some.injEq] at h3
    exact hua (by rw [within_iff, h3]; exact hm.hwithin _ h1 b hb)
  · obtain ⟨e, he, hn⟩ := hx (m' - m - 1) (by omega)
    rw [show m + (m' - m - 1) + 1 = m' by omega] at hn
    exact (hm.kept.resolve_left (by omega)) e he hn

/-! ## C62 -/

theorem Calls.of_done {s s' : α} {os : List (Outcome α)} (hs : Returns s .done s) (h : Calls s os s') : s' = s ∧ ∀ o ∈ os, o = .done := by
  induction h with
  | nil => exact ⟨rfl, fun _ h => nomatch h⟩
  | cons h1 _ ih =>
    obtain ⟨rfl, rfl⟩ := Returns.det hs h1
    obtain ⟨h3, h4⟩ := ih hs
    exact ⟨h3, fun o ho => (List.mem_cons.1 ho).elim id (h4 o)⟩

theorem Returns.done_same {s s' : α} (h : Returns s .done s') : s' = s := by
  obtain ⟨-, fuel, h⟩ := h
  rw [next_fst] at h
  cases ha : advance fuel s with
  | item x => rw [ha] at h; simp at h
  | done => rw [ha] at h; simp at h; exact h.symm
  | panic => rw [ha] at h; simp at h
  | running => rw [ha] at h; simp at h

/-- **C62**: after a call that has returned `None`, all calls return `None`, and they do return. -/
theorem C62_fused {s s'' : α} {pre post : List (Outcome α)} (h : Calls s (pre ++ .done :: post) s'') : ∀ o ∈ post, o = .done := by
  induction pre generalizing s with
  | nil =>
    cases h with
    | cons h1 h2 =>
      cases Returns.done_same h1
      exact (Calls.of_done h1 h2).2
  | cons p pre ih =>
    cases h with
    | cons h1 h2 => exact ih h2

/-- **C62**: such calls can be made again and again. -/
theorem C62_again {s s' : α} (h : Returns s .done s') (n : Nat) : Calls s' (List.replicate n .done) s' := by
  cases Returns.done_same h
  induction n with
  | zero => exact .nil
  | succ n ih => exact .cons h ih

/-! ## C64 -/

/-- The parts of two rules that matter for iterating. -/
def SameSteps (r1 r2 : Recur) : Prop := r1.freq = r2.freq ∧ r1.interval = r2.interval ∧ r1.until_ = r2.until_ ∧ r1.count = r2.count

theorem SameSteps.add {r1 r2 : Recur} (h : SameSteps r1 r2) (d : Date) : r1.add d = r2.add d := by
  obtain ⟨h1, h2, -, -⟩ := h
  cases d with
  | date d => simp only [Recur.add, Recur.addDate, Recur.addNaive, Recur.fixedStep, h1, h2]
  | dateTime t => cases t with
    | naive t => simp only [Recur.add, Recur.addDateTime, Recur.addNaive, Recur.fixedStep, h1, h2]
    | loc t => simp only [Recur.add, Recur.addDateTime, Recur.addLocal, Recur.fixedStep, h1, h2]

theorem SameSteps.nthDate {r1 r2 : Recur} (h : SameSteps r1 r2) (k : Nat) (d : Date) : nthDate r1 k d = nthDate r2 k d := by
  induction k with
  | zero => rfl
  | succ k ih =>
    simp only [Spec.nthDate, ih]
    congr 1
    funext q
    exact h.add q

theorem SameSteps.pos {r1 r2 : Recur} (h : SameSteps r1 r2) (k : Nat) (p : Date × Option Date) : pos r1 k p = pos r2 k p := by
  have hs : ∀ p, stepBoth r1 p = stepBoth r2 p := by intro p; simp only [stepBoth, h.add]
  induction k generalizing p with
  | zero => rfl
  | succ k ih =>
    simp only [Ikal.pos, hs]
    congr 1
    funext q
    exact ih q

theorem SameSteps.past {r1 r2 : Recur} (h : SameSteps r1 r2) (d : Date) : pastUntil r1 d = pastUntil r2 d := by
  simp only [pastUntil, h.2.2.1]

theorem SameSteps.keptSteps {r1 r2 : Recur} (h : SameSteps r1 r2) (ex : List Date) (d : Date) (n : Nat) :
    keptSteps r1 ex d n = keptSteps r2 ex d n := by
  simp only [Spec.keptSteps, h.nthDate]

theorem SameSteps.spent {r1 r2 : Recur} (h : SameSteps r1 r2) (n : Nat) : SameSteps (r1.spent n) (r2.spent n) :=
  ⟨h.1, h.2.1, h.2.2.1, by simp only [Recur.spent, h.2.2.2]⟩

theorem SameSteps.symm {r1 r2 : Recur} (h : SameSteps r1 r2) : SameSteps r2 r1 := ⟨h.1.symm, h.2.1.symm, h.2.2.1.symm, h.2.2.2.symm⟩

theorem SameSteps.passes {r1 r2 : Recur} (h : SameSteps r1 r2) (ex : List Date) (p : Date × Option Date) (k : Nat) :
    Passes r1 ex p k ↔ Passes r2 ex p k := by
  simp only [Passes, h.pos, h.past]

theorem SameSteps.stops {r1 r2 : Recur} (h : SameSteps r1 r2) (ex : List Date) (p : Date × Option Date) (k : Nat)
    (o : Outcome (Date × Option Date)) : Stops r1 ex p k o ↔ Stops r2 ex p k o := by
  cases o <;> simp only [Stops, h.pos, h.past, h.2.2.2]

theorem same_run {s1 s2 s1' : α} {xs : List α} {d : Date} {r1 r2 : Recur}
    (h1 : Recurring.rrule s1 = some r1) (h2 : Recurring.rrule s2 = some r2) (hr : SameSteps r1 r2)
    (hs1 : Recurring.dtstart s1 = some d) (hs2 : Recurring.dtstart s2 = some d) (he : Recurring.dtend s1 = Recurring.dtend s2)
    (hx : Recurring.exdate s1 = Recurring.exdate s2) (h : Run s1 xs s1') :
    ∃ ys s2', Run s2 ys s2' ∧ starts ys = starts xs ∧ ends ys = ends xs ∧ (Exhausted s1' → Exhausted s2') ∧ (Panics s1' → Panics s2') ∧
      (RunsForever s1' → RunsForever s2') := by
  obtain ⟨m, q, hm, rfl, hxs⟩ := run_reached hs1 h1 h
  have hm2 : Reached s2 d r2 m q := by
    refine ⟨?_, ?_, ?_, ?_⟩
    · rw [← hr.pos, ← he]; exact hm.hpos
    · intro i hi a ha
      rw [← hr.pos, ← he] at ha
      rw [← hr.past]; exact hm.hwithin i hi a ha
    · rw [← hx]; exact hm.hkept
    · intro c hc
      rw [← hr.2.2.2] at hc
      rw [← hr.keptSteps, ← hx]; exact hm.hcount c hc
  obtain ⟨ys, s2', hrun, rfl, hys⟩ := reached_run hs2 h2 hm2
  have hst : starts ys = starts xs := by
    rw [starts_yielded hys, starts_yielded hxs]
    simp only [hr.keptSteps, hr.nthDate, hx]
  have hen : ends ys = ends xs := by
    rw [ends_yielded hys, ends_yielded hxs]
    simp only [hr.keptSteps, hx, he]
    congr 1
    funext k
    congr 1
    funext e
    exact (hr.nthDate k e).symm
  refine ⟨ys, _, hrun, hst, hen, ?_⟩
  have hn : (keptSteps r2 (Recurring.exdate s2) d m).length = (keptSteps r1 (Recurring.exdate s1) d m).length := by
    rw [hr.keptSteps, hx]
  rw [hn]
  generalize (keptSteps r1 (Recurring.exdate s1) d m).length = n
  have hend : Recurring.dtend (stateAt s1 r1 n q) = Recurring.dtend (stateAt s2 r2 n q) := by
    rw [stateAt_dtend hm.hpos, stateAt_dtend hm2.hpos]
  refine ⟨?_, ?_, ?_⟩
  · rw [ends_iff (stateAt_dtstart s1 r1 n q) (stateAt_rrule s1 r1 n q), ends_iff (stateAt_dtstart s2 r2 n q) (stateAt_rrule s2 r2 n q)]
    simp only [stateAt_exdate, hend, (hr.spent _).passes, (hr.spent _).stops, hx]
    exact id
  · rw [panics_iff (stateAt_dtstart s1 r1 n q) (stateAt_rrule s1 r1 n q),
      panics_iff (stateAt_dtstart s2 r2 n q) (stateAt_rrule s2 r2 n q)]
    simp only [stateAt_exdate, hend, (hr.spent _).passes, (hr.spent _).stops, hx]
    exact id
  · intro hf fuel
    have := hf fuel
    rw [running_iff (stateAt_dtstart s1 r1 n q) (stateAt_rrule s1 r1 n q)] at this
    rw [running_iff (stateAt_dtstart s2 r2 n q) (stateAt_rrule s2 r2 n q)]
    simp only [stateAt_exdate, hend, (hr.spent _).passes, hx] at this ⊢
    exact this

/-- **C64**: two components with the same start, end and excluded dates whose rules have the same frequency, interval, `UNTIL` and
`COUNT` have occurrences with the same starts and ends, whatever the `BY…` lists and `WKST` of the rules are, and their iterations then
go on in the same way: a call returns `None`, panics or never returns for both. -/
theorem C64_by_lists {s1 s2 : α} {d : Date} {r1 r2 : Recur} (h1 : Recurring.rrule s1 = some r1) (h2 : Recurring.rrule s2 = some r2)
    (hr : r1.freq = r2.freq ∧ r1.interval = r2.interval ∧ r1.until_ = r2.until_ ∧ r1.count = r2.count)
    (hs1 : Recurring.dtstart s1 = some d) (hs2 : Recurring.dtstart s2 = some d) (he : Recurring.dtend s1 = Recurring.dtend s2)
    (hx : Recurring.exdate s1 = Recurring.exdate s2) (as bs : List (Option Date)) (P : α → Prop)
    (hP : P = (fun _ => True) ∨ P = Exhausted ∨ P = Panics ∨ P = RunsForever) :
    (∃ xs s', Run s1 xs s' ∧ starts xs = as ∧ ends xs = bs ∧ P s') ↔ ∃ xs s', Run s2 xs s' ∧ starts xs = as ∧ ends xs = bs ∧ P s' := by
  constructor
  · rintro ⟨xs, s', h, rfl, rfl, hp⟩
    obtain ⟨ys, s2', e1, e2, e3, e4, e5, e6⟩ := same_run h1 h2 hr hs1 hs2 he hx h
    refine ⟨ys, s2', e1, e2, e3, ?_⟩
    rcases hP with rfl | rfl | rfl | rfl
    · trivial
    · exact e4 hp
    · exact e5 hp
    · exact e6 hp
  · rintro ⟨xs, s', h, rfl, rfl, hp⟩
    obtain ⟨ys, s2', e1, e2, e3, e4, e5, e6⟩ := same_run h2 h1 (SameSteps.symm hr) hs2 hs1 he.symm hx.symm h
    refine ⟨ys, s2', e1, e2, e3, ?_⟩
    rcases hP with rfl | rfl | rfl | rfl
    · trivial
    · exact e4 hp
    · exact e5 hp
    · exact e6 hp

end

/-! ## Examples -/

section
attribute [local instance] utc

/-- An event of one day. -/
def sampleEvent [Platform] (start : Date) (stop : Option Date) (rule : Recur) (ex : List Date) : VEvent :=
  ⟨.naive ⟨⟨2024, 1, 1⟩, 0, 0⟩, Text.ofStr c!"uid", start, none, none, none, none, none, none, none, none, none, none, some (Text.ofStr c!"sum"), none,
    none, none, some rule, stop, none, [], [], [], [], [], ex, [], [], [], [], [], [], []⟩

/-- Every `n` days. -/
def everyDays (n : Nat) : Recur := { Recur.default with freq := .daily, interval := n }

def jan (d : Nat) : Date := .date ⟨2024, 1, d⟩

/-- Every second day from 1 January, three times, without 3 January. -/
def threeTimes (d : Nat) (n : Nat) : VEvent :=
  sampleEvent (jan d) (some (jan (d + 1))) { everyDays 2 with count := some n } [jan 3]

theorem threeTimes_run : Run (threeTimes 1 3) [threeTimes 1 3, threeTimes 5 2, threeTimes 7 1] (threeTimes 9 0) :=
  .cons ⟨by simp, 3, rfl⟩ (.cons ⟨by simp, 3, rfl⟩ (.cons ⟨by simp, 3, rfl⟩ .nil))

/-- C48, C62 -/
example : Exhausted (threeTimes 9 0) := ⟨by simp, 3, rfl⟩
/-- C49–C53 -/
example : (threeTimes 1 3).rrule = some { everyDays 2 with count := some 3 } ∧
    keptSteps { everyDays 2 with count := some 3 } (threeTimes 1 3).exdate (jan 1) 4 = [0, 2, 3] := by decide +kernel
/-- C52, C55: with 5 January excluded too and `UNTIL` on 3 January, 1 January is lost. -/
example : Exhausted (sampleEvent (jan 1) none { everyDays 2 with until_ := some (jan 4) } [jan 3, jan 5]) ∧
    WithinUntil { everyDays 2 with until_ := some (jan 4) } (jan 1) ∧ jan 1 ∉ [jan 3, jan 5] := by
  refine ⟨⟨by simp, 4, rfl⟩, ?_, by decide⟩
  rw [within_iff]; decide
/-- C53: a start that is excluded is yielded all the same. -/
example : Run (sampleEvent (jan 1) none (everyDays 2) [jan 1]) [sampleEvent (jan 1) none (everyDays 2) [jan 1]]
    (sampleEvent (jan 3) none (everyDays 2) [jan 1]) := .cons ⟨by simp, 3, rfl⟩ .nil
/-- C64 -/
example : SameSteps (everyDays 2) { everyDays 2 with byMonth := [1, 2], wkst := some .sunday } := ⟨rfl, rfl, rfl, rfl⟩

end

end Ikal
