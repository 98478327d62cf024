import Verif.Spec.Recurrence

/-! # The iterator over occurrences -/

namespace Ikal

open Spec

set_option linter.unusedSectionVars false
set_option linter.unusedSimpArgs false

section
variable [Platform]

/-! ## Components as start, end, rule and the rest -/

/-- The component with another start, end (if it has one) and rule. -/
def place {α : Type} [Recurring α] (x : α) (p : Date × Option Date) (r : Recur) : α :=
  Recurring.setRrule (match p.2 with
    | none => Recurring.setDtstart x p.1
    | some e => Recurring.setDtend (Recurring.setDtstart x p.1) e) r

/-- What the setters and getters of `Recurring` must satisfy. -/
class LawfulRecurring (α : Type) [Recurring α] : Prop where
  dtend_setDtstart : ∀ (x : α) d, Recurring.dtend (Recurring.setDtstart x d) = Recurring.dtend x
  setRrule_setRrule : ∀ (x : α) r r', Recurring.setRrule (Recurring.setRrule x r) r' = Recurring.setRrule x r'
  exdate_setDtstart : ∀ (x : α) d, Recurring.exdate (Recurring.setDtstart x d) = Recurring.exdate x
  exdate_setDtend : ∀ (x : α) d, Recurring.exdate (Recurring.setDtend x d) = Recurring.exdate x
  exdate_setRrule : ∀ (x : α) d, Recurring.exdate (Recurring.setRrule x d) = Recurring.exdate x
  dtstart_place : ∀ (x : α) p r, Recurring.dtstart (place x p r) = some p.1
  dtend_place : ∀ (x : α) p r, p.2.isSome = (Recurring.dtend x).isSome → Recurring.dtend (place x p r) = p.2
  rrule_place : ∀ (x : α) p r, Recurring.rrule (place x p r) = some r
  place_place : ∀ (x : α) p p' r r', p.2.isSome = p'.2.isSome → place (place x p r) p' r' = place x p' r'
  place_self : ∀ (x : α) d r, Recurring.dtstart x = some d → Recurring.rrule x = some r → place x (d, Recurring.dtend x) r = x

instance : LawfulRecurring VEvent where
  dtend_setDtstart _ _ := rfl
  setRrule_setRrule _ _ _ := rfl
  exdate_setDtstart _ _ := rfl
  exdate_setDtend _ _ := rfl
  exdate_setRrule _ _ := rfl
  dtstart_place := by rintro x ⟨d, _ | e⟩ r <;> rfl
  dtend_place := by
    rintro x ⟨d, _ | e⟩ r h
    · simp only [place, Recurring.dtend, Recurring.setRrule, Recurring.setDtstart] at h ⊢
      cases hx : x.dtend <;> simp_all
    · rfl
  rrule_place := by rintro x ⟨d, _ | e⟩ r <;> rfl
  place_place := by rintro x ⟨d, _ | e⟩ ⟨d', _ | e'⟩ r r' h <;> first | rfl | simp at h
  place_self := by
    rintro x d r h1 h2
    simp only [Recurring.dtstart, Recurring.rrule, Option.some.injEq] at h1 h2
    subst h1
    have key : ∀ e, x.dtend = e → place x (x.dtstart, e) r = x := by
      rintro (_ | e) h
      · simp only [place, Recurring.setRrule, Recurring.setDtstart]
        rw [← h2]
      · simp only [place, Recurring.setRrule, Recurring.setDtstart, Recurring.setDtend]
        rw [← h2, ← h]
    exact key _ rfl

instance : LawfulRecurring VJournal where
  dtend_setDtstart _ _ := rfl
  setRrule_setRrule _ _ _ := rfl
  exdate_setDtstart _ _ := rfl
  exdate_setDtend _ _ := rfl
  exdate_setRrule _ _ := rfl
  dtstart_place := by rintro x ⟨d, _ | e⟩ r <;> rfl
  dtend_place := by
    rintro x ⟨d, _ | e⟩ r h
    · rfl
    · simp [Recurring.dtend] at h
  rrule_place := by rintro x ⟨d, _ | e⟩ r <;> rfl
  place_place := by rintro x ⟨d, _ | e⟩ ⟨d', _ | e'⟩ r r' h <;> first | rfl | simp at h
  place_self := by
    rintro x d r h1 h2
    simp only [Recurring.dtstart, Recurring.rrule, Option.some.injEq] at h1 h2
    subst h1
    simp only [place, Recurring.dtend, Recurring.setRrule, Recurring.setDtstart, Recurring.setDtend]
    rw [← h2]

instance : LawfulRecurring VTodo where
  dtend_setDtstart _ _ := rfl
  setRrule_setRrule _ _ _ := rfl
  exdate_setDtstart _ _ := rfl
  exdate_setDtend _ _ := rfl
  exdate_setRrule _ _ := rfl
  dtstart_place := by rintro x ⟨d, _ | e⟩ r <;> rfl
  dtend_place := by
    rintro x ⟨d, _ | e⟩ r h
    · rfl
    · simp [Recurring.dtend] at h
  rrule_place := by rintro x ⟨d, _ | e⟩ r <;> rfl
  place_place := by rintro x ⟨d, _ | e⟩ ⟨d', _ | e'⟩ r r' h <;> first | rfl | simp at h
  place_self := by
    rintro x d r h1 h2
    simp only [Recurring.dtstart, Recurring.rrule] at h1 h2
    simp only [place, Recurring.dtend, Recurring.setRrule, Recurring.setDtstart, Recurring.setDtend]
    rw [← h2, ← h1]

/-! ## The positions of a component -/

/-- One step of start and end together. -/
def stepBoth (r : Recur) (p : Date × Option Date) : Option (Date × Option Date) :=
  match r.add p.1 with
  | none => none
  | some d =>
    match p.2 with
    | none => some (d, none)
    | some e => (r.add e).map fun e => (d, some e)

/-- Start and end after `k` steps. -/
def pos (r : Recur) : Nat → Date × Option Date → Option (Date × Option Date)
  | 0, p => some p
  | k + 1, p => (stepBoth r p).bind (pos r k)

theorem stepBoth_some {r : Recur} {p q : Date × Option Date} : stepBoth r p = some q ↔
    r.add p.1 = some q.1 ∧ p.2.isSome = q.2.isSome ∧ ∀ e, p.2 = some e → r.add e = q.2 := by
  unfold stepBoth
  obtain ⟨d, e⟩ := p
  obtain ⟨d', e'⟩ := q
  cases h : r.add d with
  | none => simp [h]
  | some x =>
    cases e with
    | none => cases e' <;> simp [h]
    | some e =>
      cases h2 : r.add e with
      | none => cases e' <;> simp [h, h2]
      | some y => cases e' <;> simp [h, h2]

theorem pos_add (r : Recur) (m n : Nat) (p : Date × Option Date) : pos r (m + n) p = (pos r m p).bind (pos r n) := by
  induction m generalizing p with
  | zero => simp [pos]
  | succ m ih =>
    rw [Nat.succ_add]
    simp only [pos]
    cases stepBoth r p with
    | none => rfl
    | some q => exact ih q

theorem pos_succ' (r : Recur) (k : Nat) (p : Date × Option Date) : pos r (k + 1) p = (pos r k p).bind (stepBoth r) := by
  rw [pos_add]
  congr 1
  funext q
  simp only [pos]
  cases stepBoth r q <;> rfl

theorem pos_isSome {r : Recur} {k : Nat} {p q : Date × Option Date} (h : pos r k p = some q) : p.2.isSome = q.2.isSome := by
  induction k generalizing p with
  | zero => cases h; rfl
  | succ k ih =>
    simp only [pos] at h
    cases hs : stepBoth r p with
    | none => rw [hs] at h; cases h
    | some p' => rw [hs] at h; rw [(stepBoth_some.1 hs).2.1]; exact ih h

theorem pos_start {r : Recur} {k : Nat} {p q : Date × Option Date} (h : pos r k p = some q) : nthDate r k p.1 = some q.1 := by
  induction k generalizing q with
  | zero => cases h; rfl
  | succ k ih =>
    rw [pos_succ'] at h
    cases hs : pos r k p with
    | none => rw [hs] at h; cases h
    | some p' =>
      rw [hs] at h
      simp only [nthDate, ih hs]
      exact (stepBoth_some.1 h).1

theorem pos_end {r : Recur} {k : Nat} {p q : Date × Option Date} (h : pos r k p = some q) {e : Date} (he : p.2 = some e) :
    nthDate r k e = q.2 := by
  induction k generalizing q with
  | zero => cases h; simp [nthDate, he]
  | succ k ih =>
    rw [pos_succ'] at h
    cases hs : pos r k p with
    | none => rw [hs] at h; cases h
    | some p' =>
      rw [hs] at h
      have h1 := ih hs
      have h2 := stepBoth_some.1 h
      cases hp : p'.2 with
      | none => have := pos_isSome hs; rw [he, hp] at this; cases this
      | some e' => rw [hp] at h1; simp only [nthDate, h1]; exact h2.2.2 _ hp


theorem pos_none {r : Recur} {k : Nat} {p : Date × Option Date} (h : pos r k p = none) : pos r (k + 1) p = none := by
  rw [pos_succ', h]; rfl

theorem pos_le {r : Recur} {k m : Nat} {p q : Date × Option Date} (h : pos r m p = some q) (hk : k ≤ m) : ∃ a, pos r k p = some a := by
  obtain ⟨n, rfl⟩ := Nat.exists_eq_add_of_le hk
  rw [pos_add] at h
  cases hp : pos r k p with
  | none => rw [hp] at h; cases h
  | some a => exact ⟨a, rfl⟩

/-! ## One call -/

/-- The rule after an occurrence: the remaining count is one less. -/
def Recur.spend (r : Recur) : Recur :=
  match r.count with
  | none => r
  | some n => { r with count := some (n - 1) }

/-- The loop of `next` on start and end alone. -/
def scan (r : Recur) (ex : List Date) : Nat → Date × Option Date → Outcome (Date × Option Date)
  | 0, _ => .running
  | fuel + 1, p =>
    match pastUntil r p.1 with
    | none => .panic
    | some true => .done
    | some false =>
      match stepBoth r p with
      | none => .panic
      | some q => if ex.contains q.1 then scan r ex fuel q else if r.count = some 0 then .done else .item q

/-- The outcome on components of an outcome on starts and ends. -/
def Outcome.onto {β γ : Type} (f : β → γ) : Outcome β → Outcome γ
  | .item b => .item (f b)
  | .done => .done
  | .panic => .panic
  | .running => .running

variable {α : Type} [Recurring α] [LawfulRecurring α]

theorem advance_none_start {fuel : Nat} {x : α} (h : Recurring.dtstart x = none) : advance (fuel + 1) x = .done := by
  simp only [advance, h]

theorem advance_none_rule {fuel : Nat} {x : α} (h : Recurring.rrule x = none) : advance (fuel + 1) x = .done := by
  simp only [advance, h]
  cases Recurring.dtstart x <;> rfl

theorem exdate_place (x : α) (p : Date × Option Date) (r : Recur) : Recurring.exdate (place x p r) = Recurring.exdate x := by
  obtain ⟨d, _ | e⟩ := p <;>
    simp only [place, LawfulRecurring.exdate_setRrule, LawfulRecurring.exdate_setDtend, LawfulRecurring.exdate_setDtstart]

theorem advance_scan (fuel : Nat) (x : α) (p : Date × Option Date) (r : Recur) (he : p.2.isSome = (Recurring.dtend x).isSome) :
    advance fuel (place x p r) = (scan r (Recurring.exdate x) fuel p).onto fun q => place x q r.spend := by
  induction fuel generalizing p with
  | zero => rfl
  | succ fuel ih =>
    simp only [advance, scan, LawfulRecurring.dtstart_place, LawfulRecurring.rrule_place]
    rcases pastUntil r p.1 with _ | _ | _
    · rfl
    rotate_left
    · rfl
    · show _
      have hend : ∀ d, Recurring.dtend (Recurring.setDtstart (place x p r) d) = p.2 := by
        intro d; rw [LawfulRecurring.dtend_setDtstart, LawfulRecurring.dtend_place _ _ _ he]
      cases hd : r.add p.1 with
      | none => simp only [stepBoth, hd]; rfl
      | some d =>
        simp only [hend]
        have main : ∀ q : Date × Option Date, q.1 = d → q.2.isSome = p.2.isSome → ∀ y : α,
            Recurring.setRrule y r = place (place x p r) q r →
            (if (Recurring.exdate (Recurring.setRrule y r)).contains d = true then advance fuel (Recurring.setRrule y r)
              else match r.count with
                | none => Outcome.item (Recurring.setRrule y r)
                | some 0 => .done
                | some (n + 1) => .item (Recurring.setRrule (Recurring.setRrule y r) { r with count := some n })) =
            Outcome.onto (fun q => place x q r.spend)
              (if (Recurring.exdate x).contains q.1 = true then scan r (Recurring.exdate x) fuel q
                else if r.count = some 0 then .done else .item q) := by
          intro q hq1 hq2 y hy
          rw [hy, exdate_place, exdate_place, LawfulRecurring.place_place _ _ _ _ _ hq2.symm, hq1]
          split
          · exact ih q (by rw [hq2, he])
          · unfold Recur.spend
            cases hc : r.count with
            | none => simp only [reduceCtorEq, if_false, Outcome.onto]
            | some n =>
              cases n with
              | zero => simp only [if_true, Outcome.onto]
              | succ n =>
                simp only [Option.some.injEq, Nat.add_eq_zero_iff, Nat.one_ne_zero, and_false, if_false, Outcome.onto,
                  Nat.add_sub_cancel]
                congr 1
                unfold place
                rw [LawfulRecurring.setRrule_setRrule]
        cases hp : p.2 with
        | none =>
          simp only [stepBoth, hd, hp]
          exact main (d, none) rfl (by rw [hp]) _ rfl
        | some e =>
          cases hee : r.add e with
          | none => simp only [stepBoth, hd, hp, hee]; rfl
          | some e' =>
            simp only [stepBoth, hd, hp, hee, Option.map_some]
            exact main (d, some e') rfl (by rw [hp]; rfl) _ rfl

theorem advance_eq (fuel : Nat) {x : α} {d : Date} {r : Recur} (hd : Recurring.dtstart x = some d) (hr : Recurring.rrule x = some r) :
    advance fuel x = (scan r (Recurring.exdate x) fuel (d, Recurring.dtend x)).onto fun q => place x q r.spend := by
  conv => lhs; rw [← LawfulRecurring.place_self x d r hd hr]
  exact advance_scan fuel x _ r rfl


/-! ## The rounds of a call -/

/-- The first `k` rounds all go on: each position is within `UNTIL` and the next one is excluded. -/
def Passes (r : Recur) (ex : List Date) (p : Date × Option Date) (k : Nat) : Prop :=
  ∀ i, i < k → ∃ a b, pos r i p = some a ∧ pastUntil r a.1 = some false ∧ pos r (i + 1) p = some b ∧ b.1 ∈ ex

theorem passes_zero (r : Recur) (ex : List Date) (p : Date × Option Date) : Passes r ex p 0 := fun _ h => absurd h (Nat.not_lt_zero _)

theorem pos_step {r : Recur} {p q : Date × Option Date} (h : stepBoth r p = some q) (k : Nat) : pos r (k + 1) p = pos r k q := by
  simp only [pos, h]; rfl

theorem passes_succ {r : Recur} {ex : List Date} {p : Date × Option Date} {k : Nat} : Passes r ex p (k + 1) ↔
    pastUntil r p.1 = some false ∧ ∃ q, stepBoth r p = some q ∧ q.1 ∈ ex ∧ Passes r ex q k := by
  constructor
  · intro h
    obtain ⟨a, b, ha, hu, hb, hx⟩ := h 0 (Nat.succ_pos _)
    cases ha
    rw [pos_succ'] at hb
    refine ⟨hu, b, hb, hx, fun i hi => ?_⟩
    obtain ⟨a', b', h1, h2, h3, h4⟩ := h (i + 1) (Nat.succ_lt_succ hi)
    rw [pos_step hb] at h1 h3
    exact ⟨a', b', h1, h2, h3, h4⟩
  · rintro ⟨hu, q, hq, hx, h⟩ i hi
    cases i with
    | zero => exact ⟨p, q, rfl, hu, by rw [pos_step hq]; rfl, hx⟩
    | succ i =>
      obtain ⟨a', b', h1, h2, h3, h4⟩ := h i (Nat.lt_of_succ_lt_succ hi)
      exact ⟨a', b', by rw [pos_step hq]; exact h1, h2, by rw [pos_step hq]; exact h3, h4⟩

/-- How the `k+1`st round ends the call. -/
def Stops (r : Recur) (ex : List Date) (p : Date × Option Date) (k : Nat) : Outcome (Date × Option Date) → Prop
  | .item q => ∃ a, pos r k p = some a ∧ pastUntil r a.1 = some false ∧ pos r (k + 1) p = some q ∧ q.1 ∉ ex ∧ r.count ≠ some 0
  | .done => ∃ a, pos r k p = some a ∧
      (pastUntil r a.1 = some true ∨ pastUntil r a.1 = some false ∧ ∃ q, pos r (k + 1) p = some q ∧ q.1 ∉ ex ∧ r.count = some 0)
  | .panic => ∃ a, pos r k p = some a ∧ (pastUntil r a.1 = none ∨ pastUntil r a.1 = some false ∧ pos r (k + 1) p = none)
  | .running => False

theorem stops_succ {r : Recur} {ex : List Date} {p q : Date × Option Date} (h : stepBoth r p = some q) (k : Nat)
    (o : Outcome (Date × Option Date)) : Stops r ex p (k + 1) o ↔ Stops r ex q k o := by
  cases o <;> simp only [Stops, pos_step h]

theorem scan_running {r : Recur} {ex : List Date} {fuel : Nat} {p : Date × Option Date} :
    scan r ex fuel p = .running ↔ Passes r ex p fuel := by
  induction fuel generalizing p with
  | zero => exact ⟨fun _ => passes_zero _ _ _, fun _ => rfl⟩
  | succ fuel ih =>
    rw [passes_succ]
    simp only [scan]
    rcases hu : pastUntil r p.1 with _ | _ | _
    · simp
    · cases hs : stepBoth r p with
      | none => simp
      | some q =>
        simp only [Option.some.injEq, List.contains_iff_mem, true_and, exists_eq_left']
        by_cases hx : q.1 ∈ ex
        · simp only [hx, if_true, true_and]; exact ih
        · simp only [hx, if_false, false_and, iff_false]
          by_cases hc : r.count = some 0 <;> simp [hc]
    · simp

theorem scan_stops {r : Recur} {ex : List Date} {fuel : Nat} {p : Date × Option Date} {o : Outcome (Date × Option Date)}
    (h : scan r ex fuel p = o) (ho : o ≠ .running) : ∃ k, k < fuel ∧ Passes r ex p k ∧ Stops r ex p k o := by
  induction fuel generalizing p with
  | zero => exact absurd h.symm ho
  | succ fuel ih =>
    simp only [scan] at h
    rcases hu : pastUntil r p.1 with _ | _ | _
    · rw [hu] at h
      subst h
      exact ⟨0, Nat.succ_pos _, passes_zero _ _ _, p, rfl, .inl hu⟩
    rotate_left
    · rw [hu] at h
      subst h
      exact ⟨0, Nat.succ_pos _, passes_zero _ _ _, p, rfl, .inl hu⟩
    · rw [hu] at h
      simp only at h
      cases hs : stepBoth r p with
      | none =>
        rw [hs] at h
        subst h
        exact ⟨0, Nat.succ_pos _, passes_zero _ _ _, p, rfl, .inr ⟨hu, by rw [pos_succ']; exact hs⟩⟩
      | some q =>
        rw [hs] at h
        simp only [List.contains_iff_mem] at h
        have h1 : pos r 1 p = some q := by rw [pos_step hs]; rfl
        by_cases hx : q.1 ∈ ex
        · rw [if_pos hx] at h
          obtain ⟨k, hk, h2, h3⟩ := ih h
          exact ⟨k + 1, Nat.succ_lt_succ hk, passes_succ.2 ⟨hu, q, hs, hx, h2⟩, (stops_succ hs k o).2 h3⟩
        · rw [if_neg hx] at h
          refine ⟨0, Nat.succ_pos _, passes_zero _ _ _, ?_⟩
          by_cases hc : r.count = some 0
          · rw [if_pos hc] at h
            subst h
            exact ⟨p, rfl, .inr ⟨hu, q, h1, hx, hc⟩⟩
          · rw [if_neg hc] at h
            subst h
            exact ⟨p, rfl, hu, h1, hx, hc⟩

theorem scan_of_stops {r : Recur} {ex : List Date} {fuel k : Nat} {p : Date × Option Date} {o : Outcome (Date × Option Date)}
    (hk : k < fuel) (h1 : Passes r ex p k) (h2 : Stops r ex p k o) : scan r ex fuel p = o := by
  induction fuel generalizing p k with
  | zero => exact absurd hk (Nat.not_lt_zero _)
  | succ fuel ih =>
    cases k with
    | succ k =>
      obtain ⟨hu, q, hs, hx, h1⟩ := passes_succ.1 h1
      simp only [scan, hu, hs, List.contains_iff_mem, hx, if_true]
      exact ih (Nat.lt_of_succ_lt_succ hk) h1 ((stops_succ hs k o).1 h2)
    | zero =>
      simp only [scan]
      cases o with
      | running => exact absurd h2 id
      | item q =>
        obtain ⟨a, ha, hu, hq, hx, hc⟩ := h2
        cases ha
        rw [pos_succ'] at hq
        replace hq : stepBoth r p = some q := hq
        simp only [hu, hq, List.contains_iff_mem, hx, hc, if_false]
      | done =>
        obtain ⟨a, ha, hu | ⟨hu, q, hq, hx, hc⟩⟩ := h2
        · cases ha
          simp only [hu]
        · cases ha
          rw [pos_succ'] at hq
          replace hq : stepBoth r p = some q := hq
          simp only [hu, hq, List.contains_iff_mem, hx, hc, if_false, if_true]
      | panic =>
        obtain ⟨a, ha, hu | ⟨hu, hq⟩⟩ := h2
        · cases ha
          simp only [hu]
        · cases ha
          rw [pos_succ'] at hq
          replace hq : stepBoth r p = none := hq
          simp only [hu, hq]

/-! ## Calls, described by positions -/

theorem next_fst {fuel : Nat} {s : α} : next fuel s = match advance fuel s with
  | .item s' => (.item s, s') | .done => (.done, s) | .panic => (.panic, s) | .running => (.running, s) := rfl

theorem yields_iff {s x s' : α} {d : Date} {r : Recur} (hd : Recurring.dtstart s = some d) (hr : Recurring.rrule s = some r) :
    Yields s x s' ↔ x = s ∧ ∃ k q, Passes r (Recurring.exdate s) (d, Recurring.dtend s) k ∧
      Stops r (Recurring.exdate s) (d, Recurring.dtend s) k (.item q) ∧ s' = place s q r.spend := by
  constructor
  · rintro ⟨-, fuel, h⟩
    rw [next_fst, advance_eq fuel hd hr] at h
    cases hs : scan r (Recurring.exdate s) fuel (d, Recurring.dtend s) with
    | item q =>
      rw [hs] at h
      simp only [Outcome.onto, Prod.mk.injEq, Outcome.item.injEq] at h
      obtain ⟨k, -, h1, h2⟩ := scan_stops hs (by simp)
      exact ⟨h.1.symm, k, q, h1, h2, h.2.symm⟩
    | done => rw [hs] at h; simp [Outcome.onto] at h
    | panic => rw [hs] at h; simp [Outcome.onto] at h
    | running => rw [hs] at h; simp [Outcome.onto] at h
  · rintro ⟨rfl, k, q, h1, h2, rfl⟩
    refine ⟨by simp, k + 1, ?_⟩
    rw [next_fst, advance_eq _ hd hr, scan_of_stops (Nat.lt_succ_self k) h1 h2]
    rfl

theorem ends_iff {s : α} {d : Date} {r : Recur} (hd : Recurring.dtstart s = some d) (hr : Recurring.rrule s = some r) :
    Exhausted s ↔ ∃ k, Passes r (Recurring.exdate s) (d, Recurring.dtend s) k ∧
      Stops r (Recurring.exdate s) (d, Recurring.dtend s) k .done := by
  constructor
  · rintro ⟨-, fuel, h⟩
    rw [next_fst, advance_eq fuel hd hr] at h
    cases hs : scan r (Recurring.exdate s) fuel (d, Recurring.dtend s) with
    | done =>
      obtain ⟨k, -, h1, h2⟩ := scan_stops hs (by simp)
      exact ⟨k, h1, h2⟩
    | item q => rw [hs] at h; simp [Outcome.onto] at h
    | panic => rw [hs] at h; simp [Outcome.onto] at h
    | running => rw [hs] at h; simp [Outcome.onto] at h
  · rintro ⟨k, h1, h2⟩
    refine ⟨by simp, k + 1, ?_⟩
    rw [next_fst, advance_eq _ hd hr, scan_of_stops (Nat.lt_succ_self k) h1 h2]
    rfl

theorem panics_iff {s : α} {d : Date} {r : Recur} (hd : Recurring.dtstart s = some d) (hr : Recurring.rrule s = some r) :
    Panics s ↔ ∃ k, Passes r (Recurring.exdate s) (d, Recurring.dtend s) k ∧
      Stops r (Recurring.exdate s) (d, Recurring.dtend s) k .panic := by
  constructor
  · rintro ⟨-, fuel, h⟩
    rw [next_fst, advance_eq fuel hd hr] at h
    cases hs : scan r (Recurring.exdate s) fuel (d, Recurring.dtend s) with
    | panic =>
      obtain ⟨k, -, h1, h2⟩ := scan_stops hs (by simp)
      exact ⟨k, h1, h2⟩
    | item q => rw [hs] at h; simp [Outcome.onto] at h
    | done => rw [hs] at h; simp [Outcome.onto] at h
    | running => rw [hs] at h; simp [Outcome.onto] at h
  · rintro ⟨k, h1, h2⟩
    refine ⟨by simp, k + 1, ?_⟩
    rw [next_fst, advance_eq _ hd hr, scan_of_stops (Nat.lt_succ_self k) h1 h2]
    rfl

theorem running_iff {s : α} {d : Date} {r : Recur} (hd : Recurring.dtstart s = some d) (hr : Recurring.rrule s = some r) (fuel : Nat) :
    (next fuel s).1 = .running ↔ Passes r (Recurring.exdate s) (d, Recurring.dtend s) fuel := by
  rw [next_fst, advance_eq fuel hd hr, ← scan_running]
  cases hs : scan r (Recurring.exdate s) fuel (d, Recurring.dtend s) <;> simp [Outcome.onto]

/-- More fuel does not change what a call returns. -/
theorem next_mono {s : α} {fuel fuel' : Nat} (h : (next fuel s).1 ≠ .running) (hf : fuel ≤ fuel') : next fuel' s = next fuel s := by
  have hpos : 0 < fuel := by
    cases fuel with
    | zero => exact absurd rfl h
    | succ n => exact Nat.succ_pos n
  obtain ⟨n, rfl⟩ := Nat.exists_eq_succ_of_ne_zero (Nat.pos_iff_ne_zero.1 hpos)
  obtain ⟨n', rfl⟩ := Nat.exists_eq_succ_of_ne_zero (Nat.pos_iff_ne_zero.1 (Nat.lt_of_lt_of_le hpos hf))
  cases hd : Recurring.dtstart s with
  | none => rw [next_fst, next_fst, advance_none_start hd, advance_none_start hd]
  | some d =>
    cases hr : Recurring.rrule s with
    | none => rw [next_fst, next_fst, advance_none_rule hr, advance_none_rule hr]
    | some r =>
      have hs : scan r (Recurring.exdate s) (n + 1) (d, Recurring.dtend s) ≠ .running := by
        intro hs; exact h ((running_iff hd hr _).2 (scan_running.1 hs))
      obtain ⟨k, hk, h1, h2⟩ := scan_stops rfl hs
      rw [next_fst, next_fst, advance_eq _ hd hr, advance_eq _ hd hr, scan_of_stops (Nat.lt_of_lt_of_le hk hf) h1 h2]

/-- A call returns one thing. -/
theorem Returns.det {s s1 s2 : α} {o1 o2 : Outcome α} (h1 : Returns s o1 s1) (h2 : Returns s o2 s2) : o1 = o2 ∧ s1 = s2 := by
  obtain ⟨n1, f1, e1⟩ := h1
  obtain ⟨n2, f2, e2⟩ := h2
  have a := next_mono (s := s) (fuel := f1) (fuel' := max f1 f2) (by rw [e1]; exact n1) (Nat.le_max_left _ _)
  have b := next_mono (s := s) (fuel := f2) (fuel' := max f1 f2) (by rw [e2]; exact n2) (Nat.le_max_right _ _)
  rw [a] at b
  rw [e1, e2] at b
  exact ⟨congrArg Prod.fst b, congrArg Prod.snd b⟩


/-! ## The rule with a smaller count -/

/-- The rule when `n` occurrences have been yielded. -/
def Recur.spent (r : Recur) (n : Nat) : Recur := { r with count := r.count.map (· - n) }

theorem spend_eq (r : Recur) : r.spend = r.spent 1 := by
  unfold Recur.spend Recur.spent
  cases r with
  | mk a b c => cases c <;> rfl

theorem spent_zero (r : Recur) : r.spent 0 = r := by
  unfold Recur.spent
  cases r with
  | mk a b c => cases c <;> rfl

theorem spent_spent (r : Recur) (m n : Nat) : (r.spent m).spent n = r.spent (m + n) := by
  unfold Recur.spent
  simp only [Option.map_map]
  congr 2
  funext k
  exact Nat.sub_sub k m n

theorem spent_add (r : Recur) (n : Nat) (d : Date) : (r.spent n).add d = r.add d := by cases d <;> rfl

theorem spent_step (r : Recur) (n : Nat) (p : Date × Option Date) : stepBoth (r.spent n) p = stepBoth r p := by
  simp only [stepBoth, spent_add]

theorem spent_pos (r : Recur) (n k : Nat) (p : Date × Option Date) : pos (r.spent n) k p = pos r k p := by
  induction k generalizing p with
  | zero => rfl
  | succ k ih =>
    simp only [pos, spent_step]
    congr 1
    funext q
    exact ih q

theorem spent_nthDate (r : Recur) (n k : Nat) (d : Date) : nthDate (r.spent n) k d = nthDate r k d := by
  induction k with
  | zero => rfl
  | succ k ih =>
    simp only [nthDate, ih]
    congr 1

theorem spent_past (r : Recur) (n : Nat) (d : Date) : pastUntil (r.spent n) d = pastUntil r d := rfl

theorem nthDate_add (r : Recur) (m n : Nat) (d : Date) : nthDate r (m + n) d = (nthDate r m d).bind (nthDate r n) := by
  induction n with
  | zero => simp [nthDate]
  | succ n ih =>
    rw [← Nat.add_assoc]
    simp only [nthDate, ih]
    cases nthDate r m d <;> rfl

/-- Start and end move independently. -/
theorem pos_iff {r : Recur} {k : Nat} {p q : Date × Option Date} : pos r k p = some q ↔
    nthDate r k p.1 = some q.1 ∧ p.2.isSome = q.2.isSome ∧ ∀ e, p.2 = some e → nthDate r k e = q.2 := by
  constructor
  · intro h; exact ⟨pos_start h, pos_isSome h, fun e he => pos_end h he⟩
  · intro ⟨h1, h2, h3⟩
    induction k generalizing q with
    | zero =>
      obtain ⟨d, e⟩ := p
      obtain ⟨d', e'⟩ := q
      cases h1
      cases e with
      | none => cases e' with
        | none => rfl
        | some _ => cases h2
      | some e => simp only [nthDate, Option.some.injEq, forall_eq'] at h3; rw [← h3]; rfl
    | succ k ih =>
      rw [pos_succ']
      simp only [nthDate] at h1 h3
      cases hn : nthDate r k p.1 with
      | none => rw [hn] at h1; cases h1
      | some d' =>
        rw [hn] at h1
        cases hp : p.2 with
        | none =>
          have := @ih (d', none) hn (by rw [hp]) (by simp [hp])
          rw [this]
          refine (stepBoth_some.2 ⟨h1, ?_, by simp⟩)
          rw [← h2, hp]
        | some e =>
          have h3 := h3 e hp
          rw [hp] at h2
          cases he : nthDate r k e with
          | none => rw [he] at h3; rw [← h3] at h2; cases h2
          | some e' =>
            rw [he] at h3
            have := @ih (d', some e') hn (by rw [hp]; rfl) (by intro x hx; rw [hp] at hx; cases hx; exact he)
            rw [this]
            exact stepBoth_some.2 ⟨h1, by rw [← h2]; rfl, by intro x hx; cases hx; exact h3⟩

/-! ## Kept steps -/

theorem keptSteps_zero (r : Recur) (ex : List Date) (d : Date) : keptSteps r ex d 0 = [] := rfl

theorem keptSteps_skip {r : Recur} {ex : List Date} {d : Date} {m : Nat} (k : Nat)
    (h : ∀ i, m ≤ i → i < m + k → i ≠ 0 ∧ ∃ e ∈ ex, nthDate r i d = some e) : keptSteps r ex d (m + k) = keptSteps r ex d m := by
  induction k with
  | zero => rfl
  | succ k ih =>
    rw [← ih (fun i h1 h2 => h i h1 (Nat.lt_succ_of_lt h2))]
    unfold keptSteps
    rw [← Nat.add_assoc, List.range_succ, List.filter_append]
    obtain ⟨h0, e, he, hn⟩ := h (m + k) (Nat.le_add_right _ _) (Nat.lt_succ_self _)
    rw [List.filter_cons_of_neg]
    · simp
    · simp only [decide_eq_true_eq, not_or]
      exact ⟨h0, fun hall => hall e he hn⟩

theorem keptSteps_keep {r : Recur} {ex : List Date} {d : Date} {m : Nat} (h : m = 0 ∨ ∀ e ∈ ex, nthDate r m d ≠ some e) :
    keptSteps r ex d (m + 1) = keptSteps r ex d m ++ [m] := by
  unfold keptSteps
  rw [List.range_succ, List.filter_append, List.filter_cons_of_pos]
  · rfl
  · simpa using h

theorem keptSteps_step {r : Recur} {ex : List Date} {d : Date} {m : Nat} (k : Nat) (h : m = 0 ∨ ∀ e ∈ ex, nthDate r m d ≠ some e)
    (hk : ∀ i, i < k → ∃ e ∈ ex, nthDate r (m + i + 1) d = some e) : keptSteps r ex d (m + k + 1) = keptSteps r ex d m ++ [m] := by
  rw [← keptSteps_keep h, show m + k + 1 = m + 1 + k by omega]
  refine keptSteps_skip k fun i h1 h2 => ⟨by omega, ?_⟩
  have := hk (i - m - 1) (by omega)
  rwa [show m + (i - m - 1) + 1 = i by omega] at this

/-! ## Runs -/

/-- The iterator can get to step `m`, where start and end are `q`. -/
structure Reached (s : α) (d : Date) (r : Recur) (m : Nat) (q : Date × Option Date) : Prop where
  hpos : pos r m (d, Recurring.dtend s) = some q
  hwithin : ∀ i, i < m → ∀ a, pos r i (d, Recurring.dtend s) = some a → pastUntil r a.1 = some false
  hkept : m = 0 ∨ q.1 ∉ Recurring.exdate s
  hcount : ∀ c, r.count = some c → (keptSteps r (Recurring.exdate s) d m).length ≤ c

theorem Reached.kept {s : α} {d : Date} {r : Recur} {m : Nat} {q : Date × Option Date} (h : Reached s d r m q) :
    m = 0 ∨ ∀ e ∈ Recurring.exdate s, nthDate r m d ≠ some e := by
  refine h.hkept.imp id fun hx e he hn => hx ?_
  have := pos_start h.hpos
  simp only at this
  rw [this] at hn
  cases hn
  exact he

/-- The state at step `m`. -/
def stateAt (s : α) (r : Recur) (n : Nat) (q : Date × Option Date) : α := place s q (r.spent n)

theorem stateAt_dtstart (s : α) (r : Recur) (n : Nat) (q : Date × Option Date) : Recurring.dtstart (stateAt s r n q) = some q.1 :=
  LawfulRecurring.dtstart_place _ _ _

theorem stateAt_rrule (s : α) (r : Recur) (n : Nat) (q : Date × Option Date) : Recurring.rrule (stateAt s r n q) = some (r.spent n) :=
  LawfulRecurring.rrule_place _ _ _

theorem stateAt_exdate (s : α) (r : Recur) (n : Nat) (q : Date × Option Date) :
    Recurring.exdate (stateAt s r n q) = Recurring.exdate s := exdate_place _ _ _

theorem stateAt_dtend {s : α} {d : Date} {r : Recur} {m n : Nat} {q : Date × Option Date}
    (h : pos r m (d, Recurring.dtend s) = some q) : Recurring.dtend (stateAt s r n q) = q.2 :=
  LawfulRecurring.dtend_place _ _ _ (pos_isSome h).symm

theorem stateAt_pos {s : α} {d : Date} {r : Recur} {m n : Nat} {q : Date × Option Date}
    (h : pos r m (d, Recurring.dtend s) = some q) (k : Nat) :
    pos (r.spent n) k (q.1, Recurring.dtend (stateAt s r n q)) = pos r (m + k) (d, Recurring.dtend s) := by
  rw [spent_pos, stateAt_dtend h, pos_add, h]; rfl

/-- A call at step `m`: the next kept step. -/
theorem yields_reached {s : α} {d : Date} {r : Recur} {m : Nat} {q : Date × Option Date} (hm : Reached s d r m q) {n : Nat}
    (hn : n = (keptSteps r (Recurring.exdate s) d m).length) {x s' : α} : Yields (stateAt s r n q) x s' ↔
      x = stateAt s r n q ∧ ∃ m' q', m < m' ∧ Reached s d r m' q' ∧
        keptSteps r (Recurring.exdate s) d m' = keptSteps r (Recurring.exdate s) d m ++ [m] ∧ s' = stateAt s r (n + 1) q' := by
  rw [yields_iff (stateAt_dtstart s r n q) (stateAt_rrule s r n q), stateAt_exdate]
  refine and_congr Iff.rfl ⟨?_, ?_⟩
  · rintro ⟨k, q', h1, ⟨a, ha, hu, hq', hx, hc⟩, rfl⟩
    rw [stateAt_pos hm.hpos] at ha hq'
    have hskip : ∀ i, i < k → ∃ e ∈ Recurring.exdate s, nthDate r (m + i + 1) d = some e := by
      intro i hi
      obtain ⟨a, b, -, -, hb, hbx⟩ := h1 i hi
      rw [stateAt_pos hm.hpos] at hb
      exact ⟨b.1, hbx, pos_start hb⟩
    have hk := keptSteps_step k hm.kept hskip
    refine ⟨m + k + 1, q', by omega, ⟨hq', ?_, .inr hx, ?_⟩, hk, ?_⟩
    · intro i hi b hb
      rcases Nat.lt_or_ge i m with h | h
      · exact hm.hwithin i h b hb
      · obtain ⟨j, rfl⟩ := Nat.exists_eq_add_of_le h
        rw [← stateAt_pos (n := n) hm.hpos] at hb
        rcases Nat.lt_or_ge j k with hj | hj
        · obtain ⟨a', -, ha', hu', -⟩ := h1 j hj
          rw [ha'] at hb; cases hb; exact hu'
        · have : j = k := by omega
          subst this
          rw [stateAt_pos hm.hpos, ha] at hb; cases hb; exact hu
    · intro c hcc
      rw [hk, List.length_append, ← hn]
      simp only [Recur.spent, hcc, Option.map_some, ne_eq, Option.some.injEq] at hc
      simp only [List.length_singleton]
      omega
    · rw [spend_eq, spent_spent]
      unfold stateAt
      refine LawfulRecurring.place_place _ _ _ _ _ ?_
      rw [← pos_isSome hm.hpos, ← pos_isSome hq']
  · rintro ⟨m', q', hlt, hr, hk, rfl⟩
    obtain ⟨k, rfl⟩ : ∃ k, m' = m + k + 1 := ⟨m' - m - 1, by omega⟩
    have hskip : ∀ i, i < k → ∃ e ∈ Recurring.exdate s, nthDate r (m + i + 1) d = some e := by
      intro i hi
      have : m + i + 1 ∉ keptSteps r (Recurring.exdate s) d (m + k + 1) := by
        rw [hk, List.mem_append, List.mem_singleton]
        rintro (h | h)
        · have := List.mem_range.1 (List.mem_filter.1 h).1
          omega
        · omega
      simp only [keptSteps, List.mem_filter, List.mem_range, decide_eq_true_eq, not_and, not_or] at this
      have hall := (this (by omega)).2
      refine Classical.byContradiction fun hne => hall fun e he h => hne ⟨e, he, h⟩
    have hposs : ∀ i, i ≤ m + k + 1 → ∃ a, pos r i (d, Recurring.dtend s) = some a := fun i hi => pos_le hr.hpos hi
    refine ⟨k, q', ?_, ?_, ?_⟩
    · intro i hi
      obtain ⟨a, ha⟩ := hposs (m + i) (by omega)
      obtain ⟨b, hb⟩ := hposs (m + (i + 1)) (by omega)
      obtain ⟨e, he, hn⟩ := hskip i hi
      refine ⟨a, b, ?_, hr.hwithin _ (by omega) _ ha, ?_, ?_⟩
      · rw [stateAt_pos hm.hpos, ha]
      · rw [stateAt_pos hm.hpos, hb]
      · have := pos_start hb
        rw [show m + (i + 1) = m + i + 1 from rfl] at this
        simp only at this
        rw [hn] at this
        cases this
        exact he
    · obtain ⟨a, ha⟩ := hposs (m + k) (by omega)
      refine ⟨a, ?_, hr.hwithin _ (by omega) _ ha, ?_, ?_, ?_⟩
      · rw [stateAt_pos hm.hpos, ha]
      · rw [stateAt_pos hm.hpos]; exact hr.hpos
      · exact hr.hkept.resolve_left (by omega)
      · intro h
        simp only [Recur.spent, Option.map_eq_some_iff] at h
        obtain ⟨c, hc, h0⟩ := h
        have := hr.hcount c hc
        rw [hk, List.length_append, ← hn, List.length_singleton] at this
        omega
    · rw [spend_eq, spent_spent]
      unfold stateAt
      refine (LawfulRecurring.place_place _ _ _ _ _ ?_).symm
      rw [← pos_isSome hm.hpos, ← pos_isSome hr.hpos]


theorem Run.snoc {s s' s'' x : α} {xs : List α} (h : Run s xs s') (hx : Yields s' x s'') : Run s (xs ++ [x]) s'' := by
  induction h with
  | nil => exact .cons hx .nil
  | cons h1 _ ih => exact .cons h1 (ih hx)

theorem Run.unsnoc {s s'' x : α} {xs : List α} (h : Run s (xs ++ [x]) s'') : ∃ s', Run s xs s' ∧ Yields s' x s'' := by
  induction xs generalizing s with
  | nil =>
    cases h with
    | cons h1 h2 => cases h2; exact ⟨s, .nil, h1⟩
  | cons y ys ih =>
    cases h with
    | cons h1 h2 =>
      obtain ⟨s', h3, h4⟩ := ih h2
      exact ⟨s', .cons h1 h3, h4⟩

theorem Run.det {s s1 s2 : α} {xs ys : List α} (h1 : Run s xs s1) (h2 : Run s ys s2) (h : xs.length = ys.length) : xs = ys ∧ s1 = s2 := by
  induction h1 generalizing ys with
  | nil =>
    cases h2 with
    | nil => exact ⟨rfl, rfl⟩
    | cons _ _ => cases h
  | cons a b ih =>
    cases h2 with
    | nil => cases h
    | cons a' b' =>
      obtain ⟨e1, e2⟩ := Returns.det a a'
      cases e1
      subst e2
      obtain ⟨e3, e4⟩ := ih b' (Nat.succ.inj h)
      exact ⟨by rw [e3], e4⟩

/-- The components yielded up to step `m`. -/
def yielded (s : α) (d : Date) (r : Recur) (m : Nat) : List (Option α) :=
  (keptSteps r (Recurring.exdate s) d m).mapIdx fun j k => (pos r k (d, Recurring.dtend s)).map (stateAt s r j)

theorem reached_zero (s : α) (d : Date) (r : Recur) : Reached s d r 0 (d, Recurring.dtend s) :=
  ⟨rfl, fun _ h => absurd h (Nat.not_lt_zero _), .inl rfl, fun _ _ => Nat.zero_le _⟩

theorem stateAt_zero {s : α} {d : Date} {r : Recur} (hd : Recurring.dtstart s = some d) (hr : Recurring.rrule s = some r) :
    stateAt s r 0 (d, Recurring.dtend s) = s := by
  unfold stateAt
  rw [spent_zero]
  exact LawfulRecurring.place_self s d r hd hr

theorem yielded_snoc {s : α} {d : Date} {r : Recur} {m m' : Nat} {q : Date × Option Date} (hm : Reached s d r m q)
    (hk : keptSteps r (Recurring.exdate s) d m' = keptSteps r (Recurring.exdate s) d m ++ [m]) :
    yielded s d r m' = yielded s d r m ++ [some (stateAt s r (keptSteps r (Recurring.exdate s) d m).length q)] := by
  unfold yielded
  rw [hk, List.mapIdx_append, List.mapIdx_singleton, hm.hpos]
  simp only [Nat.zero_add, Option.map_some]

theorem run_reached {s s' : α} {xs : List α} {d : Date} {r : Recur} (hd : Recurring.dtstart s = some d) (hr : Recurring.rrule s = some r)
    (h : Run s xs s') : ∃ m q, Reached s d r m q ∧ s' = stateAt s r (keptSteps r (Recurring.exdate s) d m).length q ∧
      xs.map some = yielded s d r m := by
  generalize hn : xs.length = n
  induction n generalizing xs s' with
  | zero =>
    cases List.eq_nil_of_length_eq_zero hn
    cases h
    exact ⟨0, _, reached_zero s d r, (stateAt_zero hd hr).symm, rfl⟩
  | succ n ih =>
    obtain ⟨ys, y, rfl⟩ : ∃ ys y, xs = ys ++ [y] := by
      refine ⟨xs.dropLast, xs.getLast (by intro h; rw [h] at hn; cases hn), (List.dropLast_concat_getLast _).symm⟩
    obtain ⟨s1, h1, h2⟩ := Run.unsnoc h
    obtain ⟨m, q, hm, rfl, hys⟩ := ih h1 (by simpa using hn)
    obtain ⟨rfl, m', q', -, hm', hk, rfl⟩ := (yields_reached hm rfl).1 h2
    refine ⟨m', q', hm', ?_, ?_⟩
    · rw [hk, List.length_append]; rfl
    · rw [yielded_snoc hm hk, List.map_append, hys]; rfl

theorem reached_run {s : α} {d : Date} {r : Recur} (hd : Recurring.dtstart s = some d) (hr : Recurring.rrule s = some r) {m : Nat}
    {q : Date × Option Date} (hm : Reached s d r m q) : ∃ xs s', Run s xs s' ∧
      s' = stateAt s r (keptSteps r (Recurring.exdate s) d m).length q ∧ xs.map some = yielded s d r m := by
  induction m using Nat.strongRecOn generalizing q with
  | ind m ih =>
    cases m with
    | zero =>
      cases hm.hpos
      exact ⟨[], s, .nil, (stateAt_zero hd hr).symm, rfl⟩
    | succ m =>
      -- the last kept step before this one
      have hlast : ∀ n, n ≤ m → ∃ l, l ≤ n ∧ (l = 0 ∨ ∀ e ∈ Recurring.exdate s, nthDate r l d ≠ some e) ∧
          ∀ i, l < i → i ≤ n → ∃ e ∈ Recurring.exdate s, nthDate r i d = some e := by
        intro n hn
        induction n with
        | zero => exact ⟨0, Nat.le_refl _, .inl rfl, fun i h1 h2 => absurd h1 (by omega)⟩
        | succ n ih =>
          by_cases hx : ∃ e ∈ Recurring.exdate s, nthDate r (n + 1) d = some e
          · obtain ⟨l, h1, h2, h3⟩ := ih (by omega)
            refine ⟨l, by omega, h2, fun i h4 h5 => ?_⟩
            rcases Nat.lt_or_ge n i with h | h
            · have : i = n + 1 := by omega
              subst this; exact hx
            · exact h3 i h4 h
          · exact ⟨n + 1, Nat.le_refl _, .inr fun e he h => hx ⟨e, he, h⟩, fun i h1 h2 => absurd h1 (by omega)⟩
      obtain ⟨l, hl, hkept, hskip⟩ := hlast m (Nat.le_refl _)
      obtain ⟨a, ha⟩ := pos_le hm.hpos (show l ≤ m + 1 by omega)
      have hk : keptSteps r (Recurring.exdate s) d (m + 1) = keptSteps r (Recurring.exdate s) d l ++ [l] := by
        have := keptSteps_step (m - l) hkept (fun i hi => hskip (l + i + 1) (by omega) (by omega))
        rwa [show l + (m - l) + 1 = m + 1 by omega] at this
      have hlr : Reached s d r l a := by
        refine ⟨ha, fun i hi b hb => hm.hwithin i (by omega) b hb, ?_, ?_⟩
        · refine hkept.imp id fun h hx => h _ hx ?_
          exact pos_start ha
        · intro c hc
          have := hm.hcount c hc
          rw [hk, List.length_append] at this
          omega
      obtain ⟨xs, s', hrun, rfl, hxs⟩ := ih l (by omega) hlr
      refine ⟨xs ++ [stateAt s r (keptSteps r (Recurring.exdate s) d l).length a],
        stateAt s r ((keptSteps r (Recurring.exdate s) d l).length + 1) q,
        Run.snoc hrun ((yields_reached hlr rfl).2 ⟨rfl, m + 1, q, by omega, hm, hk, rfl⟩), ?_, ?_⟩
      · rw [hk, List.length_append]; rfl
      · rw [yielded_snoc hlr hk, List.map_append, hxs]; rfl

/-- What a run yields, completely. -/
theorem run_iff {s s' : α} {xs : List α} {d : Date} {r : Recur} (hd : Recurring.dtstart s = some d) (hr : Recurring.rrule s = some r) :
    Run s xs s' ↔ ∃ m q, Reached s d r m q ∧ s' = stateAt s r (keptSteps r (Recurring.exdate s) d m).length q ∧
      xs.map some = yielded s d r m := by
  refine ⟨run_reached hd hr, ?_⟩
  rintro ⟨m, q, hm, rfl, hxs⟩
  obtain ⟨ys, s', h1, rfl, h2⟩ := reached_run hd hr hm
  rw [← hxs] at h2
  have : ys = xs := (List.map_inj_right (fun _ _ h => Option.some.inj h)).1 h2
  rwa [this] at h1

end

end Ikal
