import Verif.Props.Steps

/-!
# Selecting occurrences: `between`, `after` and `at` (C63)
-/

namespace Ikal

open Spec

set_option linter.unusedSectionVars false
set_option linter.unusedSimpArgs false

section
variable [Platform] {α : Type} [Recurring α] [LawfulRecurring α]

/-! ## Runs that begin alike -/

theorem Run.append {s s' s'' : α} {xs ys : List α} (h1 : Run s xs s') (h2 : Run s' ys s'') : Run s (xs ++ ys) s'' := by
  induction h1 with
  | nil => exact h2
  | cons a _ ih => exact .cons a (ih h2)

theorem Run.split {s s'' : α} {xs ys : List α} (h : Run s (xs ++ ys) s'') : ∃ s', Run s xs s' ∧ Run s' ys s'' := by
  induction xs generalizing s with
  | nil => exact ⟨s, .nil, h⟩
  | cons x xs ih =>
    cases h with
    | cons h1 h2 =>
      obtain ⟨s', h3, h4⟩ := ih h2
      exact ⟨s', .cons h1 h3, h4⟩

/-- Of two runs of the same component one begins with the other. -/
theorem Run.compare {s s1 s2 : α} {xs ys : List α} (h1 : Run s xs s1) (h2 : Run s ys s2) :
    (∃ zs, ys = xs ++ zs ∧ Run s1 zs s2) ∨ ∃ zs, xs = ys ++ zs ∧ Run s2 zs s1 := by
  rcases Nat.le_total xs.length ys.length with h | h
  · left
    have h2' := h2
    rw [← List.take_append_drop xs.length ys] at h2'
    obtain ⟨s', h3, h4⟩ := Run.split h2'
    obtain ⟨e1, rfl⟩ := Run.det h1 h3 (by simp; omega)
    refine ⟨ys.drop xs.length, ?_, h4⟩
    have := (List.take_append_drop xs.length ys).symm
    rw [← e1] at this
    exact this
  · right
    have h1' := h1
    rw [← List.take_append_drop ys.length xs] at h1'
    obtain ⟨s', h3, h4⟩ := Run.split h1'
    obtain ⟨e1, rfl⟩ := Run.det h2 h3 (by simp; omega)
    refine ⟨xs.drop ys.length, ?_, h4⟩
    have := (List.take_append_drop ys.length xs).symm
    rw [← e1] at this
    exact this

theorem run_start {s s' x : α} {xs : List α} (h : Run s xs s') (hx : x ∈ xs) : ∃ d, Recurring.dtstart x = some d := by
  obtain ⟨d, r, n, q, -, -, -, rfl⟩ := run_mem h hx
  exact ⟨q.1, stateAt_dtstart _ _ _ _⟩

/-! ## `SkipWhile` -/

theorem yields_next {s x s' : α} {fuel : Nat} (h : next fuel s = (.item x, s')) : Yields s x s' := ⟨by simp, fuel, h⟩

theorem exhausted_next {s s' : α} {fuel : Nat} (h : next fuel s = (.done, s')) : s' = s ∧ Exhausted s := by
  have : Returns s .done s' := ⟨by simp, fuel, h⟩
  cases Returns.done_same this
  exact ⟨rfl, this⟩

/-- Does the component start before the date?  `none` if asking panics. -/
def before? (a : Date) (x : α) : Option Bool := (Recurring.dtstart x).bind fun d => d.lt? a

theorem before?_iff {a : Date} {x : α} {v : Bool} : before? a x = some v ↔
    ∃ d, Recurring.dtstart x = some d ∧ OnCalendar d ∧ OnCalendar a ∧ v = d.lt a := by
  simp only [before?, Option.bind_eq_some_iff, Date.lt?_iff]

theorem before?_starts {a : Date} {x : α} {v : Bool} (h : before? a x = some v) : startsBefore a x = v := by
  obtain ⟨d, hd, -, -, rfl⟩ := before?_iff.1 h
  simp [startsBefore, hd]

theorem skipWhile_succ (a : Date) (fuel : Nat) (sk : Bool) (s : α) : skipWhile a (fuel + 1) sk s =
    match next (fuel + 1) s with
    | (.item x, s') =>
      if sk then
        match before? a x with
        | none => (.panic, sk, s')
        | some true => skipWhile a fuel sk s'
        | some false => (.item x, false, s')
      else (.item x, false, s')
    | (o, s') => (o, sk, s') := by
  show (match next (fuel + 1) s with | (.item x, s') => _ | (o, s') => _) = _
  cases next (fuel + 1) s with
  | mk o t => cases o with
    | item x =>
      simp only [before?]
      cases Recurring.dtstart x with
      | none => rfl
      | some d => cases hl : d.lt? a with
        | none => simp only [Option.bind_some, hl]
        | some v => cases v <;> simp only [Option.bind_some, hl]
    | _ => rfl

theorem skipWhile_item {a : Date} {fuel : Nat} {sk sk' : Bool} {s x s' : α} (h : skipWhile a fuel sk s = (.item x, sk', s')) :
    sk' = false ∧ ∃ zs, Run s (zs ++ [x]) s' ∧ (∀ z ∈ zs, before? a z = some true) ∧ (sk = true → before? a x = some false) ∧
      (sk = false → zs = []) := by
  induction fuel generalizing s with
  | zero => simp [skipWhile] at h
  | succ fuel ih =>
    rw [skipWhile_succ] at h
    cases hn : next (fuel + 1) s with
    | mk o t =>
      rw [hn] at h
      cases o with
      | item y =>
        simp only at h
        cases sk with
        | false =>
          simp only [Bool.false_eq_true, if_false, Prod.mk.injEq, Outcome.item.injEq] at h
          obtain ⟨rfl, rfl, rfl⟩ := h
          exact ⟨rfl, [], .cons (yields_next hn) .nil, by simp, by simp, by simp⟩
        | true =>
          simp only [if_true] at h
          cases hd : before? a y with
          | none => rw [hd] at h; simp at h
          | some v => cases v with
            | true =>
              rw [hd] at h
              simp only at h
              obtain ⟨h1, zs, h2, h3, h4, -⟩ := ih h
              refine ⟨h1, y :: zs, .cons (yields_next hn) h2, ?_, h4, by simp⟩
              intro z hz
              rcases List.mem_cons.1 hz with rfl | hz
              · exact hd
              · exact h3 z hz
            | false =>
              rw [hd] at h
              simp only [Prod.mk.injEq, Outcome.item.injEq] at h
              obtain ⟨rfl, rfl, rfl⟩ := h
              exact ⟨rfl, [], .cons (yields_next hn) .nil, by simp, fun _ => hd, by simp⟩
      | done => simp at h
      | panic => simp at h
      | running => simp at h

theorem skipWhile_done {a : Date} {fuel : Nat} {sk sk' : Bool} {s s' : α} (h : skipWhile a fuel sk s = (.done, sk', s')) :
    ∃ zs, Run s zs s' ∧ Exhausted s' ∧ (∀ z ∈ zs, before? a z = some true) ∧ (sk = false → zs = []) := by
  induction fuel generalizing s with
  | zero => simp [skipWhile] at h
  | succ fuel ih =>
    rw [skipWhile_succ] at h
    cases hn : next (fuel + 1) s with
    | mk o t =>
      rw [hn] at h
      cases o with
      | item y =>
        simp only at h
        cases sk with
        | false => simp at h
        | true =>
          simp only [if_true] at h
          cases hd : before? a y with
          | none => rw [hd] at h; simp at h
          | some v => cases v with
            | true =>
              rw [hd] at h
              simp only at h
              obtain ⟨zs, h1, h2, h3, -⟩ := ih h
              refine ⟨y :: zs, .cons (yields_next hn) h1, h2, ?_, by simp⟩
              intro z hz
              rcases List.mem_cons.1 hz with rfl | hz
              · exact hd
              · exact h3 z hz
            | false => rw [hd] at h; simp at h
      | done =>
        simp only [Prod.mk.injEq, true_and] at h
        obtain ⟨rfl, rfl⟩ := h
        obtain ⟨rfl, he⟩ := exhausted_next hn
        exact ⟨[], .nil, he, by simp, by simp⟩
      | panic => simp at h
      | running => simp at h

/-- A call on the recurrence gives the same for all larger fuels. -/
theorem Returns.eventually {s s' : α} {o : Outcome α} (h : Returns s o s') : ∃ F, ∀ fuel, F ≤ fuel → next fuel s = (o, s') := by
  obtain ⟨hne, f, hf⟩ := h
  refine ⟨f, fun fuel hle => ?_⟩
  rw [next_mono (by rw [hf]; exact hne) hle, hf]

theorem skipWhile_item_of {a : Date} {s x s' : α} {zs : List α} (h : Run s (zs ++ [x]) s') (hz : ∀ z ∈ zs, before? a z = some true)
    (hx : before? a x = some false) : ∃ F, ∀ fuel, F ≤ fuel → skipWhile a fuel true s = (.item x, false, s') := by
  induction zs generalizing s with
  | nil =>
    cases h with
    | cons h1 h2 =>
      cases h2
      obtain ⟨F, hF⟩ := Returns.eventually h1
      refine ⟨F + 1, fun fuel hf => ?_⟩
      obtain ⟨f, rfl⟩ : ∃ f, fuel = f + 1 := ⟨fuel - 1, by omega⟩
      rw [skipWhile_succ, hF _ (by omega)]
      simp [hx]
  | cons z zs ih =>
    have hzz := hz z (List.mem_cons_self ..)
    cases h with
    | cons h1 h2 =>
      obtain ⟨F, hF⟩ := Returns.eventually h1
      obtain ⟨G, hG⟩ := ih h2 (fun y hy => hz y (List.mem_cons_of_mem _ hy))
      refine ⟨F + G + 1, fun fuel hf => ?_⟩
      obtain ⟨f, rfl⟩ : ∃ f, fuel = f + 1 := ⟨fuel - 1, by omega⟩
      rw [skipWhile_succ, hF _ (by omega)]
      simp only [if_true, hzz]
      exact hG _ (by omega)

theorem skipWhile_done_of {a : Date} {s s' : α} {zs : List α} (h : Run s zs s') (hz : ∀ z ∈ zs, before? a z = some true)
    (hx : Exhausted s') : ∃ F, ∀ fuel, F ≤ fuel → skipWhile a fuel true s = (.done, true, s') := by
  induction zs generalizing s with
  | nil =>
    cases h
    obtain ⟨F, hF⟩ := Returns.eventually hx
    refine ⟨F + 1, fun fuel hf => ?_⟩
    obtain ⟨f, rfl⟩ : ∃ f, fuel = f + 1 := ⟨fuel - 1, by omega⟩
    rw [skipWhile_succ, hF _ (by omega)]
  | cons z zs ih =>
    have hzz := hz z (List.mem_cons_self ..)
    cases h with
    | cons h1 h2 =>
      obtain ⟨F, hF⟩ := Returns.eventually h1
      obtain ⟨G, hG⟩ := ih h2 (fun y hy => hz y (List.mem_cons_of_mem _ hy))
      refine ⟨F + G + 1, fun fuel hf => ?_⟩
      obtain ⟨f, rfl⟩ : ∃ f, fuel = f + 1 := ⟨fuel - 1, by omega⟩
      rw [skipWhile_succ, hF _ (by omega)]
      simp only [if_true, hzz]
      exact hG _ (by omega)

theorem skipWhile_off {a : Date} {s s' : α} {o : Outcome α} (h : Returns s o s') : ∃ F, ∀ fuel, F ≤ fuel →
    skipWhile a fuel false s = (o, false, s') := by
  obtain ⟨F, hF⟩ := Returns.eventually h
  refine ⟨F + 1, fun fuel hf => ?_⟩
  obtain ⟨f, rfl⟩ : ∃ f, fuel = f + 1 := ⟨fuel - 1, by omega⟩
  rw [skipWhile_succ, hF _ (by omega)]
  cases o <;> simp

/-! ## The selections -/

/-- The component starts before the end of the selection, if it has one. -/
def beforeStop (b : Option Date) (x : α) : Bool := match b with
  | none => true
  | some b => startsBefore b x

/-- Does the component start before the end of the selection?  `none` if asking panics. -/
def stop? (b : Option Date) (x : α) : Option Bool := match b with
  | none => some true
  | some b => before? b x

theorem stop?_starts {b : Option Date} {x : α} {v : Bool} (h : stop? b x = some v) : beforeStop b x = v := by
  cases b with
  | none => simp only [stop?, Option.some.injEq] at h; subst h; rfl
  | some b => exact before?_starts h

theorem rangeNext_eq (fuel : Nat) (r : Range α) : r.next fuel =
    if r.finished then (.done, r)
    else match skipWhile r.start fuel r.skipping r.state with
      | (.item x, sk, s) => match stop? r.stop x with
        | none => (.panic, { r with state := s, skipping := sk })
        | some true => (.item x, { r with state := s, skipping := sk })
        | some false => (.done, { r with state := s, skipping := sk, finished := true })
      | (o, sk, s) => (o, { r with state := s, skipping := sk }) := by
  unfold Range.next
  split
  · rfl
  · cases skipWhile r.start fuel r.skipping r.state with
    | mk o p => cases o with
      | item x =>
        cases hb : r.stop with
        | none => rfl
        | some e =>
          simp only [stop?, before?]
          cases Recurring.dtstart x with
          | none => rfl
          | some d => cases hl : d.lt? e with
            | none => simp only [Option.bind_some, hl]
            | some v => cases v <;> simp only [Option.bind_some, hl]
      | _ => rfl

theorem range_item {r r' : Range α} {x : α} (hf : r.finished = false) :
    RangeYields r x r' ↔ ∃ fuel s, skipWhile r.start fuel r.skipping r.state = (.item x, false, s) ∧ stop? r.stop x = some true ∧
      r' = ⟨s, false, false, r.start, r.stop⟩ := by
  obtain ⟨st, sk, fi, a, b⟩ := r
  simp only at hf
  subst hf
  constructor
  · rintro ⟨fuel, h⟩
    rw [rangeNext_eq] at h
    simp only [Bool.false_eq_true, if_false] at h
    cases hs : skipWhile a fuel sk st with
    | mk o p =>
      obtain ⟨sk', s'⟩ := p
      rw [hs] at h
      cases o with
      | item y =>
        have hsk := (skipWhile_item hs).1
        subst hsk
        simp only at h
        cases hb : stop? b y with
        | none => rw [hb] at h; simp at h
        | some v => cases v with
          | true =>
            rw [hb] at h
            simp only [Prod.mk.injEq, Outcome.item.injEq] at h
            obtain ⟨rfl, rfl⟩ := h
            exact ⟨fuel, s', hs, hb, rfl⟩
          | false => rw [hb] at h; simp at h
      | done => simp at h
      | panic => simp at h
      | running => simp at h
  · rintro ⟨fuel, s, h1, h2, rfl⟩
    refine ⟨fuel, ?_⟩
    rw [rangeNext_eq]
    simp only at h1 h2
    simp only [Bool.false_eq_true, if_false, h1, h2]

theorem range_done {r : Range α} (hf : r.finished = false) :
    RangeEnds r ↔ (∃ fuel sk s, skipWhile r.start fuel r.skipping r.state = (.done, sk, s)) ∨
      ∃ fuel x s, skipWhile r.start fuel r.skipping r.state = (.item x, false, s) ∧ stop? r.stop x = some false := by
  obtain ⟨st, sk, fi, a, b⟩ := r
  simp only at hf
  subst hf
  constructor
  · rintro ⟨fuel, r', h⟩
    rw [rangeNext_eq] at h
    simp only [Bool.false_eq_true, if_false] at h
    cases hs : skipWhile a fuel sk st with
    | mk o p =>
      obtain ⟨sk', s'⟩ := p
      rw [hs] at h
      cases o with
      | item y =>
        have hsk := (skipWhile_item hs).1
        subst hsk
        simp only at h
        cases hb : stop? b y with
        | none => rw [hb] at h; simp at h
        | some v => cases v with
          | true => rw [hb] at h; simp at h
          | false => exact .inr ⟨fuel, y, s', hs, hb⟩
      | done => exact .inl ⟨fuel, sk', s', hs⟩
      | panic => simp at h
      | running => simp at h
  · rintro (⟨fuel, sk', s, h⟩ | ⟨fuel, x, s, h, hb⟩)
    · exact ⟨fuel, ⟨s, sk', false, a, b⟩, by simp only at h; simp only [rangeNext_eq, Bool.false_eq_true, if_false, h]⟩
    · exact ⟨fuel, _, by simp only at h hb; simp only [rangeNext_eq, Bool.false_eq_true, if_false, h, hb]; rfl⟩

/-- What a selection has yielded: a run of the recurrence without the items at its beginning that start too early. -/
theorem range_run_off {s : α} {a : Date} {b : Option Date} {ys : List α} {r' : Range α}
    (h : RangeRun ⟨s, false, false, a, b⟩ ys r') : ∃ s', r' = ⟨s', false, false, a, b⟩ ∧ Run s ys s' ∧ ∀ y ∈ ys, stop? b y = some true := by
  generalize hr : (⟨s, false, false, a, b⟩ : Range α) = r at h
  induction h generalizing s with
  | nil => exact ⟨s, hr.symm, .nil, by simp⟩
  | cons h1 _ ih =>
    subst hr
    obtain ⟨fuel, s1, hs, hb, rfl⟩ := (range_item rfl).1 h1
    obtain ⟨-, zs, hrun, -, -, hz⟩ := skipWhile_item hs
    cases hz rfl
    obtain ⟨s', rfl, h2, h3⟩ := ih rfl
    refine ⟨s', rfl, Run.append hrun h2, ?_⟩
    intro y hy
    rcases List.mem_cons.1 hy with rfl | hy
    · exact hb
    · exact h3 y hy

theorem range_run_on {s : α} {a : Date} {b : Option Date} {ys : List α} {r' : Range α}
    (h : RangeRun ⟨s, true, false, a, b⟩ ys r') : (ys = [] ∧ r' = ⟨s, true, false, a, b⟩) ∨
      ∃ s' zs y ys', ys = y :: ys' ∧ r' = ⟨s', false, false, a, b⟩ ∧ Run s (zs ++ ys) s' ∧ (∀ z ∈ zs, before? a z = some true) ∧
        before? a y = some false ∧ ∀ y ∈ ys, stop? b y = some true := by
  cases h with
  | nil => exact .inl ⟨rfl, rfl⟩
  | cons h1 h2 =>
    right
    obtain ⟨fuel, s1, hs, hb, rfl⟩ := (range_item rfl).1 h1
    obtain ⟨-, zs, hrun, hzs, hx, -⟩ := skipWhile_item hs
    obtain ⟨s', rfl, h3, h4⟩ := range_run_off h2
    refine ⟨s', zs, _, _, rfl, rfl, ?_, hzs, hx rfl, ?_⟩
    · have := Run.append hrun h3
      simpa using this
    · intro y hy
      rcases List.mem_cons.1 hy with rfl | hy
      · exact hb
      · exact h4 y hy

/-- What a complete selection is. -/
theorem selects_iff {s : α} {a : Date} {b : Option Date} {ys : List α} : Selects ⟨s, true, false, a, b⟩ ys ↔
    ∃ zs rest s', Run s (zs ++ ys ++ rest) s' ∧ (∀ z ∈ zs, before? a z = some true) ∧ (∀ y, (ys ++ rest).head? = some y → before? a y = some false) ∧
      (∀ y ∈ ys, stop? b y = some true) ∧ (rest = [] ∧ Exhausted s' ∨ ∃ x, rest = [x] ∧ stop? b x = some false) := by
  constructor
  · rintro ⟨r', hr, he⟩
    rcases range_run_on hr with ⟨rfl, rfl⟩ | ⟨s', zs, y, ys', rfl, rfl, hrun, hzs, hy, hb⟩
    · rcases (range_done rfl).1 he with ⟨fuel, sk, s1, h⟩ | ⟨fuel, x, s1, h, hbx⟩
      · obtain ⟨zs, h1, h2, h3, -⟩ := skipWhile_done h
        exact ⟨zs, [], s1, by simpa using h1, h3, by simp, by simp, .inl ⟨rfl, h2⟩⟩
      · obtain ⟨-, zs, h1, h2, h3, -⟩ := skipWhile_item h
        exact ⟨zs, [x], s1, by simpa using h1, h2, by simpa using h3 rfl, by simp, .inr ⟨x, rfl, hbx⟩⟩
    · rcases (range_done rfl).1 he with ⟨fuel, sk, s1, h⟩ | ⟨fuel, x, s1, h, hbx⟩
      · obtain ⟨zs', h1, h2, h3, h4⟩ := skipWhile_done h
        cases h4 rfl
        cases h1
        exact ⟨zs, [], s', by simpa using hrun, hzs, by simpa using hy, hb, .inl ⟨rfl, h2⟩⟩
      · obtain ⟨-, zs', h1, -, -, h4⟩ := skipWhile_item h
        cases h4 rfl
        exact ⟨zs, [x], s1, Run.append hrun h1, hzs, by simpa using hy, hb, .inr ⟨x, rfl, hbx⟩⟩
  · rintro ⟨zs, rest, s', hrun, hzs, hhead, hb, hend⟩
    obtain ⟨s1, h1, h2⟩ := Run.split hrun
    -- the part after the first item
    have off : ∀ (l : List α) (t : α), Run t l s1 → (∀ y ∈ l, stop? b y = some true) → RangeRun ⟨t, false, false, a, b⟩ l ⟨s1, false, false, a, b⟩ := by
      intro l
      induction l with
      | nil => intro t h _; cases h; exact .nil
      | cons y l ih =>
        intro t h hl
        cases h with
        | cons h3 h4 =>
          obtain ⟨F, hF⟩ := skipWhile_off (a := a) h3
          exact .cons ((range_item rfl).2 ⟨F, _, hF F (Nat.le_refl _), hl y (List.mem_cons_self ..), rfl⟩)
            (ih _ h4 fun y hy => hl y (List.mem_cons_of_mem _ hy))
    cases ys with
    | nil =>
      simp only [List.append_nil] at h1 h2
      refine ⟨_, .nil, (range_done rfl).2 ?_⟩
      rcases hend with ⟨rfl, he⟩ | ⟨x, rfl, hx⟩
      · cases h2
        obtain ⟨F, hF⟩ := skipWhile_done_of h1 hzs he
        exact .inl ⟨F, _, _, hF F (Nat.le_refl _)⟩
      · have hrun' : Run s (zs ++ [x]) s' := Run.append h1 h2
        obtain ⟨F, hF⟩ := skipWhile_item_of hrun' hzs (hhead x (by simp))
        exact .inr ⟨F, x, _, hF F (Nat.le_refl _), hx⟩
    | cons y ys =>
      rw [show zs ++ y :: ys = (zs ++ [y]) ++ ys by simp] at h1
      obtain ⟨s2, h3, h4⟩ := Run.split h1
      obtain ⟨F, hF⟩ := skipWhile_item_of h3 hzs (hhead y (by simp))
      refine ⟨⟨s1, false, false, a, b⟩, .cons ((range_item rfl).2 ⟨F, s2, hF F (Nat.le_refl _), hb y (List.mem_cons_self ..), rfl⟩)
        (off ys s2 h4 fun y hy => hb y (List.mem_cons_of_mem _ hy)), (range_done rfl).2 ?_⟩
      rcases hend with ⟨rfl, he⟩ | ⟨x, rfl, hx⟩
      · cases h2
        obtain ⟨G, hG⟩ := skipWhile_off (a := a) he
        exact .inl ⟨G, _, _, hG G (Nat.le_refl _)⟩
      · cases h2 with
        | cons h5 h6 =>
          obtain ⟨G, hG⟩ := skipWhile_off (a := a) h5
          exact .inr ⟨G, x, _, hG G (Nat.le_refl _), hx⟩

/-- What a complete selection is, by the wall clock. -/
theorem selects_pure {s : α} {a : Date} {b : Option Date} {ys : List α} (h : Selects ⟨s, true, false, a, b⟩ ys) :
    ∃ zs rest s', Run s (zs ++ ys ++ rest) s' ∧ (∀ z ∈ zs, startsBefore a z = true) ∧ (∀ y, (ys ++ rest).head? = some y → startsBefore a y = false) ∧
      (∀ y ∈ ys, beforeStop b y = true) ∧ (rest = [] ∧ Exhausted s' ∨ ∃ x, rest = [x] ∧ beforeStop b x = false) := by
  obtain ⟨zs, rest, s', hrun, hzs, hhead, hb, hend⟩ := selects_iff.1 h
  exact ⟨zs, rest, s', hrun, fun z hz => before?_starts (hzs z hz), fun y hy => before?_starts (hhead y hy), fun y hy => stop?_starts (hb y hy),
    hend.imp id fun ⟨x, hx, hs⟩ => ⟨x, hx, stop?_starts hs⟩⟩

/-- Asking does not panic if the days are in the range of years. -/
theorem before?_of {s s' x : α} {xs : List α} (hrun : Run s xs s') (hx : x ∈ xs) {a : Date} (ha : OnCalendar a)
    (hon : ∀ d, Recurring.dtstart x = some d → OnCalendar d) : before? a x = some (startsBefore a x) := by
  obtain ⟨d, hd⟩ := run_start hrun hx
  exact before?_iff.2 ⟨d, hd, hon d hd, ha, by simp [startsBefore, hd]⟩

theorem stop?_of {s s' x : α} {xs : List α} (hrun : Run s xs s') (hx : x ∈ xs) {b : Option Date} (hb : ∀ e, b = some e → OnCalendar e)
    (hon : ∀ d, Recurring.dtstart x = some d → OnCalendar d) : stop? b x = some (beforeStop b x) := by
  cases b with
  | none => rfl
  | some e => exact before?_of hrun hx (hb e rfl) hon

theorem selects_of {s : α} {a : Date} {b : Option Date} {ys : List α} (ha : OnCalendar a) (hb : ∀ e, b = some e → OnCalendar e)
    (h : ∃ zs rest s', Run s (zs ++ ys ++ rest) s' ∧ (∀ x ∈ zs ++ ys ++ rest, ∀ d, Recurring.dtstart x = some d → OnCalendar d) ∧
      (∀ z ∈ zs, startsBefore a z = true) ∧ (∀ y, (ys ++ rest).head? = some y → startsBefore a y = false) ∧
      (∀ y ∈ ys, beforeStop b y = true) ∧ (rest = [] ∧ Exhausted s' ∨ ∃ x, rest = [x] ∧ beforeStop b x = false)) :
    Selects ⟨s, true, false, a, b⟩ ys := by
  obtain ⟨zs, rest, s', hrun, hon, hzs, hhead, hys, hend⟩ := h
  have e1 : ∀ x ∈ zs ++ ys ++ rest, before? a x = some (startsBefore a x) := fun x hx => before?_of hrun hx ha (hon x hx)
  have e2 : ∀ x ∈ zs ++ ys ++ rest, stop? b x = some (beforeStop b x) := fun x hx => stop?_of hrun hx hb (hon x hx)
  refine selects_iff.2 ⟨zs, rest, s', hrun, fun z hz => ?_, fun y hy => ?_, fun y hy => ?_, ?_⟩
  · rw [e1 z (by simp [hz]), hzs z hz]
  · have hm : y ∈ ys ++ rest := List.mem_of_mem_head? hy
    rw [e1 y (by rw [List.append_assoc]; exact List.mem_append_right _ hm), hhead y hy]
  · rw [e2 y (by simp [hy]), hys y hy]
  · rcases hend with h | ⟨x, rfl, hx⟩
    · exact .inl h
    · exact .inr ⟨x, rfl, by rw [e2 x (by simp), hx]⟩

/-! ## C63 -/

theorem startsBefore_trans {a : Date} {x : α} {d e : Date} (hd : Recurring.dtstart x = some d) (h : e.lt d = true)
    (hx : startsBefore a x = true) : e.lt a = true := by
  simp only [startsBefore, hd] at hx
  simp only [Date.lt, decide_eq_true_eq] at *
  exact (Date.strict_order e d a).2.2.2 h hx

/-- In an increasing run, what follows an item that does not start before a date does not start before it either. -/
theorem not_before_after {s s' x : α} {pre post : List α} (hinc : Increasing s) (h : Run s (pre ++ x :: post) s') {a : Date}
    (hx : startsBefore a x = false) : ∀ y ∈ post, startsBefore a y = false := by
  intro y hy
  have hp := hinc _ _ h
  rw [starts, List.map_append, List.map_cons, List.pairwise_append] at hp
  obtain ⟨e, d, he, hd, hlt⟩ := (List.pairwise_cons.1 hp.2.1).1 _ (List.mem_map_of_mem hy)
  cases hyb : startsBefore a y with
  | false => rfl
  | true =>
    have := startsBefore_trans hd hlt hyb
    simp only [startsBefore, he] at hx
    rw [this] at hx; cases hx

/-- **C63**: whatever the order of the occurrences, a selection drops the occurrences at the beginning that start before `a` and stops at the
next that does not start before `b`. -/
theorem C63_unordered {s : α} {a b : Date} {ys : List α} (h : Selects (between s a b) ys) :
    ∃ xs s', Run s xs s' ∧ ys = (xs.dropWhile (startsBefore a)).takeWhile (startsBefore b) ∧
      (Exhausted s' ∨ ∃ x, xs.getLast? = some x ∧ startsBefore b x = false) := by
  obtain ⟨zs, rest, s', hrun, hzs, hhead, hb, hend⟩ := selects_pure h
  refine ⟨_, s', hrun, ?_, ?_⟩
  · rw [List.append_assoc, List.dropWhile_append_of_pos hzs]
    have : (ys ++ rest).dropWhile (startsBefore a) = ys ++ rest := by
      cases hyr : ys ++ rest with
      | nil => rfl
      | cons y l => rw [List.dropWhile_cons_of_neg]; rw [hhead y (by rw [hyr]; rfl)]; simp
    have hb' : ∀ y ∈ ys, startsBefore b y = true := hb
    rw [this, List.takeWhile_append_of_pos hb']
    rcases hend with ⟨rfl, -⟩ | ⟨x, rfl, hx⟩
    · simp
    · have hx' : startsBefore b x = false := hx
      rw [List.takeWhile_cons_of_neg (by simp [hx'])]; simp
  · rcases hend with ⟨rfl, he⟩ | ⟨x, rfl, hx⟩
    · exact .inl he
    · exact .inr ⟨x, by simp, hx⟩

/-- The occurrences that start from `a` on and before `b` (without limit if there is no `b`). -/
def inRange (a : Date) (b : Option Date) (x : α) : Bool := !startsBefore a x && beforeStop b x

theorem selects_sound {s : α} (hinc : Increasing s) {a : Date} {b : Option Date} {ys : List α} (h : Selects ⟨s, true, false, a, b⟩ ys) :
    (∃ xs s', Run s xs s' ∧ ys = xs.filter (inRange a b)) ∧
    ∀ xs s', Run s xs s' → xs.filter (inRange a b) <+: ys := by
  obtain ⟨zs, rest, s', hrun, hzs, hhead, hb, hend⟩ := selects_pure h
  have hys : ∀ y ∈ ys ++ rest, startsBefore a y = false := by
    cases hyr : ys ++ rest with
    | nil => simp
    | cons y l =>
      intro z hz
      have hy := hhead y (by rw [hyr]; rfl)
      rcases List.mem_cons.1 hz with rfl | hz
      · exact hy
      · rw [List.append_assoc, hyr] at hrun
        exact not_before_after hinc hrun hy z hz
  have hfil : (zs ++ ys ++ rest).filter (inRange a b) = ys := by
    rw [List.filter_append, List.filter_append]
    have h1 : zs.filter (inRange a b) = [] := List.filter_eq_nil_iff.2 fun z hz => by simp [inRange, hzs z hz]
    have h2 : ys.filter (inRange a b) = ys := List.filter_eq_self.2 fun y hy => by
      simp [inRange, hys y (List.mem_append_left _ hy), hb y hy]
    have h3 : rest.filter (inRange a b) = [] := by
      rcases hend with ⟨rfl, -⟩ | ⟨x, rfl, hx⟩
      · rfl
      · simp [inRange, hx]
    rw [h1, h2, h3]; simp
  refine ⟨⟨_, s', hrun, hfil.symm⟩, ?_⟩
  intro xs s2 hxs
  rcases Run.compare hrun hxs with ⟨more, rfl, hmore⟩ | ⟨more, hm, hmore⟩
  · rw [List.filter_append, hfil]
    have : more.filter (inRange a b) = [] := by
      rcases hend with ⟨rfl, he⟩ | ⟨x, rfl, hx⟩
      · rw [(run_of_ends he hmore).1]; rfl
      · refine List.filter_eq_nil_iff.2 fun y hy => ?_
        cases b with
        | none => simp [beforeStop] at hx
        | some b =>
          have hx' : startsBefore b x = false := hx
          rw [List.append_assoc] at hxs
          have := not_before_after (pre := zs ++ ys) (post := more) hinc (by simpa using hxs) hx' y hy
          simp [inRange, beforeStop, this]
    rw [this, List.append_nil]
    exact List.prefix_refl _
  · rw [hm, List.filter_append] at hfil
    exact ⟨_, hfil⟩

/-- **C63**: if the occurrences are in increasing order, `between(a, b)` yields exactly those that start from `a` on and before `b`, in their
order: it yields the selected ones of some of the first occurrences, and those are all, however many more are asked for. -/
theorem C63_between {s : α} (hinc : Increasing s) {a b : Date} {ys : List α} (h : Selects (between s a b) ys) :
    (∃ xs s', Run s xs s' ∧ ys = xs.filter fun x => !startsBefore a x && startsBefore b x) ∧
    ∀ xs s', Run s xs s' → (xs.filter fun x => !startsBefore a x && startsBefore b x) <+: ys :=
  selects_sound hinc h

/-- **C63**: `after(a)` yields those that start from `a` on. -/
theorem C63_after {s : α} (hinc : Increasing s) {a : Date} {ys : List α} (h : Selects (after s a) ys) :
    (∃ xs s', Run s xs s' ∧ ys = xs.filter fun x => !startsBefore a x) ∧
    ∀ xs s', Run s xs s' → (xs.filter fun x => !startsBefore a x) <+: ys := by
  have := selects_sound hinc h
  have he : inRange (α := α) a none = fun x => !startsBefore a x := by funext x; simp [inRange, beforeStop]
  rwa [he] at this

/-- **C63**: what `after(a)` has yielded so far, when it does not end. -/
theorem C63_after_prefix {s : α} (hinc : Increasing s) {a : Date} {ys : List α} {r' : Range α} (h : RangeRun (after s a) ys r') :
    ∃ xs s', Run s xs s' ∧ ys = xs.filter fun x => !startsBefore a x := by
  rcases range_run_on h with ⟨rfl, rfl⟩ | ⟨s', zs, y, ys', rfl, rfl, hrun, hzs, hy, -⟩
  · exact ⟨[], s, .nil, rfl⟩
  · replace hzs := fun z hz => before?_starts (hzs z hz)
    replace hy := before?_starts hy
    refine ⟨_, s', hrun, ?_⟩
    rw [List.filter_append]
    have h1 : (zs.filter fun x => !startsBefore a x) = [] := List.filter_eq_nil_iff.2 fun z hz => by simp [hzs z hz]
    have h2 := not_before_after hinc hrun hy
    have h3 : ((y :: ys').filter fun x => !startsBefore a x) = y :: ys' := List.filter_eq_self.2 fun z hz => by
      rcases List.mem_cons.1 hz with rfl | hz
      · simp [hy]
      · simp [h2 z hz]
    rw [h1, h3]; rfl

/-- A list either satisfies a test throughout or has a first element that fails it. -/
theorem first_failing (p : α → Bool) (l : List α) :
    (∀ x ∈ l, p x = true) ∨ ∃ l1 x l2, l = l1 ++ x :: l2 ∧ (∀ z ∈ l1, p z = true) ∧ p x = false := by
  induction l with
  | nil => exact .inl (by simp)
  | cons x l ih =>
    by_cases hx : p x = true
    · rcases ih with h | ⟨l1, y, l2, rfl, h1, h2⟩
      · exact .inl fun z hz => (List.mem_cons.1 hz).elim (fun e => e ▸ hx) (h z)
      · exact .inr ⟨x :: l1, y, l2, rfl, fun z hz => (List.mem_cons.1 hz).elim (fun e => e ▸ hx) (h1 z), h2⟩
    · exact .inr ⟨[], x, l, rfl, by simp, by simpa using hx⟩

/-- **C63**: a selection comes to its end once there are no more occurrences, or one starts neither before `a` nor before `b`, if `a`, `b` and
the starts are on days in the range of years. -/
theorem C63_ends {s s' : α} {a b : Date} {xs : List α} (h : Run s xs s') (ha : OnCalendar a) (hb : OnCalendar b)
    (hon : ∀ x ∈ xs, ∀ d, Recurring.dtstart x = some d → OnCalendar d)
    (hend : Exhausted s' ∨ ∃ x ∈ xs, startsBefore a x = false ∧ startsBefore b x = false) : ∃ ys, Selects (between s a b) ys := by
  have hb' : ∀ e, some b = some e → OnCalendar e := by rintro e ⟨⟩; exact hb
  rcases first_failing (startsBefore a) xs with hall | ⟨zs, y, l, rfl, hzs, hy⟩
  · rcases hend with he | ⟨x, hx, hxa, -⟩
    · exact ⟨[], selects_of ha hb' ⟨xs, [], s', by simpa using h, by simpa using hon, hall, by simp, by simp, .inl ⟨rfl, he⟩⟩⟩
    · rw [hall x hx] at hxa; cases hxa
  · rcases first_failing (startsBefore b) (y :: l) with hall | ⟨l1, x, l2, hl, hl1, hx⟩
    · rcases hend with he | ⟨x, hx, hxa, hxb⟩
      · exact ⟨y :: l, selects_of ha hb' ⟨zs, [], s', by simpa using h, by simpa using hon, hzs, by simpa using hy, hall, .inl ⟨rfl, he⟩⟩⟩
      · rcases List.mem_append.1 hx with hx | hx
        · rw [hzs x hx] at hxa; cases hxa
        · rw [hall x hx] at hxb; cases hxb
    · rw [hl, show zs ++ (l1 ++ x :: l2) = (zs ++ l1 ++ [x]) ++ l2 by simp] at h hon
      obtain ⟨s1, h1, -⟩ := Run.split h
      refine ⟨l1, selects_of ha hb' ⟨zs, [x], s1, h1, fun x hx => hon x (List.mem_append_left _ hx), hzs, ?_, hl1, .inr ⟨x, rfl, hx⟩⟩⟩
      intro z hz
      have : (l1 ++ x :: l2).head? = (l1 ++ [x]).head? := by cases l1 <;> rfl
      rw [← this, ← hl] at hz
      cases hz
      exact hy

/-- The component starts on the day. -/
def onDay (x : NaiveDate) (y : α) : Bool := decide ((Recurring.dtstart y).map Date.dateNaive = some x)

theorem not_before_day (x : NaiveDate) (d : Date) : d.lt (.date x) = decide (d.dateNaive.cmp x = .lt) := by
  cases d <;> rfl

theorem one_day : TimeDelta.days 1 = some ⟨86400000000000⟩ := by decide +kernel

/-- **C63**: `at` of a day is `between` that day and the next; it panics on the last day chrono can represent. -/
theorem C63_at_day (s : α) {x : NaiveDate} (hx : RealDate x) (hr : InRange x) :
    (InRange (tomorrow x) → at_ s (.date x) = some (between s (.date x) (.date (tomorrow x)))) ∧
    (¬ InRange (tomorrow x) → at_ s (.date x) = none) := by
  have h := C66_add_days x ((valid_iff x).2 ⟨hr, hx⟩) 1
  have hd : (⟨86400000000000⟩ : TimeDelta).numSeconds.tdiv 86400 = (1 : Nat) := by decide
  have he : at_ s (.date x) = (x.addDays (1 : Nat)).map fun y => between s (.date x) (.date y) := by
    unfold at_
    rw [one_day]
    simp only [bind, Option.bind, Date.addDur, hd]
    cases x.addDays (1 : Nat) <;> rfl
  rw [he]
  constructor
  · intro hi; rw [h.1 hi]; rfl
  · intro hi; rw [h.2 hi]; rfl

/-- **C63**: `at` of a day yields exactly the occurrences that start on it. -/
theorem C63_at_date {s : α} (hinc : Increasing s) {x : NaiveDate} (hx : RealDate x) (hr : InRange x) {r : Range α} (h : at_ s (.date x) = some r)
    (hreal : ∀ xs s', Run s xs s' → ∀ y ∈ xs, ∀ d, Recurring.dtstart y = some d → RealDate d.dateNaive) {ys : List α} (hsel : Selects r ys) :
    (∃ xs s', Run s xs s' ∧ ys = xs.filter (onDay x)) ∧ ∀ xs s', Run s xs s' → xs.filter (onDay x) <+: ys := by
  have hat := C63_at_day s hx hr
  have hi : InRange (tomorrow x) := by
    apply Classical.byContradiction
    intro hn
    rw [hat.2 hn] at h; cases h
  rw [hat.1 hi] at h
  cases h
  obtain ⟨-, ht2, ht3⟩ := C66_tomorrow x hx
  have key : ∀ xs s', Run s xs s' → (xs.filter fun y => !startsBefore (.date x) y && startsBefore (.date (tomorrow x)) y) = xs.filter (onDay x) := by
    intro xs s' hrun
    apply List.filter_congr
    intro y hy
    obtain ⟨d, hd⟩ := run_start hrun hy
    have hrd := hreal xs s' hrun y hy d hd
    simp only [startsBefore, hd, not_before_day, onDay, Option.map_some, Option.some.injEq]
    rw [Bool.eq_iff_iff]
    simp only [Bool.and_eq_true, Bool.not_eq_true', decide_eq_false_iff_not, decide_eq_true_eq]
    constructor
    · rintro ⟨h1, h2⟩
      cases hc : d.dateNaive.cmp x with
      | lt => exact absurd hc h1
      | eq => exact NaiveDate.cmp_eq_iff.1 hc
      | gt =>
        have : x.cmp d.dateNaive = .lt := by rw [NaiveDate.cmp_swap, hc]; rfl
        exact absurd h2 (ht3 _ hrd this)
    · intro he
      rw [he]
      exact ⟨by rw [NaiveDate.cmp_eq_iff.2 rfl]; simp, ht2⟩
  obtain ⟨⟨xs, s', h1, h2⟩, h3⟩ := C63_between hinc hsel
  refine ⟨⟨xs, s', h1, ?_⟩, fun xs s' h => ?_⟩
  · rw [h2]; exact key xs s' h1
  · rw [← key xs s' h]; exact h3 xs s' h

/-- **C63**: `at` of a floating time is `between` that time and the same time of the next day (of a leap second: the second before it). -/
theorem C63_at_time (s : α) {t : NaiveDateTime} (ht : RealTime t) :
    (InRange (tomorrow t.date) → at_ s (.dateTime (.naive t)) =
      some (between s (.dateTime (.naive t)) (.dateTime (.naive { withoutLeapSecond t with date := tomorrow t.date })))) ∧
    (¬ InRange (tomorrow t.date) → at_ s (.dateTime (.naive t)) = none) := by
  have hp := plain_withoutLeap ((realTime_iff t).1 ht)
  have hok := (NaiveDate.ok_iff t.date).2 ht.1
  have htm := NaiveDate.tomorrow_ok hok
  have htd := NaiveDate.toDays_tomorrow hok
  have he : at_ s (.dateTime (.naive t)) =
      ((withoutLeapSecond t).add ⟨86400000000000⟩).map fun u => between s (.dateTime (.naive t)) (.dateTime (.naive u)) := by
    have hl : t.add ⟨86400000000000⟩ = (withoutLeapSecond t).add ⟨86400000000000⟩ :=
      NaiveDateTime.add_leap (n := 86400) ht.2.2.2 (by omega)
    rw [← hl]
    unfold at_
    rw [one_day]
    simp only [bind, Option.bind, Date.addDur, DateTime.addDur]
    cases t.add ⟨86400000000000⟩ <;> rfl
  rw [he]
  have e1 : (withoutLeapSecond t).date = t.date := rfl
  constructor
  · intro hi
    have : (withoutLeapSecond t).add ⟨86400000000000⟩ = some { withoutLeapSecond t with date := tomorrow t.date } := by
      rw [NaiveDateTime.add_some hp.2.2]
      refine ⟨⟨(valid_iff _).2 ⟨hi, (NaiveDate.ok_iff _).1 htm⟩, hp.2.1, hp.2.2⟩, ?_⟩
      simp only [NaiveDateTime.nanos, NaiveDateTime.toSecs, htd, e1]
      omega
    rw [this]; rfl
  · intro hn
    cases ha : (withoutLeapSecond t).add ⟨86400000000000⟩ with
    | none => rfl
    | some u =>
      exfalso
      rw [NaiveDateTime.add_some hp.2.2] at ha
      obtain ⟨hu, hun⟩ := ha
      apply hn
      have : u.date.toDays = (tomorrow t.date).toDays := by
        simp only [NaiveDateTime.nanos, NaiveDateTime.toSecs, e1] at hun
        have h1 := hu.2.1
        have h2 := hu.2.2
        have h3 := hp.2.1
        have h4 := hp.2.2
        omega
      rw [← NaiveDate.toDays_inj hu.1.ok htm this]
      exact ((valid_iff _).1 hu.1).1

/-- **C63**: an event whose dates all go forward has occurrences in increasing order, so the selections above apply to it. -/
theorem C63_increasing {s : α} {d : Date} {r : Recur} (hd : Recurring.dtstart s = some d) (hr : Recurring.rrule s = some r)
    (hi : 1 ≤ r.interval) (hi2 : r.interval ≤ 255)
    (hs : (∃ x, d = .date x ∧ RealDate x ∧ InRange x ∧ (r.freq = .daily ∨ r.freq = .weekly ∨ r.freq = .monthly ∨ r.freq = .yearly)) ∨
      ∃ t, d = .dateTime (.naive t) ∧ RealTime t) : Increasing s :=
  fun _ _ h => C60_increasing hd hr hi hi2 hs h

/-- The starts of the occurrences of such an event are on real dates. -/
theorem real_starts {s : α} {d : Date} {r : Recur} (hd : Recurring.dtstart s = some d) (hr : Recurring.rrule s = some r)
    (hi : 1 ≤ r.interval) (hi2 : r.interval ≤ 255)
    (hs : (∃ x, d = .date x ∧ RealDate x ∧ InRange x ∧ (r.freq = .daily ∨ r.freq = .weekly ∨ r.freq = .monthly ∨ r.freq = .yearly)) ∨
      ∃ t, d = .dateTime (.naive t) ∧ RealTime t) {xs : List α} {s' y : α} (h : Run s xs s') (hy : y ∈ xs) {e : Date}
    (he : Recurring.dtstart y = some e) : RealDate e.dateNaive := by
  have hfw : Forward r d := by
    rcases hs with ⟨x, rfl, h1, h2, h3⟩ | ⟨t, rfl, ht⟩
    · exact .date ((valid_iff x).2 ⟨h2, h1⟩) (by rcases h3 with h | h | h | h <;> rw [h] <;> decide)
    · exact .naive ((realTime_iff t).1 ht)
  obtain ⟨k, a, ha, hk, -⟩ := mem_nth hd hr h hy
  rw [he] at ha
  cases ha
  cases forward_nth hi hi2 hfw hk with
  | date hv _ => exact ((valid_iff _).1 hv).2
  | naive ht => exact ((valid_iff _).1 ht.1).2

/-- **C63**: for the events of C60 (on a date with days, weeks, months or years, or at a floating time), `at` of a day yields exactly the
occurrences that start on that day. -/
theorem C63_at {s : α} {d : Date} {rule : Recur} (hd : Recurring.dtstart s = some d) (hr : Recurring.rrule s = some rule)
    (hi : 1 ≤ rule.interval) (hi2 : rule.interval ≤ 255)
    (hs : (∃ x, d = .date x ∧ RealDate x ∧ InRange x ∧ (rule.freq = .daily ∨ rule.freq = .weekly ∨ rule.freq = .monthly ∨ rule.freq = .yearly)) ∨
      ∃ t, d = .dateTime (.naive t) ∧ RealTime t) {x : NaiveDate} (hx : RealDate x) (hx2 : InRange x) {r : Range α}
    (h : at_ s (.date x) = some r) {ys : List α} (hsel : Selects r ys) :
    (∃ xs s', Run s xs s' ∧ ys = xs.filter (onDay x)) ∧ ∀ xs s', Run s xs s' → xs.filter (onDay x) <+: ys :=
  C63_at_date (C63_increasing hd hr hi hi2 hs) hx hx2 h (fun _ _ hrun _ hy _ he => real_starts hd hr hi hi2 hs hrun hy he) hsel

end

/-! ## Examples and limits -/

section
attribute [local instance] utc

/-- C63: the hypotheses hold, and what is selected. -/
theorem threeTimes_increasing : Increasing (threeTimes 1 3) :=
  C63_increasing (d := jan 1) (r := { everyDays 2 with count := some 3 }) rfl rfl (by decide) (by decide)
    (.inl ⟨_, rfl, ⟨by decide, by decide, by decide, by decide⟩, ⟨by decide, by decide⟩, .inl rfl⟩)
example : Selects (between (threeTimes 1 3) (jan 2) (jan 7)) [threeTimes 5 2] :=
  ⟨_, .cons ⟨5, rfl⟩ .nil, 5, _, rfl⟩
example : Selects (after (threeTimes 1 3) (jan 2)) [threeTimes 5 2, threeTimes 7 1] :=
  ⟨_, .cons ⟨5, rfl⟩ (.cons ⟨5, rfl⟩ .nil), 5, _, rfl⟩
example : ∃ r, at_ (threeTimes 1 3) (jan 5) = some r ∧ Selects r [threeTimes 5 2] :=
  ⟨_, rfl, _, .cons ⟨5, rfl⟩ .nil, 5, _, rfl⟩

end

end Ikal
