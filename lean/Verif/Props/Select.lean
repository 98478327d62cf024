import Verif.Props.Fate

/-!
# What becomes of a selection, exactly (C79)

`between` and `after` on any component, whatever the order of its occurrences: what they yield in all, when they panic and after what, when
a call on them never returns, and what they do after their end.
-/

namespace Ikal

namespace Spec

variable [Platform] {α : Type} [Recurring α]

/-- A call on the selection panics. -/
def RangePanics (r : Range α) : Prop := ∃ fuel r', r.next fuel = (.panic, r')

/-- Iterating over the selection yields `xs` and then panics. -/
def SelectsThenPanics (r : Range α) (xs : List α) : Prop := ∃ r', RangeRun r xs r' ∧ RangePanics r'

/-- A call on the selection never returns. -/
def RangeRunsForever (r : Range α) : Prop := ∀ fuel, (r.next fuel).1 = .running

end Spec

open Spec

set_option linter.unusedSectionVars false
set_option linter.unusedSimpArgs false

section
variable [Platform] {α : Type} [Recurring α] [LawfulRecurring α]

/-! ## Panics -/

theorem panics_next {s s' : α} {fuel : Nat} (h : next fuel s = (.panic, s')) : s' = s ∧ Panics s := by
  have h' := h
  unfold next at h
  cases ha : advance fuel s with
  | panic => rw [ha] at h; cases h; exact ⟨rfl, by simp, fuel, h'⟩
  | item x => rw [ha] at h; cases h
  | done => rw [ha] at h; cases h
  | running => rw [ha] at h; cases h

/-- Asking panics. -/
theorem before?_none {s s' x : α} {xs : List α} (hrun : Run s xs s') (hx : x ∈ xs) {a : Date} : before? a x = none ↔ Incomparable a x := by
  obtain ⟨d, hd⟩ := run_start hrun hx
  simp only [before?, hd, Option.bind_some, Date.lt?_none, Incomparable]
  constructor
  · intro h; exact ⟨d, rfl, h⟩
  · rintro ⟨_, h, h'⟩; cases h; exact h'

theorem before?_true {a : Date} {x : α} : before? a x = some true ↔ StartsBefore a x := by
  rw [before?_iff]; unfold StartsBefore
  simp only [eq_comm]

theorem before?_false {a : Date} {x : α} : before? a x = some false ↔ StartsFrom a x := by
  rw [before?_iff]; unfold StartsFrom
  simp only [eq_comm]

theorem skipWhile_panic {a : Date} {fuel : Nat} {sk sk' : Bool} {s s' : α} (h : skipWhile a fuel sk s = (.panic, sk', s')) :
    sk' = sk ∧ ∃ zs, (∀ z ∈ zs, before? a z = some true) ∧ (sk = false → zs = []) ∧
      (Run s zs s' ∧ Panics s' ∨ ∃ x, Run s (zs ++ [x]) s' ∧ sk = true ∧ before? a x = none) := by
  induction fuel generalizing s with
  | zero => simp [skipWhile] at h
  | succ fuel ih =>
    rw [skipWhile_succ] at h
    cases hn : next (fuel + 1) s with
    | mk o t =>
      rw [hn] at h
      cases o with
      | item y =>
        simp only at h
        cases sk with
        | false => simp at h
        | true =>
          simp only [if_true] at h
          cases hd : before? a y with
          | none =>
            rw [hd] at h
            simp only [Prod.mk.injEq, true_and] at h
            obtain ⟨rfl, rfl⟩ := h
            exact ⟨rfl, [], by simp, by simp, .inr ⟨y, .cons (yields_next hn) .nil, rfl, hd⟩⟩
          | some v => cases v with
            | true =>
              rw [hd] at h
              obtain ⟨h0, zs, h1, -, h2⟩ := ih h
              refine ⟨h0, y :: zs, ?_, by simp, ?_⟩
              · intro z hz
                rcases List.mem_cons.1 hz with rfl | hz
                · exact hd
                · exact h1 z hz
              · rcases h2 with ⟨h2, h3⟩ | ⟨x, h2, h3⟩
                · exact .inl ⟨.cons (yields_next hn) h2, h3⟩
                · exact .inr ⟨x, .cons (yields_next hn) h2, h3⟩
            | false => rw [hd] at h; simp at h
      | done => simp at h
      | panic =>
        simp only [Prod.mk.injEq, true_and] at h
        obtain ⟨rfl, rfl⟩ := h
        obtain ⟨rfl, he⟩ := panics_next hn
        exact ⟨rfl, [], by simp, by simp, .inl ⟨.nil, he⟩⟩
      | running => simp at h

theorem skipWhile_panic_of {a : Date} {s s' : α} {zs : List α} (hz : ∀ z ∈ zs, before? a z = some true)
    (h : Run s zs s' ∧ Panics s' ∨ ∃ x, Run s (zs ++ [x]) s' ∧ before? a x = none) :
    ∃ F, ∀ fuel, F ≤ fuel → skipWhile a fuel true s = (.panic, true, s') := by
  induction zs generalizing s with
  | nil =>
    rcases h with ⟨h, hx⟩ | ⟨x, h, hx⟩
    · cases h
      obtain ⟨F, hF⟩ := Returns.eventually hx
      refine ⟨F + 1, fun fuel hf => ?_⟩
      obtain ⟨f, rfl⟩ : ∃ f, fuel = f + 1 := ⟨fuel - 1, by omega⟩
      rw [skipWhile_succ, hF _ (by omega)]
    · cases h with
      | cons h1 h2 =>
        cases h2
        obtain ⟨F, hF⟩ := Returns.eventually h1
        refine ⟨F + 1, fun fuel hf => ?_⟩
        obtain ⟨f, rfl⟩ : ∃ f, fuel = f + 1 := ⟨fuel - 1, by omega⟩
        rw [skipWhile_succ, hF _ (by omega)]
        simp [hx]
  | cons z zs ih =>
    have hzz := hz z (List.mem_cons_self ..)
    obtain ⟨s1, h1, h2⟩ : ∃ s1, Yields s z s1 ∧ (Run s1 zs s' ∧ Panics s' ∨ ∃ x, Run s1 (zs ++ [x]) s' ∧ before? a x = none) := by
      rcases h with ⟨h, hx⟩ | ⟨x, h, hx⟩
      · cases h with
        | cons h1 h2 => exact ⟨_, h1, .inl ⟨h2, hx⟩⟩
      · cases h with
        | cons h1 h2 => exact ⟨_, h1, .inr ⟨x, h2, hx⟩⟩
    obtain ⟨F, hF⟩ := Returns.eventually h1
    obtain ⟨G, hG⟩ := ih (fun y hy => hz y (List.mem_cons_of_mem _ hy)) h2
    refine ⟨F + G + 1, fun fuel hf => ?_⟩
    obtain ⟨f, rfl⟩ : ∃ f, fuel = f + 1 := ⟨fuel - 1, by omega⟩
    rw [skipWhile_succ, hF _ (by omega)]
    simp only [if_true, hzz]
    exact hG _ (by omega)

theorem range_panic {r : Range α} (hf : r.finished = false) :
    RangePanics r ↔ (∃ fuel sk s, skipWhile r.start fuel r.skipping r.state = (.panic, sk, s)) ∨
      ∃ fuel x s, skipWhile r.start fuel r.skipping r.state = (.item x, false, s) ∧ stop? r.stop x = none := by
  obtain ⟨st, sk, fi, a, b⟩ := r
  simp only at hf
  subst hf
  constructor
  · rintro ⟨fuel, r', h⟩
    rw [rangeNext_eq] at h
    simp only [Bool.false_eq_true, if_false] at h
    cases hs : skipWhile a fuel sk st with
    | mk o p =>
      obtain ⟨sk', s'⟩ := p
      rw [hs] at h
      cases o with
      | item y =>
        have hsk := (skipWhile_item hs).1
        subst hsk
        simp only at h
        cases hb : stop? b y with
        | none => exact .inr ⟨fuel, y, s', hs, hb⟩
        | some v => cases v <;> (rw [hb] at h; simp at h)
      | done => simp at h
      | panic => exact .inl ⟨fuel, sk', s', hs⟩
      | running => simp at h
  · rintro (⟨fuel, sk', s, h⟩ | ⟨fuel, x, s, h, hb⟩)
    · exact ⟨fuel, ⟨s, sk', false, a, b⟩, by simp only at h; simp only [rangeNext_eq, Bool.false_eq_true, if_false, h]⟩
    · exact ⟨fuel, ⟨s, false, false, a, b⟩, by simp only at h hb; simp only [rangeNext_eq, Bool.false_eq_true, if_false, h, hb]⟩

/-- The calls on a selection that make its yielded items, from a run of the recurrence. -/
theorem range_run_of {a : Date} {b : Option Date} (l : List α) (t s1 : α) (h : Run t l s1) (hl : ∀ y ∈ l, stop? b y = some true) :
    RangeRun ⟨t, false, false, a, b⟩ l ⟨s1, false, false, a, b⟩ := by
  induction l generalizing t with
  | nil => cases h; exact .nil
  | cons y l ih =>
    cases h with
    | cons h3 h4 =>
      obtain ⟨F, hF⟩ := skipWhile_off (a := a) h3
      exact .cons ((range_item rfl).2 ⟨F, _, hF F (Nat.le_refl _), hl y (List.mem_cons_self ..), rfl⟩)
        (ih _ h4 fun y hy => hl y (List.mem_cons_of_mem _ hy))

theorem selects_panics_iff {s : α} {a : Date} {b : Option Date} {ys : List α} : SelectsThenPanics ⟨s, true, false, a, b⟩ ys ↔
    ∃ zs rest s', Run s (zs ++ ys ++ rest) s' ∧ (∀ z ∈ zs, before? a z = some true) ∧ (∀ y, ys.head? = some y → before? a y = some false) ∧
      (∀ y ∈ ys, stop? b y = some true) ∧
      (rest = [] ∧ Panics s' ∨ ∃ x, rest = [x] ∧ (ys = [] ∧ before? a x = none ∨ (ys = [] → before? a x = some false) ∧ stop? b x = none)) := by
  constructor
  · rintro ⟨r', hr, he⟩
    rcases range_run_on hr with ⟨rfl, rfl⟩ | ⟨s', zs, y, ys', rfl, rfl, hrun, hzs, hy, hb⟩
    · rcases (range_panic rfl).1 he with ⟨fuel, sk, s1, h⟩ | ⟨fuel, x, s1, h, hbx⟩
      · obtain ⟨-, zs, h1, -, ⟨h2, h3⟩ | ⟨x, h2, -, h3⟩⟩ := skipWhile_panic h
        · exact ⟨zs, [], s1, by simpa using h2, h1, by simp, by simp, .inl ⟨rfl, h3⟩⟩
        · exact ⟨zs, [x], s1, by simpa using h2, h1, by simp, by simp, .inr ⟨x, rfl, .inl ⟨rfl, h3⟩⟩⟩
      · obtain ⟨-, zs, h1, h2, h3, -⟩ := skipWhile_item h
        exact ⟨zs, [x], s1, by simpa using h1, h2, by simp, by simp, .inr ⟨x, rfl, .inr ⟨fun _ => h3 rfl, hbx⟩⟩⟩
    · rcases (range_panic rfl).1 he with ⟨fuel, sk, s1, h⟩ | ⟨fuel, x, s1, h, hbx⟩
      · obtain ⟨-, zs', h1, h4, ⟨h2, h3⟩ | ⟨x, h2, h3, -⟩⟩ := skipWhile_panic h
        · cases h4 rfl
          cases h2
          exact ⟨zs, [], s', by simpa using hrun, hzs, by simpa using hy, hb, .inl ⟨rfl, h3⟩⟩
        · cases h3
      · obtain ⟨-, zs', h1, -, -, h4⟩ := skipWhile_item h
        cases h4 rfl
        exact ⟨zs, [x], s1, Run.append hrun h1, hzs, by simpa using hy, hb, .inr ⟨x, rfl, .inr ⟨by simp, hbx⟩⟩⟩
  · rintro ⟨zs, rest, s', hrun, hzs, hhead, hb, hend⟩
    obtain ⟨s1, h1, h2⟩ := Run.split hrun
    cases ys with
    | nil =>
      simp only [List.append_nil] at h1 h2 hrun
      refine ⟨_, .nil, (range_panic rfl).2 ?_⟩
      rcases hend with ⟨rfl, hp⟩ | ⟨x, rfl, ⟨-, hx⟩ | ⟨hx, hbx⟩⟩
      · cases h2
        obtain ⟨F, hF⟩ := skipWhile_panic_of hzs (.inl ⟨h1, hp⟩)
        exact .inl ⟨F, _, _, hF F (Nat.le_refl _)⟩
      · obtain ⟨F, hF⟩ := skipWhile_panic_of hzs (.inr ⟨x, hrun, hx⟩)
        exact .inl ⟨F, _, _, hF F (Nat.le_refl _)⟩
      · obtain ⟨F, hF⟩ := skipWhile_item_of hrun hzs (hx rfl)
        exact .inr ⟨F, x, _, hF F (Nat.le_refl _), hbx⟩
    | cons y ys =>
      rw [show zs ++ y :: ys = (zs ++ [y]) ++ ys by simp] at h1
      obtain ⟨s2, h3, h4⟩ := Run.split h1
      obtain ⟨F, hF⟩ := skipWhile_item_of h3 hzs (hhead y (by simp))
      refine ⟨⟨s1, false, false, a, b⟩, .cons ((range_item rfl).2 ⟨F, s2, hF F (Nat.le_refl _), hb y (List.mem_cons_self ..), rfl⟩)
        (range_run_of ys s2 s1 h4 fun y hy => hb y (List.mem_cons_of_mem _ hy)), (range_panic rfl).2 ?_⟩
      rcases hend with ⟨rfl, hp⟩ | ⟨x, rfl, ⟨h0, -⟩ | ⟨-, hbx⟩⟩
      · cases h2
        obtain ⟨G, hG⟩ := skipWhile_off (a := a) hp
        exact .inl ⟨G, _, _, hG G (Nat.le_refl _)⟩
      · cases h0
      · cases h2 with
        | cons h5 h6 =>
          obtain ⟨G, hG⟩ := skipWhile_off (a := a) h5
          exact .inr ⟨G, x, _, hG G (Nat.le_refl _), hbx⟩

/-! ## Lists -/

theorem dropWhile_split (p : α → Bool) (l : List α) : ∃ zs, l = zs ++ l.dropWhile p ∧ (∀ z ∈ zs, p z = true) ∧
    ∀ y, (l.dropWhile p).head? = some y → p y = false := by
  refine ⟨l.takeWhile p, List.takeWhile_append_dropWhile.symm, ?_, ?_⟩
  · intro z hz
    induction l with
    | nil => cases hz
    | cons x l ih =>
      by_cases hx : p x = true
      · rw [List.takeWhile_cons_of_pos hx] at hz
        rcases List.mem_cons.1 hz with rfl | hz
        · exact hx
        · exact ih hz
      · rw [List.takeWhile_cons_of_neg hx] at hz; cases hz
  · intro y hy
    cases h : l.dropWhile p with
    | nil => rw [h] at hy; cases hy
    | cons x m =>
      rw [h] at hy
      cases hy
      have := List.head_dropWhile_not p (l := l) (by rw [h]; simp)
      simpa [h] using this

theorem dropWhile_join {p : α → Bool} {zs ys : List α} (hz : ∀ z ∈ zs, p z = true) (hy : ∀ y, ys.head? = some y → p y = false) :
    (zs ++ ys).dropWhile p = ys := by
  rw [List.dropWhile_append_of_pos hz]
  cases ys with
  | nil => rfl
  | cons y l => rw [List.dropWhile_cons_of_neg]; rw [hy y rfl]; simp

/-! ## C79 -/

/-- **C79**: `between(a, b)` yields `ys` in all exactly if the occurrences begin with some that start before `a`, then come `ys`, which start
before `b` and the first of which does not start before `a`, and then either nothing more or one that does not start before `b` (nor before
`a`, if there are no `ys`).  Starting before and not starting before both mean that the comparison does not panic. -/
theorem C79_between {s : α} {a b : Date} {ys : List α} : Selects (between s a b) ys ↔
    ∃ zs rest s', Run s (zs ++ ys ++ rest) s' ∧ (∀ z ∈ zs, StartsBefore a z) ∧ (∀ y, (ys ++ rest).head? = some y → StartsFrom a y) ∧
      (∀ y ∈ ys, StartsBefore b y) ∧ (rest = [] ∧ Exhausted s' ∨ ∃ x, rest = [x] ∧ StartsFrom b x) := by
  simp only [between, selects_iff, stop?, before?_true, before?_false]

/-- **C79**: `after(a)` yields `ys` in all exactly if the occurrences come to an end and are some that start before `a`, followed by `ys`, the
first of which does not. -/
theorem C79_after {s : α} {a : Date} {ys : List α} : Selects (after s a) ys ↔
    ∃ zs s', Run s (zs ++ ys) s' ∧ Exhausted s' ∧ (∀ z ∈ zs, StartsBefore a z) ∧ ∀ y, ys.head? = some y → StartsFrom a y := by
  simp only [after, selects_iff, stop?, before?_true, before?_false]
  constructor
  · rintro ⟨zs, rest, s', h1, h2, h3, -, ⟨rfl, h4⟩ | ⟨x, -, h⟩⟩
    · exact ⟨zs, s', by simpa using h1, h4, h2, by simpa using h3⟩
    · cases h
  · rintro ⟨zs, s', h1, h2, h3, h4⟩
    exact ⟨zs, [], s', by simpa using h1, h3, by simpa using h4, by simp, .inl ⟨rfl, h2⟩⟩

/-- **C79**: `between(a, b)` yields `ys` and then panics exactly if the occurrences begin with some that start before `a`, then come `ys`, which
start before `b` and the first of which does not start before `a`, and then either the iteration panics or there is an occurrence that cannot
be compared: with `b`, or with `a` if there are no `ys`. -/
theorem C79_between_panics {s : α} {a b : Date} {ys : List α} : SelectsThenPanics (between s a b) ys ↔
    ∃ zs rest s', Run s (zs ++ ys ++ rest) s' ∧ (∀ z ∈ zs, StartsBefore a z) ∧ (∀ y, ys.head? = some y → StartsFrom a y) ∧
      (∀ y ∈ ys, StartsBefore b y) ∧
      (rest = [] ∧ Panics s' ∨ ∃ x, rest = [x] ∧ (ys = [] ∧ Incomparable a x ∨ (ys = [] → StartsFrom a x) ∧ Incomparable b x)) := by
  simp only [between, selects_panics_iff, stop?, before?_true, before?_false]
  refine exists_congr fun zs => exists_congr fun rest => exists_congr fun s' => and_congr_right fun hrun => and_congr_right fun _ =>
    and_congr_right fun _ => and_congr_right fun _ => or_congr Iff.rfl (exists_congr fun x => and_congr_right fun hx => ?_)
  subst hx
  have hm : x ∈ zs ++ ys ++ [x] := by simp
  rw [before?_none hrun hm, before?_none hrun hm]

/-- **C79**: `after(a)` yields `ys` and then panics exactly if the occurrences begin with some that start before `a`, then come `ys`, the first
of which does not, and then the iteration panics or, if there are no `ys`, there is an occurrence that cannot be compared with `a`. -/
theorem C79_after_panics {s : α} {a : Date} {ys : List α} : SelectsThenPanics (after s a) ys ↔
    ∃ zs rest s', Run s (zs ++ ys ++ rest) s' ∧ (∀ z ∈ zs, StartsBefore a z) ∧ (∀ y, ys.head? = some y → StartsFrom a y) ∧
      (rest = [] ∧ Panics s' ∨ ∃ x, rest = [x] ∧ ys = [] ∧ Incomparable a x) := by
  simp only [after, selects_panics_iff, stop?, before?_true, before?_false, reduceCtorEq, and_false, or_false, implies_true, true_and]
  refine exists_congr fun zs => exists_congr fun rest => exists_congr fun s' => and_congr_right fun hrun => and_congr_right fun _ =>
    and_congr_right fun _ => or_congr Iff.rfl (exists_congr fun x => and_congr_right fun hx => ?_)
  subst hx
  rw [before?_none hrun (by simp)]

/-! ### Where everything can be compared -/

theorem starts_iff {s s' x : α} {xs : List α} (hon : AllOnCalendar s) (hrun : Run s xs s') (hx : x ∈ xs) {a : Date} (ha : OnCalendar a) :
    (StartsBefore a x ↔ startsBefore a x = true) ∧ (StartsFrom a x ↔ startsBefore a x = false) ∧ ¬ Incomparable a x := by
  have h := before?_of hrun hx ha (hon xs s' hrun x hx)
  refine ⟨?_, ?_, ?_⟩
  · rw [← before?_true, h, Option.some.injEq]
  · rw [← before?_false, h, Option.some.injEq]
  · rw [← before?_none hrun hx, h]; simp

/-- **C79**: if all the starts are on days in the range of years, `between(a, b)` yields `ys` in all exactly if, for some occurrences from the
first on, `ys` are those that remain when those at the beginning that start before `a` are dropped and only those are kept at the beginning of the
rest that start before `b`, and either there are no more occurrences or one of the rest was not kept. -/
theorem C79_between_comparable {s : α} (hon : AllOnCalendar s) {a b : Date} (ha : OnCalendar a) (hb : OnCalendar b) {ys : List α} :
    Selects (between s a b) ys ↔
    ∃ xs s', Run s xs s' ∧ ys = (xs.dropWhile (startsBefore a)).takeWhile (startsBefore b) ∧
      (Exhausted s' ∨ ys.length < (xs.dropWhile (startsBefore a)).length) := by
  constructor
  · intro h
    obtain ⟨zs, rest, s', hrun, hzs, hhead, hb, hend⟩ := selects_pure h
    have hd : ((zs ++ ys) ++ rest).dropWhile (startsBefore a) = ys ++ rest := by
      rw [List.append_assoc]; exact dropWhile_join hzs hhead
    refine ⟨_, s', hrun, ?_, ?_⟩
    · have hb' : ∀ y ∈ ys, startsBefore b y = true := hb
      rw [hd, List.takeWhile_append_of_pos hb']
      rcases hend with ⟨rfl, -⟩ | ⟨x, rfl, hx⟩
      · simp
      · have hx' : startsBefore b x = false := hx
        rw [List.takeWhile_cons_of_neg (by simp [hx'])]; simp
    · rcases hend with ⟨rfl, he⟩ | ⟨x, rfl, hx⟩
      · exact .inl he
      · exact .inr (by rw [hd]; simp)
  · rintro ⟨xs, s', hrun, hys, hend⟩
    have hb' : ∀ e, some b = some e → OnCalendar e := by rintro e ⟨⟩; exact hb
    obtain ⟨zs, hx, hzs, hhead⟩ := dropWhile_split (startsBefore a) xs
    generalize hw : xs.dropWhile (startsBefore a) = w at hys hx hhead hend
    rw [hx] at hrun
    rcases first_failing (startsBefore b) w with hall | ⟨l1, x, l2, rfl, hl1, hxb⟩
    · have : ys = w := by
        rw [hys]; simpa using List.takeWhile_append_of_pos (l₂ := []) hall
      subst this
      rcases hend with he | hlt
      · have hrun' : Run s (zs ++ ys ++ []) s' := by simpa using hrun
        exact selects_of ha hb' ⟨zs, [], s', hrun', hon _ _ hrun', hzs, by simpa using hhead, hall, .inl ⟨rfl, he⟩⟩
      · omega
    · have : ys = l1 := by
        rw [hys, List.takeWhile_append_of_pos hl1, List.takeWhile_cons_of_neg (by simp [hxb])]; simp
      subst this
      rw [show zs ++ (ys ++ x :: l2) = (zs ++ ys ++ [x]) ++ l2 by simp] at hrun
      obtain ⟨s1, h1, -⟩ := Run.split hrun
      refine selects_of ha hb' ⟨zs, [x], s1, h1, hon _ _ h1, hzs, ?_, hl1, .inr ⟨x, rfl, hxb⟩⟩
      intro y hy
      apply hhead
      have : (ys ++ x :: l2).head? = (ys ++ [x]).head? := by cases ys <;> rfl
      rw [this]; exact hy

/-- **C79**: likewise `after(a)`: the occurrences come to an end and `ys` are all of them without those at the beginning that start before `a`. -/
theorem C79_after_comparable {s : α} (hon : AllOnCalendar s) {a : Date} (ha : OnCalendar a) {ys : List α} : Selects (after s a) ys ↔
    ∃ xs s', Run s xs s' ∧ Exhausted s' ∧ ys = xs.dropWhile (startsBefore a) := by
  constructor
  · intro h
    obtain ⟨zs, rest, s', hrun, hzs, hhead, hb, hend⟩ := selects_pure h
    rcases hend with ⟨rfl, he⟩ | ⟨x, -, hx⟩
    · exact ⟨_, s', hrun, he, by rw [List.append_assoc, dropWhile_join hzs hhead]; simp⟩
    · cases hx
  · rintro ⟨xs, s', hrun, he, rfl⟩
    obtain ⟨zs, hx, hzs, hhead⟩ := dropWhile_split (startsBefore a) xs
    rw [hx] at hrun
    have hrun' : Run s (zs ++ xs.dropWhile (startsBefore a) ++ []) s' := by simpa using hrun
    exact selects_of ha (by simp) ⟨zs, [], s', hrun', hon _ _ hrun', hzs, by simpa using hhead, by simp [beforeStop], .inl ⟨rfl, he⟩⟩

/-- **C79**: and then `between(a, b)` yields `ys` and panics exactly if the iteration panics after some occurrences, `ys` are those of them that
remain when those at the beginning that start before `a` are dropped, and all of `ys` start before `b`. -/
theorem C79_between_panics_comparable {s : α} (hon : AllOnCalendar s) {a b : Date} (ha : OnCalendar a) (hb : OnCalendar b) {ys : List α} :
    SelectsThenPanics (between s a b) ys ↔
    ∃ xs s', Run s xs s' ∧ Panics s' ∧ ys = xs.dropWhile (startsBefore a) ∧ ∀ y ∈ ys, startsBefore b y = true := by
  rw [C79_between_panics]
  constructor
  · rintro ⟨zs, rest, s', hrun, hzs, hhead, hys, ⟨rfl, hp⟩ | ⟨x, rfl, hx⟩⟩
    · rw [List.append_nil] at hrun
      have e := fun x hx => starts_iff hon hrun (x := x) hx ha
      refine ⟨_, s', hrun, hp, (dropWhile_join (fun z hz => ?_) fun y hy => ?_).symm, fun y hy => ?_⟩
      · exact (e z (by simp [hz])).1.1 (hzs z hz)
      · exact (e y (List.mem_append_right _ (List.mem_of_mem_head? hy))).2.1.1 (hhead y hy)
      · exact (starts_iff hon hrun (List.mem_append_right _ hy) hb).1.1 (hys y hy)
    · rcases hx with ⟨-, hx⟩ | ⟨-, hx⟩
      · exact absurd hx (starts_iff hon hrun (by simp) ha).2.2
      · exact absurd hx (starts_iff hon hrun (by simp) hb).2.2
  · rintro ⟨xs, s', hrun, hp, rfl, hys⟩
    obtain ⟨zs, hx, hzs, hhead⟩ := dropWhile_split (startsBefore a) xs
    rw [hx] at hrun
    have e := fun x hx => starts_iff hon hrun (x := x) hx ha
    refine ⟨zs, [], s', by simpa using hrun, fun z hz => ?_, fun y hy => ?_, fun y hy => ?_, .inl ⟨rfl, hp⟩⟩
    · exact (e z (by simp [hz])).1.2 (hzs z hz)
    · exact (e y (List.mem_append_right _ (List.mem_of_mem_head? hy))).2.1.2 (hhead y hy)
    · exact (starts_iff hon hrun (List.mem_append_right _ hy) hb).1.2 (hys y hy)

/-- **C79**: and `after(a)` if the iteration panics after some occurrences and `ys` are those without those at the beginning that start
before `a`. -/
theorem C79_after_panics_comparable {s : α} (hon : AllOnCalendar s) {a : Date} (ha : OnCalendar a) {ys : List α} :
    SelectsThenPanics (after s a) ys ↔ ∃ xs s', Run s xs s' ∧ Panics s' ∧ ys = xs.dropWhile (startsBefore a) := by
  rw [C79_after_panics]
  constructor
  · rintro ⟨zs, rest, s', hrun, hzs, hhead, ⟨rfl, hp⟩ | ⟨x, rfl, -, hx⟩⟩
    · rw [List.append_nil] at hrun
      have e := fun x hx => starts_iff hon hrun (x := x) hx ha
      refine ⟨_, s', hrun, hp, (dropWhile_join (fun z hz => ?_) fun y hy => ?_).symm⟩
      · exact (e z (by simp [hz])).1.1 (hzs z hz)
      · exact (e y (List.mem_append_right _ (List.mem_of_mem_head? hy))).2.1.1 (hhead y hy)
    · exact absurd hx (starts_iff hon hrun (by simp) ha).2.2
  · rintro ⟨xs, s', hrun, hp, rfl⟩
    obtain ⟨zs, hx, hzs, hhead⟩ := dropWhile_split (startsBefore a) xs
    rw [hx] at hrun
    have e := fun x hx => starts_iff hon hrun (x := x) hx ha
    refine ⟨zs, [], s', by simpa using hrun, fun z hz => ?_, fun y hy => ?_, .inl ⟨rfl, hp⟩⟩
    · exact (e z (by simp [hz])).1.2 (hzs z hz)
    · exact (e y (List.mem_append_right _ (List.mem_of_mem_head? hy))).2.1.2 (hhead y hy)

/-- **C79**: on a date, or at a floating time, all occurrences are on days in the range of years. -/
theorem C79_on_calendar {s : α} {d : Date} (hd : Recurring.dtstart s = some d) (h : ∀ u, d ≠ .dateTime (.loc u)) : AllOnCalendar s := by
  intro xs s' hrun x hx e he
  obtain ⟨d', r, -, -, hd', hr, -, -⟩ := run_mem hrun hx
  obtain ⟨k, a, ha, hk, -⟩ := mem_nth hd hr hrun hx
  rw [he] at ha
  cases ha
  have key : ∀ k a, nthDate r k d = some a → ∀ u, a ≠ .dateTime (.loc u) := by
    intro k
    induction k with
    | zero => intro a ha; cases ha; exact h
    | succ k ih =>
      intro a ha u
      simp only [nthDate, Option.bind_eq_some_iff] at ha
      obtain ⟨c, hc, ha⟩ := ha
      rintro rfl
      match c, ih c hc, ha with
      | .date x, _, ha =>
        simp only [Recur.add] at ha
        split at ha
        · obtain ⟨_, _, h⟩ := Option.map_eq_some_iff.1 ha; cases h
        · obtain ⟨_, _, h⟩ := Option.map_eq_some_iff.1 ha; cases h
      | .dateTime (.naive t), _, ha =>
        simp only [Recur.add, Recur.addDateTime, Option.map_map] at ha
        obtain ⟨_, _, h⟩ := Option.map_eq_some_iff.1 ha; cases h
      | .dateTime (.loc t), hc, _ => exact hc t rfl
  match e, key k e hk with
  | .date _, _ => trivial
  | .dateTime (.naive _), _ => trivial
  | .dateTime (.loc u), h => exact absurd rfl (h u)

/-! ### Calls are functions -/

theorem skipWhile_mono {a : Date} {fuel fuel' : Nat} {sk : Bool} {s : α} (h : (skipWhile a fuel sk s).1 ≠ .running) (hf : fuel ≤ fuel') :
    skipWhile a fuel' sk s = skipWhile a fuel sk s := by
  induction fuel generalizing fuel' s with
  | zero => simp [skipWhile] at h
  | succ fuel ih =>
    obtain ⟨f, rfl⟩ : ∃ f, fuel' = f + 1 := ⟨fuel' - 1, by omega⟩
    rw [skipWhile_succ] at h ⊢
    rw [skipWhile_succ]
    have hn : (next (fuel + 1) s).1 ≠ .running := by
      intro hc
      generalize next (fuel + 1) s = p at h hc
      obtain ⟨o, t⟩ := p
      simp only at hc
      subst hc
      simp at h
    rw [next_mono hn hf]
    generalize next (fuel + 1) s = p at h hn
    obtain ⟨o, t⟩ := p
    cases o with
    | item y =>
      simp only at h ⊢
      cases sk with
      | false => rfl
      | true =>
        simp only [if_true] at h ⊢
        cases hd : before? a y with
        | none => simp only
        | some v => cases v with
          | true =>
            rw [hd] at h
            simp only at h ⊢
            exact ih h (by omega)
          | false => simp only
    | done => rfl
    | panic => rfl
    | running => rfl

theorem rangeNext_mono {r : Range α} {fuel fuel' : Nat} (h : (r.next fuel).1 ≠ .running) (hf : fuel ≤ fuel') : r.next fuel' = r.next fuel := by
  rw [rangeNext_eq] at h
  rw [rangeNext_eq, rangeNext_eq]
  by_cases hfin : r.finished = true
  · rw [if_pos hfin, if_pos hfin]
  · rw [if_neg hfin] at h
    rw [if_neg hfin, if_neg hfin]
    have : (skipWhile r.start fuel r.skipping r.state).1 ≠ .running := by
      intro hc
      generalize skipWhile r.start fuel r.skipping r.state = p at h hc
      obtain ⟨o, q, t⟩ := p
      simp only at hc
      subst hc
      simp at h
    rw [skipWhile_mono this hf]

/-- **C79**: the result of a call on a selection is determined: two calls that return give the same and leave the same selection. -/
theorem C79_deterministic {r r1 r2 : Range α} {o1 o2 : Outcome α} {f1 f2 : Nat} (h1 : r.next f1 = (o1, r1)) (h2 : r.next f2 = (o2, r2))
    (n1 : o1 ≠ .running) (n2 : o2 ≠ .running) : o1 = o2 ∧ r1 = r2 := by
  have e : r.next f1 = r.next f2 := by
    rcases Nat.le_total f1 f2 with hle | hle
    · exact (rangeNext_mono (by rw [h1]; exact n1) hle).symm
    · exact rangeNext_mono (by rw [h2]; exact n2) hle
  rw [h1, h2] at e
  exact ⟨congrArg Prod.fst e, congrArg Prod.snd e⟩

theorem rangeRun_end {r r1 r2 : Range α} {xs ys : List α} (h1 : RangeRun r xs r1) (h2 : RangeRun r ys r2)
    (e1 : RangeEnds r1 ∨ RangePanics r1) (e2 : RangeEnds r2 ∨ RangePanics r2) : xs = ys ∧ r1 = r2 := by
  have key : ∀ {r : Range α} {x : α} {r' : Range α}, RangeYields r x r' → ¬ (RangeEnds r ∨ RangePanics r) := by
    rintro r x r' ⟨f, h⟩ (⟨g, r'', h'⟩ | ⟨g, r'', h'⟩)
    · exact absurd (C79_deterministic h h' (by simp) (by simp)).1 (by simp)
    · exact absurd (C79_deterministic h h' (by simp) (by simp)).1 (by simp)
  induction h1 generalizing ys with
  | nil =>
    cases h2 with
    | nil => exact ⟨rfl, rfl⟩
    | cons h3 _ => exact absurd e1 (key h3)
  | cons h3 _ ih =>
    cases h2 with
    | nil => exact absurd e2 (key h3)
    | cons h5 h6 =>
      obtain ⟨f, h3⟩ := h3
      obtain ⟨g, h5⟩ := h5
      obtain ⟨a, b⟩ := C79_deterministic h3 h5 (by simp) (by simp)
      cases a
      subst b
      obtain ⟨rfl, rfl⟩ := ih h6 e1
      exact ⟨rfl, rfl⟩

/-- **C79**: a selection has one outcome: two complete iterations over it yield the same, two that panic have yielded the same, and it does not
both end and panic. -/
theorem C79_unique {r : Range α} {xs ys : List α} :
    (Selects r xs → Selects r ys → xs = ys) ∧ (SelectsThenPanics r xs → SelectsThenPanics r ys → xs = ys) ∧
    ¬ (Selects r xs ∧ SelectsThenPanics r ys) := by
  refine ⟨?_, ?_, ?_⟩
  · rintro ⟨r1, h1, e1⟩ ⟨r2, h2, e2⟩
    exact (rangeRun_end h1 h2 (.inl e1) (.inl e2)).1
  · rintro ⟨r1, h1, e1⟩ ⟨r2, h2, e2⟩
    exact (rangeRun_end h1 h2 (.inr e1) (.inr e2)).1
  · rintro ⟨⟨r1, h1, e1⟩, ⟨r2, h2, e2⟩⟩
    obtain ⟨-, rfl⟩ := rangeRun_end h1 h2 (.inl e1) (.inr e2)
    obtain ⟨f, _, h⟩ := e1
    obtain ⟨g, _, h'⟩ := e2
    exact absurd (C79_deterministic h h' (by simp) (by simp)).1 (by simp)

/-- **C79**: once a call on a selection has returned `None`, so does every further call. -/
theorem C79_fused {r r' : Range α} {fuel : Nat} (h : r.next fuel = (.done, r')) : ∃ F, ∀ f, F ≤ f → r'.next f = (.done, r') := by
  obtain ⟨st, sk, fi, a, b⟩ := r
  cases fi with
  | true =>
    simp only [Range.next, if_true] at h
    cases h
    exact ⟨0, fun f _ => by simp [Range.next]⟩
  | false =>
    rw [rangeNext_eq] at h
    simp only [Bool.false_eq_true, if_false] at h
    cases hs : skipWhile a fuel sk st with
    | mk o p =>
      obtain ⟨sk', s'⟩ := p
      rw [hs] at h
      cases o with
      | item y =>
        simp only at h
        cases hb : stop? b y with
        | none => rw [hb] at h; simp at h
        | some v => cases v with
          | true => rw [hb] at h; simp at h
          | false =>
            rw [hb] at h
            cases h
            exact ⟨0, fun f _ => by simp [Range.next]⟩
      | done =>
        cases h
        obtain ⟨zs, -, he, -⟩ := skipWhile_done hs
        obtain ⟨F, hF⟩ : ∃ F, ∀ f, F ≤ f → skipWhile a f sk' s' = (.done, sk', s') := by
          obtain ⟨F, hF⟩ := Returns.eventually he
          refine ⟨F + 1, fun f hf => ?_⟩
          obtain ⟨g, rfl⟩ : ∃ g, f = g + 1 := ⟨f - 1, by omega⟩
          rw [skipWhile_succ, hF _ (by omega)]
        exact ⟨F, fun f hf => by simp [Range.next, hF f hf]⟩
      | panic => simp at h
      | running => simp at h

/-! ### What becomes of a selection -/

/-- **C79**: a selection from occurrences that come to an end or to a panic comes to its end or to a panic. -/
theorem C79_fate {s s' : α} {xs : List α} (h : Run s xs s') (he : Exhausted s' ∨ Panics s') (a : Date) (b : Option Date) :
    ∃ ys, Selects ⟨s, true, false, a, b⟩ ys ∨ SelectsThenPanics ⟨s, true, false, a, b⟩ ys := by
  rcases first_failing (fun x => decide (before? a x = some true)) xs with hall | ⟨zs, y, l, rfl, hzs, hy⟩
  · -- all start before `a`
    refine ⟨[], he.imp (fun he => selects_iff.2 ⟨xs, [], s', by simpa using h, by simpa using hall, by simp, by simp, .inl ⟨rfl, he⟩⟩)
      fun he => selects_panics_iff.2 ⟨xs, [], s', by simpa using h, by simpa using hall, by simp, by simp, .inl ⟨rfl, he⟩⟩⟩
  · replace hzs : ∀ z ∈ zs, before? a z = some true := by simpa using hzs
    replace hy : before? a y ≠ some true := by simpa using hy
    cases hya : before? a y with
    | none =>
      -- the comparison with `a` panics
      rw [show zs ++ y :: l = (zs ++ [] ++ [y]) ++ l by simp] at h
      obtain ⟨s1, h1, -⟩ := Run.split h
      exact ⟨[], .inr (selects_panics_iff.2 ⟨zs, [y], s1, h1, hzs, by simp, by simp, .inr ⟨y, rfl, .inl ⟨rfl, hya⟩⟩⟩)⟩
    | some v => cases v with
      | true => exact absurd hya hy
      | false =>
        rcases first_failing (fun x => decide (stop? b x = some true)) (y :: l) with hall | ⟨l1, x, l2, hl, hl1, hx⟩
        · replace hall : ∀ x ∈ y :: l, stop? b x = some true := by simpa using hall
          refine ⟨y :: l, he.imp (fun he => selects_iff.2 ⟨zs, [], s', by simpa using h, hzs, by simpa using hya, hall, .inl ⟨rfl, he⟩⟩)
            fun he => selects_panics_iff.2 ⟨zs, [], s', by simpa using h, hzs, by simpa using hya, hall, .inl ⟨rfl, he⟩⟩⟩
        · replace hl1 : ∀ x ∈ l1, stop? b x = some true := by simpa using hl1
          replace hx : stop? b x ≠ some true := by simpa using hx
          rw [hl, show zs ++ (l1 ++ x :: l2) = (zs ++ l1 ++ [x]) ++ l2 by simp] at h
          obtain ⟨s1, h1, -⟩ := Run.split h
          have hhead : ∀ z, (l1 ++ [x]).head? = some z → before? a z = some false := by
            intro z hz
            have : (l1 ++ x :: l2).head? = (l1 ++ [x]).head? := by cases l1 <;> rfl
            rw [← this, ← hl] at hz
            cases hz
            exact hya
          cases hxb : stop? b x with
          | none =>
            refine ⟨l1, .inr (selects_panics_iff.2 ⟨zs, [x], s1, h1, hzs, fun z hz => hhead z ?_, hl1, .inr ⟨x, rfl, .inr ⟨fun h0 => ?_, hxb⟩⟩⟩)⟩
            · cases l1 with
              | nil => cases hz
              | cons c l1 => exact hz
            · subst h0; exact hhead x rfl
          | some v => cases v with
            | true => exact absurd hxb hx
            | false => exact ⟨l1, .inl (selects_iff.2 ⟨zs, [x], s1, h1, hzs, hhead, hl1, .inr ⟨x, rfl, hxb⟩⟩)⟩

/-- **C79**: with a positive interval a selection comes to its end or to a panic: no iteration over it goes on for ever and every call on
it returns. -/
theorem C79_positive {s : α} {d : Date} {r : Recur} (hd : Recurring.dtstart s = some d) (hr : Recurring.rrule s = some r)
    (hi : 1 ≤ r.interval) (hi2 : r.interval ≤ 255) (hb : Bounded r d) (a b : Date) :
    (∃ ys, Selects (between s a b) ys ∨ SelectsThenPanics (between s a b) ys) ∧ ∃ ys, Selects (after s a) ys ∨ SelectsThenPanics (after s a) ys := by
  obtain ⟨xs, s', h, he⟩ := C73_fate hd hr hi hi2 hb
  exact ⟨C79_fate h he a (some b), C79_fate h he a none⟩

/-- **C79**: without `COUNT` and `UNTIL`, `after(a)` never returns `None`: it panics in the end. -/
theorem C79_after_endless {s : α} {d : Date} {r : Recur} (hd : Recurring.dtstart s = some d) (hr : Recurring.rrule s = some r)
    (hi : 1 ≤ r.interval) (hi2 : r.interval ≤ 255) (hb : Bounded r d) (hn : r.count = none) (hu : r.until_ = none) (a : Date) :
    ∃ ys, SelectsThenPanics (after s a) ys := by
  obtain ⟨xs, s', h, he⟩ := C73_endless hd hr hi hi2 hb hn hu
  obtain ⟨ys, h' | h'⟩ := C79_fate h (.inr he) a none
  · obtain ⟨zs, s1, h1, h2, -⟩ := C79_after.1 h'
    exact absurd h2 (C51_endless hd hr hn hu h1)
  · exact ⟨ys, h'⟩

/-- A call on a selection returns only if the occurrences come to an end or a panic, or one does not start before `a`. -/
theorem range_forever {s : α} {a : Date} {b : Option Date}
    (h : ∀ n, ∃ xs s', Run s xs s' ∧ xs.length = n ∧ ∀ x ∈ xs, before? a x = some true) : RangeRunsForever ⟨s, true, false, a, b⟩ := by
  have stuck : ∀ fuel, (skipWhile a fuel true s).1 = .running := by
    intro fuel
    have strong : ∀ fuel (t : α), (∀ n, ∃ xs s', Run t xs s' ∧ xs.length = n ∧ ∀ x ∈ xs, before? a x = some true) →
        (skipWhile a fuel true t).1 = .running := by
      intro fuel
      induction fuel with
      | zero => intro t _; rfl
      | succ fuel ih =>
        intro t ht
        obtain ⟨xs, s1, hrun, hlen, hbef⟩ := ht 1
        obtain ⟨x, rfl⟩ := List.length_eq_one_iff.1 hlen
        have hx := hbef x (List.mem_singleton.2 rfl)
        cases hrun with
        | cons hy hnil =>
        cases hnil
        obtain ⟨F, hF⟩ := Returns.eventually hy
        rw [skipWhile_succ]
        by_cases hr : (next (fuel + 1) t).1 = .running
        · generalize next (fuel + 1) t = p at hr
          obtain ⟨o, q⟩ := p
          simp only at hr
          subst hr
          rfl
        · have e : next (fuel + 1) t = (.item x, s1) := by
            rw [← next_mono hr (Nat.le_max_left (fuel + 1) F)]
            exact hF _ (Nat.le_max_right _ _)
          rw [e]
          simp only [if_true, hx]
          apply ih
          intro n
          obtain ⟨ys, s2, hr2, hl2, hb2⟩ := ht (n + 1)
          cases hr2 with
          | nil => cases hl2
          | cons h3 h4 =>
            obtain ⟨h5, h6⟩ : Outcome.item _ = Outcome.item _ ∧ _ = s1 := by
              obtain ⟨G, hG⟩ := Returns.eventually h3
              have e1 := hF (max F G) (Nat.le_max_left ..)
              have e2 := hG (max F G) (Nat.le_max_right ..)
              rw [e2] at e1
              exact ⟨congrArg Prod.fst e1, congrArg Prod.snd e1⟩
            subst h6
            exact ⟨_, s2, h4, by simpa using hl2, fun z hz => hb2 z (List.mem_cons_of_mem _ hz)⟩
    exact strong fuel s h
  intro fuel
  simp only [Range.next, Bool.false_eq_true, if_false]
  have := stuck fuel
  generalize skipWhile a fuel true s = p at this
  obtain ⟨o, q, t⟩ := p
  simp only at this
  subst this
  rfl

/-- **C79**: with interval 0 (the default) and a start before `a`, a call on `between(a, b)` or `after(a)` never returns. -/
theorem C79_interval_zero {s : α} {d : Date} {r : Recur} (hd : Recurring.dtstart s = some d) (hr : Recurring.rrule s = some r) (h0 : r.interval = 0)
    (hs : ∀ a, a = d ∨ Recurring.dtend s = some a →
      (∃ x, a = .date x ∧ RealDate x ∧ InRange x ∧ (r.freq = .daily ∨ r.freq = .weekly ∨ r.freq = .monthly ∨ r.freq = .yearly)) ∨
      (∃ t, a = .dateTime (.naive t) ∧ RealTime t) ∨ ∃ t u, a = .dateTime (.loc t) ∧ RealTime t ∧ secondsOf r.freq = some u)
    (hx : d ∉ Recurring.exdate s) (hu : WithinUntil r d) (hn : r.count = none) {a b : Date} (hd0 : OnCalendar d) (ha0 : OnCalendar a)
    (ha : d.lt a = true) :
    RangeRunsForever (between s a b) ∧ RangeRunsForever (after s a) := by
  have h : ∀ n, ∃ xs s', Run s xs s' ∧ xs.length = n ∧ ∀ x ∈ xs, before? a x = some true := by
    intro n
    obtain ⟨xs, s', h1, h2⟩ := C73_interval_zero hd hr h0 hs hx hu n (by rw [hn]; simp)
    refine ⟨xs, s', h1, ?_, fun x hx => ?_⟩
    · have := congrArg List.length h2
      simpa [starts] using this
    · have hm : Recurring.dtstart x ∈ starts xs := List.mem_map_of_mem hx
      rw [h2] at hm
      exact before?_iff.2 ⟨d, List.eq_of_mem_replicate hm, hd0, ha0, ha.symm⟩
  exact ⟨range_forever h, range_forever h⟩

/-- **C79**: `at` of a local time is `between` that instant and the instant 24 hours later (of a leap second: of the second before it). -/
theorem C79_at_local (s : α) {t : NaiveDateTime} (ht : RealTime t) :
    (InRange (tomorrow t.date) → at_ s (.dateTime (.loc t)) =
      some (between s (.dateTime (.loc t)) (.dateTime (.loc { withoutLeapSecond t with date := tomorrow t.date })))) ∧
    (¬ InRange (tomorrow t.date) → at_ s (.dateTime (.loc t)) = none) := by
  have h := C63_at_time s ht
  have e1 : at_ s (.dateTime (.naive t)) = (t.add ⟨86400000000000⟩).map fun u => between s (.dateTime (.naive t)) (.dateTime (.naive u)) := by
    unfold at_
    rw [one_day]
    simp only [bind, Option.bind, Date.addDur, DateTime.addDur]
    cases t.add ⟨86400000000000⟩ <;> rfl
  have e2 : at_ s (.dateTime (.loc t)) = (t.add ⟨86400000000000⟩).map fun u => between s (.dateTime (.loc t)) (.dateTime (.loc u)) := by
    unfold at_
    rw [one_day]
    simp only [bind, Option.bind, Date.addDur, DateTime.addDur]
    cases t.add ⟨86400000000000⟩ <;> rfl
  rw [e1] at h
  rw [e2]
  cases ha : t.add ⟨86400000000000⟩ with
  | none =>
    rw [ha] at h
    exact ⟨fun hi => absurd (h.1 hi) (by simp), fun _ => rfl⟩
  | some u =>
    rw [ha] at h
    refine ⟨fun hi => ?_, fun hi => absurd (h.2 hi) (by simp)⟩
    have := h.1 hi
    simp only [Option.map_some, between, Option.some.injEq, Range.mk.injEq, Date.dateTime.injEq, DateTime.naive.injEq, true_and] at this
    simp only [Option.map_some, this]

end

/-! ## Examples -/

section
attribute [local instance] utc

/-- The event yields 1, 5 and 7 January and ends; what is selected from it. -/
theorem threeTimes_on_calendar : AllOnCalendar (threeTimes 1 3) := C79_on_calendar (d := jan 1) rfl (by rintro u ⟨⟩)
example : Selects (between (threeTimes 1 3) (jan 2) (jan 6)) [threeTimes 5 2] :=
  (C79_between_comparable threeTimes_on_calendar (by exact trivial) (by exact trivial)).2 ⟨_, _, threeTimes_run, rfl, .inr (by decide +kernel)⟩
example : Selects (after (threeTimes 1 3) (jan 2)) [threeTimes 5 2, threeTimes 7 1] :=
  (C79_after_comparable threeTimes_on_calendar (by exact trivial)).2 ⟨_, _, threeTimes_run, ⟨by simp, 3, rfl⟩, rfl⟩

/-- Two days before the end of the calendar: both selections panic after one occurrence, unless the range ends before. -/
def lastDays (d : Nat) : VEvent := sampleEvent (.date ⟨262142, 12, d⟩) none (everyDays 1) []
theorem lastDays_on_calendar : AllOnCalendar (lastDays 29) := C79_on_calendar (d := .date ⟨262142, 12, 29⟩) rfl (by rintro u ⟨⟩)
theorem lastDays_run : Run (lastDays 29) [lastDays 29, lastDays 30] (lastDays 31) := .cons ⟨by simp, 2, rfl⟩ (.cons ⟨by simp, 2, rfl⟩ .nil)
example : SelectsThenPanics (after (lastDays 29) (.date ⟨262142, 12, 30⟩)) [lastDays 30] :=
  (C79_after_panics_comparable lastDays_on_calendar (by exact trivial)).2 ⟨_, _, lastDays_run, ⟨by simp, 2, rfl⟩, rfl⟩
example : SelectsThenPanics (between (lastDays 29) (.date ⟨262142, 12, 30⟩) (.date ⟨262142, 12, 31⟩)) [lastDays 30] :=
  (C79_between_panics_comparable lastDays_on_calendar (by exact trivial) (by exact trivial)).2 ⟨_, _, lastDays_run, ⟨by simp, 2, rfl⟩, rfl, by simp [startsBefore]; decide +kernel⟩
example : Selects (between (lastDays 29) (.date ⟨262142, 12, 29⟩) (.date ⟨262142, 12, 30⟩)) [lastDays 29] :=
  (C79_between_comparable lastDays_on_calendar (by exact trivial) (by exact trivial)).2 ⟨_, _, lastDays_run, rfl, .inr (by decide +kernel)⟩

/-- Interval 0, from 1 January: `after` 2 January does not return. -/
example : RangeRunsForever (after (sampleEvent (jan 1) none (everyDays 0) []) (jan 2)) :=
  (C79_interval_zero (d := jan 1) (b := jan 3) rfl rfl rfl
    (by rintro a (rfl | h)
        · exact .inl ⟨_, rfl, by decide, by decide, .inl rfl⟩
        · cases h) (by simp [sampleEvent, Recurring.exdate])
    (by intro u hu; cases hu) rfl (by exact trivial) (by exact trivial) (by decide)).2
example : ∃ r, at_ (threeTimes 1 3) (.dateTime (.loc ⟨⟨2024, 1, 1⟩, 3600, 0⟩)) = some r :=
  ⟨_, (C79_at_local _ ⟨⟨by decide, by decide, by decide, by decide⟩, ⟨by decide, by decide⟩, by decide, by decide⟩).1 (by decide)⟩

end

section
attribute [local instance] summerZone

/-- Half an hour before the end of the last day of UTC the clocks show a day that cannot be represented: the occurrence is yielded, but the
comparison in `after` and in `between` panics. -/
def lastHour : VEvent := sampleEvent (.dateTime (.loc ⟨⟨262142, 12, 31⟩, 84600, 0⟩)) none { Recur.default with freq := .secondly, interval := 1 } []
example : SelectsThenPanics (after lastHour (jan 1)) [] ∧ SelectsThenPanics (between lastHour (jan 1) (jan 2)) [] :=
  ⟨⟨_, .nil, 3, _, rfl⟩, ⟨_, .nil, 3, _, rfl⟩⟩
example : ∃ s', Yields lastHour lastHour s' := ⟨_, by simp, 2, rfl⟩
example : Incomparable (jan 1) lastHour := ⟨_, rfl, fun h => absurd h.1.2 (by decide +kernel)⟩
/-- Where every comparison is possible, in the same zone. -/
example : StartsBefore (jan 2) (sampleEvent (.dateTime (.loc ⟨⟨2024, 1, 1⟩, 3600, 0⟩)) none (everyDays 1) []) ∧
    StartsFrom (jan 1) (sampleEvent (.dateTime (.loc ⟨⟨2024, 1, 1⟩, 3600, 0⟩)) none (everyDays 1) []) :=
  ⟨⟨_, rfl, by show InRange _; decide +kernel, trivial, by decide +kernel⟩, ⟨_, rfl, by show InRange _; decide +kernel, trivial, by decide +kernel⟩⟩

end

end Ikal
