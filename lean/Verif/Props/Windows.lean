import Verif.Spec.Windows
import Verif.Props.Select

/-!
# Consecutive selections (C88)

Paging through the occurrences of a component: what `between(a, b)` and `between(b, c)` have to do with `between(a, c)`.
-/

namespace Ikal

open Spec

set_option linter.unusedSectionVars false

section
variable [Platform] {α : Type} [Recurring α] [LawfulRecurring α]

/-! ## Cutting a run in two -/

/-- `l` is cut out of the occurrences: some satisfying `A` come before, then `l`, which satisfies `C` and begins with one satisfying `A'`, and then
there are no more or one satisfying `C'`. -/
def Cut (s : α) (A A' C C' : α → Prop) (l : List α) : Prop :=
  ∃ zs rest s', Run s (zs ++ l ++ rest) s' ∧ (∀ z ∈ zs, A z) ∧ (∀ y, (l ++ rest).head? = some y → A' y) ∧ (∀ y ∈ l, C y) ∧
    (rest = [] ∧ Exhausted s' ∨ ∃ x, rest = [x] ∧ C' x)

theorem exhausted_run {s s' x : α} {xs : List α} (h : Exhausted s) (hr : Run s (x :: xs) s') : False := by
  cases hr with
  | cons h1 h2 => exact absurd (Returns.det h h1).1 (by simp)

theorem run_head {s s1 s2 x y : α} {xs ys : List α} (h1 : Run s (x :: xs) s1) (h2 : Run s (y :: ys) s2) : x = y := by
  cases h1 with
  | cons a _ => cases h2 with
    | cons b _ => have := (Returns.det a b).1; cases this; rfl

theorem Cut.join {s : α} {A A' B B' C C' : α → Prop} (hAB : ∀ x, A x → B x) (hBA : ∀ x, B' x → A' x) (hBC : ∀ x, B x → C x)
    (hne : ∀ x, B x → ¬ B' x) {xs ys : List α} (h1 : Cut s A A' B B' xs) (h2 : Cut s B B' C C' ys) : Cut s A A' C C' (xs ++ ys) := by
  obtain ⟨zs, rest, s1, r1, a1, b1, c1, d1⟩ := h1
  obtain ⟨zs2, rest2, s2, r2, a2, b2, c2, d2⟩ := h2
  have hall : ∀ x ∈ zs ++ xs, B x := by
    intro x hx
    rcases List.mem_append.1 hx with h | h
    · exact hAB x (a1 x h)
    · exact c1 x h
  have key : zs2 = zs ++ xs := by
    obtain ⟨t, q1, q2⟩ := Run.split r1
    rw [List.append_assoc] at r2
    obtain ⟨t2, p1, p2⟩ := Run.split r2
    rcases Run.compare q1 p1 with ⟨w, hw, rw1⟩ | ⟨w, hw, rw1⟩
    · cases w with
      | nil => rw [hw, List.append_nil]
      | cons x w =>
        exfalso
        have hx : B x := a2 x (by rw [hw]; simp)
        rcases d1 with ⟨rfl, he⟩ | ⟨y, rfl, hy⟩
        · cases q2; exact exhausted_run he rw1
        · cases run_head rw1 q2; exact hne x hx hy
    · cases w with
      | nil => rw [hw, List.append_nil]
      | cons x w =>
        exfalso
        have hx : B x := hall x (by rw [hw]; simp)
        cases hl : ys ++ rest2 with
        | nil =>
          rw [hl] at p2; cases p2
          obtain ⟨-, h0⟩ := List.append_eq_nil_iff.1 hl
          rcases d2 with ⟨-, he⟩ | ⟨y, hy, -⟩
          · exact exhausted_run he rw1
          · rw [hy] at h0; cases h0
        | cons y l =>
          rw [hl] at p2
          cases run_head rw1 p2
          exact hne x hx (b2 x (by rw [hl]; rfl))
  refine ⟨zs, rest2, s2, by rw [key] at r2; simpa only [List.append_assoc] using r2, a1, ?_, ?_, d2⟩
  · intro y hy
    cases xs with
    | nil => exact hBA y (b2 y (by simpa using hy))
    | cons x xs => exact b1 y (by simpa using hy)
  · intro y hy
    rcases List.mem_append.1 hy with h | h
    · exact hBC y (c1 y h)
    · exact c2 y h

theorem split_at (B : α → Prop) (l : List α) : ∃ xs ys, l = xs ++ ys ∧ (∀ x ∈ xs, B x) ∧ ∀ y, ys.head? = some y → ¬ B y := by
  induction l with
  | nil => exact ⟨[], [], rfl, by simp, by simp⟩
  | cons x l ih =>
    by_cases h : B x
    · obtain ⟨xs, ys, rfl, h1, h2⟩ := ih
      exact ⟨x :: xs, ys, rfl, by simpa [h] using h1, h2⟩
    · exact ⟨[], x :: l, rfl, by simp, by simpa using h⟩

theorem Cut.split {s : α} {A A' B B' C C' : α → Prop} (hAB : ∀ x, A x → B x) (hCB : ∀ x, C' x → B' x)
    (hor : ∀ x, (∃ xs s', Run s xs s' ∧ x ∈ xs) → C x → B x ∨ B' x) {l : List α} (h : Cut s A A' C C' l) :
    ∃ xs ys, l = xs ++ ys ∧ Cut s A A' B B' xs ∧ Cut s B B' C C' ys := by
  obtain ⟨zs, rest, s', r, a, b, c, d⟩ := h
  obtain ⟨xs, ys, rfl, hx, hy⟩ := split_at B l
  have hhead : ∀ y, (ys ++ rest).head? = some y → B' y := by
    intro y h
    cases ys with
    | nil =>
      rcases d with ⟨rfl, -⟩ | ⟨x, rfl, hx⟩
      · cases h
      · simp only [List.nil_append, List.head?_cons, Option.some.injEq] at h
        exact h ▸ hCB x hx
    | cons x ys =>
      simp only [List.cons_append, List.head?_cons, Option.some.injEq] at h
      subst h
      exact (hor x ⟨_, _, r, by simp⟩ (c x (by simp))).resolve_left (hy x rfl)
  refine ⟨xs, ys, rfl, ?_, zs ++ xs, rest, s', by simpa only [List.append_assoc] using r, ?_, hhead, fun y h => c y (by simp [h]), d⟩
  · cases hl : ys ++ rest with
    | nil =>
      obtain ⟨rfl, rfl⟩ := List.append_eq_nil_iff.1 hl
      refine ⟨zs, [], s', by simpa using r, a, ?_, hx, .inl ⟨rfl, ?_⟩⟩
      · intro y h; exact b y (by simpa using h)
      · rcases d with ⟨-, he⟩ | ⟨x, h, -⟩
        · exact he
        · cases h
    | cons y w =>
      have r' : Run s ((zs ++ xs ++ [y]) ++ w) s' := by
        have : zs ++ (xs ++ ys) ++ rest = (zs ++ xs ++ [y]) ++ w := by
          rw [List.append_assoc, List.append_assoc, hl]; simp
        rw [← this]; exact r
      obtain ⟨t, r1, -⟩ := Run.split r'
      refine ⟨zs, [y], t, r1, a, ?_, hx, .inr ⟨y, rfl, hhead y (by rw [hl]; rfl)⟩⟩
      intro z hz
      refine b z ?_
      rw [List.append_assoc, hl]
      cases xs with
      | nil => exact hz
      | cons x xs => exact hz
  · intro z hz
    rcases List.mem_append.1 hz with h | h
    · exact hAB z (a z h)
    · exact hx z h

theorem between_cut {s : α} {a b : Date} {l : List α} :
    Selects (between s a b) l ↔ Cut s (StartsBefore a) (StartsFrom a) (StartsBefore b) (StartsFrom b) l := C79_between

theorem after_cut {s : α} {a : Date} {l : List α} :
    Selects (after s a) l ↔ Cut s (StartsBefore a) (StartsFrom a) (fun _ => True) (fun _ => False) l := by
  rw [C79_after]
  constructor
  · rintro ⟨zs, s', r, e, h1, h2⟩
    exact ⟨zs, [], s', by simpa using r, h1, by simpa using h2, fun _ _ => trivial, .inl ⟨rfl, e⟩⟩
  · rintro ⟨zs, rest, s', r, h1, h2, -, ⟨rfl, e⟩ | ⟨x, -, h⟩⟩
    · exact ⟨zs, s', by simpa using r, e, h1, by simpa using h2⟩
    · exact h.elim

/-! ## Bounds in order -/

theorem before_mono {a b d : Date} (h : InOrder a b) (hd : d.lt a = true) : d.lt b = true := by
  obtain ⟨hk, -, -, hn⟩ := h
  have e : ∀ x y : Date, x.lt y = true ↔ x.cmp y = .lt := fun x y => by unfold Date.lt; simp
  rw [e, Date.lt_meaning] at hd hn ⊢
  cases a <;> cases b <;> cases d <;> simp only [Date.hasTime, reduceCtorEq] at hk <;>
    simp only [Date.dateNaive, DateTime.dateNaive, Earlier, EarlierDay] at * <;> omega

theorem Spec.InOrder.before {a b : Date} (h : InOrder a b) (x : α) (hx : StartsBefore a x) : StartsBefore b x := by
  obtain ⟨d, h1, h2, -, h4⟩ := hx
  exact ⟨d, h1, h2, h.2.2.1, before_mono h h4⟩

theorem Spec.InOrder.from {a b : Date} (h : InOrder a b) (x : α) (hx : StartsFrom b x) : StartsFrom a x := by
  obtain ⟨d, h1, h2, -, h4⟩ := hx
  refine ⟨d, h1, h2, h.2.1, ?_⟩
  cases hc : d.lt a with
  | false => rfl
  | true => rw [before_mono h hc] at h4; cases h4

theorem before_not_from {a : Date} (x : α) (h1 : StartsBefore a x) : ¬ StartsFrom a x := by
  rintro ⟨e, h2, -, -, h4⟩
  obtain ⟨d, h3, -, -, h5⟩ := h1
  rw [h2] at h3; cases h3
  rw [h4] at h5; cases h5

theorem Spec.InOrder.trans {a b c : Date} (h1 : InOrder a b) (h2 : InOrder b c) : InOrder a c :=
  ⟨h1.1.trans h2.1, h1.2.1, h2.2.2.1, fun h => by
    have hk := h1.1
    have := h1.2.2.2
    exact this (by
      have e : ∀ x y : Date, x.lt y = true ↔ x.cmp y = .lt := fun x y => by unfold Date.lt; simp
      have hk2 := h2.1
      have hn := h2.2.2.2
      rw [e, Date.lt_meaning] at *
      cases a <;> cases b <;> cases c <;> simp only [Date.hasTime, reduceCtorEq] at hk hk2 <;>
        simp only [Date.dateNaive, Earlier, EarlierDay] at * <;> omega)⟩

/-! ## C88 -/

/-- **C88**: if `a`, `b` and `c` are all days or all times and in order, then `between(a, c)` yields exactly what `between(a, b)` yields followed by
what `between(b, c)` yields: nothing is lost at the boundary and nothing comes twice, in whatever order the occurrences are. -/
theorem C88_adjacent {s : α} {a b c : Date} (hab : InOrder a b) (hbc : InOrder b c) (l : List α) :
    Selects (between s a c) l ↔ ∃ xs ys, l = xs ++ ys ∧ Selects (between s a b) xs ∧ Selects (between s b c) ys := by
  simp only [between_cut]
  constructor
  · refine Cut.split hab.before hbc.from ?_
    rintro x - ⟨d, h1, h2, h3, h4⟩
    cases hb : d.lt b with
    | true => exact .inl ⟨d, h1, h2, hbc.2.1, hb⟩
    | false => exact .inr ⟨d, h1, h2, hbc.2.1, hb⟩
  · rintro ⟨xs, ys, rfl, h1, h2⟩
    exact Cut.join hab.before hab.from hbc.before before_not_from h1 h2

/-- **C88**: likewise `after(a)` and `between(a, b)` followed by `after(b)`, if all occurrences are on days in the range of years. -/
theorem C88_after {s : α} (hon : AllOnCalendar s) {a b : Date} (hab : InOrder a b) (l : List α) :
    Selects (after s a) l ↔ ∃ xs ys, l = xs ++ ys ∧ Selects (between s a b) xs ∧ Selects (after s b) ys := by
  simp only [between_cut, after_cut]
  constructor
  · refine Cut.split hab.before (fun _ => False.elim) ?_
    rintro x ⟨xs, s', hr, hx⟩ -
    obtain ⟨d, hd⟩ := run_start hr hx
    have h2 := hon xs s' hr x hx d hd
    cases hb : d.lt b with
    | true => exact .inl ⟨d, hd, h2, hab.2.2.1, hb⟩
    | false => exact .inr ⟨d, hd, h2, hab.2.2.1, hb⟩
  · rintro ⟨xs, ys, rfl, h1, h2⟩
    exact Cut.join hab.before hab.from (fun _ _ => trivial) before_not_from h1 h2

/-- **C88**: a window within a window yields a contiguous part of what the larger one yields, and comes to its end if the larger one does. -/
theorem C88_within {s : α} {a a' b' b : Date} (h1 : InOrder a a') (h2 : InOrder a' b') (h3 : InOrder b' b) {l : List α}
    (h : Selects (between s a b) l) : ∃ l', Selects (between s a' b') l' ∧ l' <:+: l := by
  obtain ⟨xs, m, rfl, -, hm⟩ := (C88_adjacent h1 (h2.trans h3) l).1 h
  obtain ⟨ys, zs, rfl, hy, -⟩ := (C88_adjacent h2 h3 m).1 hm
  exact ⟨ys, hy, xs, zs, by simp⟩

/-- **C88**: a window that ends where it begins, or before, is empty. -/
theorem C88_empty {s : α} {a b : Date} (h : InOrder b a) {l : List α} (hs : Selects (between s a b) l) : l = [] := by
  obtain ⟨zs, rest, s', r, h1, h2, h3, -⟩ := C79_between.1 hs
  cases l with
  | nil => rfl
  | cons x l =>
    exact absurd (h2 x rfl) (before_not_from x (h.before x (h3 x (by simp))))

/-- **C88**: paging: cut the time from `a` to the last of some bounds at these bounds; the pages, one after the other, are what `between` yields
for the whole. -/
theorem C88_pages {s : α} {a b : Date} {bs : List Date} (h : AllInOrder a (bs ++ [b])) (l : List α) :
    Selects (between s a b) l ↔ ∃ ps, Pages s a (bs ++ [b]) ps ∧ l = ps.flatten := by
  induction bs generalizing a l with
  | nil =>
    simp only [List.nil_append, Pages]
    constructor
    · intro h; exact ⟨[l], ⟨l, [], rfl, h, rfl⟩, by simp⟩
    · rintro ⟨ps, ⟨p, qs, rfl, hp, rfl⟩, rfl⟩; simpa using hp
  | cons c bs ih =>
    obtain ⟨hac, hrest⟩ := h
    have hcb : InOrder c b := by
      clear ih
      induction bs generalizing c a with
      | nil => exact hrest.1
      | cons d bs ih2 => exact hrest.1.trans (ih2 _ hrest.1 hrest.2)
    rw [C88_adjacent hac hcb]
    simp only [List.cons_append, Pages]
    constructor
    · rintro ⟨xs, ys, rfl, hx, hy⟩
      obtain ⟨qs, hq, rfl⟩ := (ih hrest ys).1 hy
      exact ⟨_, ⟨xs, qs, rfl, hx, hq⟩, by simp⟩
    · rintro ⟨ps, ⟨p, qs, rfl, hp, hq⟩, rfl⟩
      exact ⟨p, _, by simp, hp, (ih hrest _).2 ⟨qs, hq, rfl⟩⟩

theorem tomorrow_later {d : NaiveDate} (hd : RealDate d) : RealDate (tomorrow d) ∧ EarlierDay d (tomorrow d) := by
  have h := (daysLater_iff hd 1).1 rfl
  refine ⟨h.1, ?_⟩
  obtain ⟨y, m, k⟩ := d
  obtain ⟨h1, h2, h3, h4⟩ := hd
  simp only at h1 h2 h3 h4
  unfold tomorrow
  simp only
  by_cases c1 : k < monthLength y m
  · rw [if_pos c1]; exact .inr ⟨rfl, .inr ⟨rfl, Nat.lt_succ_self _⟩⟩
  · rw [if_neg c1]
    by_cases c2 : m < 12
    · rw [if_pos c2]; exact .inr ⟨rfl, .inl (Nat.lt_succ_self _)⟩
    · rw [if_neg c2]; exact .inl (by show y < y + 1; omega)

theorem inOrder_tomorrow {d : NaiveDate} (hd : RealDate d) : InOrder (.date d) (.date (tomorrow d)) := by
  refine ⟨rfl, trivial, trivial, ?_⟩
  have h := (tomorrow_later hd).2
  intro hc
  have hc2 : (Date.date (tomorrow d)).cmp (.date d) = .lt := by unfold Date.lt at hc; simpa using hc
  rw [Date.lt_meaning] at hc2
  simp only [Date.dateNaive, EarlierDay] at hc2 h
  omega

theorem daysLater_real {d : NaiveDate} (hd : RealDate d) (n : Nat) : RealDate (daysLater n d) := ((daysLater_iff hd n).1 rfl).1

theorem inOrder_days {d : NaiveDate} (hd : RealDate d) (n : Nat) : InOrder (.date d) (.date (daysLater n d)) := by
  induction n generalizing d with
  | zero => exact ⟨rfl, trivial, trivial, by
      intro hc
      have hc2 : (Date.date d).cmp (.date d) = .lt := by exact of_decide_eq_true hc
      rw [(Date.strict_order (.date d) (.date d) (.date d)).1] at hc2; cases hc2⟩
  | succ n ih => exact (inOrder_tomorrow hd).trans (ih (tomorrow_later hd).1)

theorem year_le_daysLater {d : NaiveDate} (hd : RealDate d) (n : Nat) : d.year ≤ (daysLater n d).year := by
  induction n generalizing d with
  | zero => exact Int.le_refl _
  | succ n ih =>
    have h1 := ih (tomorrow_later hd).1
    have h2 := (tomorrow_later hd).2
    have : d.year ≤ (tomorrow d).year := by unfold EarlierDay at h2; omega
    exact Int.le_trans this h1

/-- **C88**: day by day: what `at` yields for the days from `d` on, one day after the other, is what `between` yields for all these days. -/
theorem C88_days {s : α} {d : NaiveDate} (hd : RealDate d) (hr : InRange d) {n : Nat} (hn : 1 ≤ n) (hlast : InRange (daysLater n d)) (l : List α) :
    Selects (between s (.date d) (.date (daysLater n d))) l ↔
      ∃ ps : List (List α), ps.length = n ∧ l = ps.flatten ∧
        ∀ k p, ps[k]? = some p → ∃ r, at_ s (.date (daysLater k d)) = some r ∧ Selects r p := by
  induction n generalizing d l with
  | zero => omega
  | succ n ih =>
    have ht := (tomorrow_later hd).1
    have hry : d.year ≤ (tomorrow d).year := year_le_daysLater hd 1
    have hyl : (tomorrow d).year ≤ (daysLater n (tomorrow d)).year := year_le_daysLater ht n
    have hrt : InRange (tomorrow d) := ⟨Int.le_trans hr.1 hry, Int.le_trans hyl hlast.2⟩
    have hat := (C63_at_day s hd hr).1 hrt
    cases n with
    | zero =>
      simp only [daysLater]
      constructor
      · intro h
        refine ⟨[l], rfl, by simp, ?_⟩
        intro k p hk
        cases k with
        | zero => cases hk; exact ⟨_, hat, h⟩
        | succ k => simp at hk
      · rintro ⟨ps, hlen, rfl, h⟩
        obtain ⟨p, rfl⟩ := List.length_eq_one_iff.1 hlen
        obtain ⟨r, h1, h2⟩ := h 0 p rfl
        simp only [daysLater] at h1
        rw [hat] at h1; cases h1
        simpa using h2
    | succ n =>
      show Selects (between s (.date d) (.date (daysLater (n + 1) (tomorrow d)))) l ↔ _
      rw [C88_adjacent (inOrder_tomorrow hd) (inOrder_days ht (n + 1))]
      constructor
      · rintro ⟨xs, ys, rfl, hx, hy⟩
        obtain ⟨ps, hlen, rfl, h⟩ := (ih ht hrt (by omega) hlast ys).1 hy
        refine ⟨xs :: ps, by simp [hlen], by simp, ?_⟩
        intro k p hk
        cases k with
        | zero => cases hk; exact ⟨_, hat, hx⟩
        | succ k => exact h k p (by simpa using hk)
      · rintro ⟨ps, hlen, rfl, h⟩
        cases ps with
        | nil => cases hlen
        | cons p ps =>
          obtain ⟨r, h1, h2⟩ := h 0 p rfl
          simp only [daysLater] at h1
          rw [hat] at h1; cases h1
          refine ⟨p, ps.flatten, by simp, h2, (ih ht hrt (by omega) hlast _).2 ⟨ps, by simpa using hlen, rfl, ?_⟩⟩
          intro k q hk
          exact h (k + 1) q (by simpa using hk)

end

/-! ## Examples and the limit -/

section
attribute [local instance] utc

/-- The event yields 1, 5 and 7 January; two pages and the whole. -/
example : Selects (between (threeTimes 1 3) (jan 1) (jan 7)) ([threeTimes 1 3] ++ [threeTimes 5 2]) :=
  (C88_adjacent (b := jan 5) (by unfold InOrder; exact ⟨rfl, trivial, trivial, by decide⟩) (by unfold InOrder; exact ⟨rfl, trivial, trivial, by decide⟩) _).2
    ⟨_, _, rfl,
      (C79_between_comparable threeTimes_on_calendar (by exact trivial) (by exact trivial)).2 ⟨_, _, threeTimes_run, rfl, .inr (by decide +kernel)⟩,
      (C79_between_comparable threeTimes_on_calendar (by exact trivial) (by exact trivial)).2 ⟨_, _, threeTimes_run, rfl, .inr (by decide +kernel)⟩⟩

example : AllInOrder (jan 1) [jan 2, jan 5, jan 7] := by
  refine ⟨⟨rfl, trivial, trivial, by decide⟩, ⟨rfl, trivial, trivial, by decide⟩, ⟨rfl, trivial, trivial, by decide⟩, trivial⟩

/-- Two o'clock on 1 January 2024. -/
def twoOClock : Date := .dateTime (.naive ⟨⟨2024, 1, 1⟩, 7200, 0⟩)
/-- An event every hour from one o'clock, three times. -/
def hourlyEvent (h n : Nat) : VEvent :=
  sampleEvent (.dateTime (.naive ⟨⟨2024, 1, 1⟩, 3600 * h, 0⟩)) none { Recur.default with freq := .hourly, interval := 1, count := some n } []

theorem hourlyEvent_run : Run (hourlyEvent 1 3) [hourlyEvent 1 3, hourlyEvent 2 2, hourlyEvent 3 1] (hourlyEvent 4 0) :=
  .cons ⟨by simp, 3, rfl⟩ (.cons ⟨by simp, 3, rfl⟩ (.cons ⟨by simp, 3, rfl⟩ .nil))

/-- **C88**, the limit: if a bound is a day and another a time, neither before the other, windows overlap: two o'clock is selected by
`between(two o'clock, 2 January)`, and one o'clock by `between(1 January, 2 January)`, although `between(two o'clock, 1 January)` is empty and
1 January is not before two o'clock. -/
theorem C88_mixed :
    Selects (between (hourlyEvent 1 3) twoOClock (jan 1)) [] ∧
    Selects (between (hourlyEvent 1 3) (jan 1) (jan 2)) [hourlyEvent 1 3, hourlyEvent 2 2, hourlyEvent 3 1] ∧
    Selects (between (hourlyEvent 1 3) twoOClock (jan 2)) [hourlyEvent 2 2, hourlyEvent 3 1] ∧ ¬ (jan 1).lt twoOClock = true := by
  have hon : AllOnCalendar (hourlyEvent 1 3) := C79_on_calendar (d := .dateTime (.naive ⟨⟨2024, 1, 1⟩, 3600, 0⟩)) rfl (by rintro u ⟨⟩)
  have hend : Exhausted (hourlyEvent 4 0) := ⟨by simp, 3, rfl⟩
  refine ⟨?_, ?_, ?_, by decide +kernel⟩
  · exact (C79_between_comparable hon (by exact trivial) (by exact trivial)).2 ⟨_, _, hourlyEvent_run, rfl, .inr (by decide +kernel)⟩
  · exact (C79_between_comparable hon (by exact trivial) (by exact trivial)).2 ⟨_, _, hourlyEvent_run, rfl, .inl hend⟩
  · exact (C79_between_comparable hon (by exact trivial) (by exact trivial)).2 ⟨_, _, hourlyEvent_run, rfl, .inl hend⟩

end

end Ikal
