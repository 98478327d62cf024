import Verif.Props.Fate
import Verif.Props.Range

/-! # C60, C61 and C63 for local date-times, leap seconds and sub-daily rules on dates -/

namespace Ikal

open Spec

set_option linter.unusedSectionVars false

section
variable [Platform] {α : Type} [Recurring α] [LawfulRecurring α]

/-- A later step is later on the clocks: the clocks are never put back by as much as `step` seconds within `step` seconds. -/
def Spec.ClocksAdvance (step : Nat) : Prop := ∀ n : Int, n + Platform.tzOffset n < (n + step) + Platform.tzOffset (n + step)

/-- If the dates of the steps are in strictly increasing order, the starts of the occurrences are. -/
theorem increasing_of_steps {s : α} {d : Date} {r : Recur} (hd : Recurring.dtstart s = some d) (hr : Recurring.rrule s = some r)
    (hlt : ∀ i j a b, i < j → nthDate r i d = some a → nthDate r j d = some b → a.cmp b = .lt) : Increasing s := by
  intro xs s' h
  obtain ⟨m, q, hm, -, hxs⟩ := run_reached hd hr h
  rw [starts_yielded hxs, List.pairwise_map]
  have hsorted : (keptSteps r (Recurring.exdate s) d m).Pairwise (· < ·) := List.Pairwise.filter _ List.pairwise_lt_range
  refine List.Pairwise.imp_of_mem ?_ hsorted
  intro i j hi' hj' hij
  have hmem : ∀ k ∈ keptSteps r (Recurring.exdate s) d m, ∃ a, nthDate r k d = some a := by
    intro k hk
    obtain ⟨a, ha⟩ := pos_le hm.hpos (Nat.le_of_lt (List.mem_range.1 (List.mem_filter.1 hk).1))
    exact ⟨a.1, pos_start ha⟩
  obtain ⟨a, ha⟩ := hmem i hi'
  obtain ⟨b, hb⟩ := hmem j hj'
  exact ⟨a, b, ha, hb, by simp [Date.lt, hlt i j a b hij ha hb]⟩

theorem cmp_of_clock {a b : NaiveDateTime} (ha : ClockTime a) (hb : ClockTime b) (h : a.toSecs < b.toSecs) : a.cmp b = .lt := by
  have oa := (NaiveDate.ok_iff _).2 ha.1
  have ob := (NaiveDate.ok_iff _).2 hb.1
  rw [NaiveDateTime.cmp_lt_iff]
  have h1 := ha.2
  have h2 := hb.2
  unfold NaiveDateTime.toSecs at h
  by_cases hd : a.date.toDays < b.date.toDays
  · left; rw [NaiveDate.cmp_eq_compare oa ob, Int.compare_eq_lt]; exact hd
  · right; exact ⟨NaiveDate.toDays_inj oa ob (by omega), .inl (by omega)⟩

theorem clocks_advance {S : Nat} (hz : ClocksAdvance S) (n : Int) (k : Nat) :
    n + Platform.tzOffset n < (n + ((k + 1) * S : Nat)) + Platform.tzOffset (n + ((k + 1) * S : Nat)) := by
  induction k with
  | zero => have := hz n; simp only [Nat.zero_add, Nat.one_mul]; omega
  | succ k ih =>
    have := hz (n + ((k + 1) * S : Nat))
    have e : n + (((k + 1 + 1) * S : Nat) : Int) = n + ((k + 1) * S : Nat) + S := by
      rw [Nat.add_mul (k + 1) 1 S]; omega
    rw [e]
    omega

/-- The instant of a step of a fixed length. -/
theorem instant_nth {r : Recur} {u : Nat} (hf : secondsOf r.freq = some u) (hi : 1 ≤ r.interval) (hi2 : r.interval ≤ 255) {t : NaiveDateTime}
    (ht : RealTime t) {k : Nat} {a : Date} (h : nthDate r k (.dateTime (.loc t)) = some a) :
    ∃ t', a = .dateTime (.loc t') ∧ t'.toSecs = t.toSecs + (k * (r.interval * u) : Nat) := by
  cases k with
  | zero => cases h; exact ⟨t, rfl, by simp⟩
  | succ k =>
    obtain ⟨-, h2, h3⟩ := (C56_leap_second hf hi2 ht k).1 hi
    rw [h2] at h
    obtain ⟨t', rfl, -, h4, -⟩ := (C56_local hf hi2 h3 (k + 1) a).1 h
    refine ⟨t', rfl, ?_⟩
    rw [h4]
    have e : (withoutLeapSecond t).toSecs = t.toSecs := rfl
    rw [e, Int.natCast_mul, Int.natCast_mul]

/-- **C60** for local date-times and a rule of a fixed length: the occurrences are in increasing order if the clocks are not put back by as
much as a step. -/
theorem C60_local {s : α} {t : NaiveDateTime} {r : Recur} {u : Nat} (hd : Recurring.dtstart s = some (.dateTime (.loc t)))
    (hr : Recurring.rrule s = some r) (hi : 1 ≤ r.interval) (hi2 : r.interval ≤ 255) (ht : RealTime t) (hf : secondsOf r.freq = some u)
    (hz : ClocksAdvance (r.interval * u)) : Increasing s := by
  refine increasing_of_steps hd hr ?_
  intro i j a b hij ha hb
  obtain ⟨v, rfl, hv⟩ := instant_nth hf hi hi2 ht ha
  obtain ⟨w, rfl, hw⟩ := instant_nth hf hi hi2 ht hb
  refine cmp_of_clock (clock_shift _ _) (clock_shift _ _) ?_
  show (localOf v).toSecs < (localOf w).toSecs
  rw [show (localOf v).toSecs = v.toSecs + Platform.tzOffset v.toSecs from NaiveDateTime.toSecs_shift _ _,
    show (localOf w).toSecs = w.toSecs + Platform.tzOffset w.toSecs from NaiveDateTime.toSecs_shift _ _]
  obtain ⟨k, rfl⟩ : ∃ k, j = i + k + 1 := ⟨j - i - 1, by omega⟩
  have e : w.toSecs = v.toSecs + ((k + 1) * (r.interval * u) : Nat) := by
    rw [hw, hv, Nat.add_assoc i k 1, Nat.add_mul i]; omega
  rw [e]
  exact clocks_advance hz _ _

/-- **C60** for local date-times and a monthly or yearly rule: the occurrences are in increasing order, whatever the clocks do. -/
theorem C60_local_calendar (hz : FaithfulZone) (hne : TwoOffsets) {s : α} {t : NaiveDateTime} {r : Recur}
    (hd : Recurring.dtstart s = some (.dateTime (.loc t))) (hr : Recurring.rrule s = some r) (hi : 1 ≤ r.interval) (hi2 : r.interval ≤ 255)
    (hf : r.freq = .monthly ∨ r.freq = .yearly) (hw : InRange (localOf t).date) : Increasing s := by
  refine increasing_of_steps hd hr ?_
  have hv : (localOf t).date.Valid := (valid_iff _).2 ⟨hw, (clock_shift _ _ : ClockTime (localOf t)).1⟩
  have hfw : Forward r (.date (localOf t).date) := .date hv (by rcases hf with h | h <;> rw [h] <;> decide)
  have wall : ∀ k a, nthDate r k (.dateTime (.loc t)) = some a →
      ∃ e v, nthDate r k (.date (localOf t).date) = some (.date e) ∧ localOf v = { localOf t with date := e } ∧ a = .dateTime (.loc v) := by
    intro k a h
    cases k with
    | zero => cases h; exact ⟨_, _, rfl, rfl, rfl⟩
    | succ k =>
      obtain ⟨-, e, v, h1, h2, -, rfl⟩ := (C57_local_steps hz hne hf hw k a).1 h
      exact ⟨e, v, h1, h2.2.1, rfl⟩
  intro i j a b hij ha hb
  obtain ⟨e, v, h1, h2, rfl⟩ := wall i a ha
  obtain ⟨e', v', h3, h4, rfl⟩ := wall j b hb
  have hlt : e.cmp e' = .lt := forward_lt hi hi2 hfw h1 h3 hij
  show (localOf v).cmp (localOf v') = .lt
  rw [h2, h4]
  exact NaiveDateTime.cmp_lt_iff.2 (.inl hlt)

/-- **C60** for a rule finer than daily on a date: the occurrences after the first, which are floating date-times, are in increasing order, and
none of them is before the first. -/
theorem C60_sub_daily {s s' : α} {x : NaiveDate} {r : Recur} {xs : List α} (hd : Recurring.dtstart s = some (.date x))
    (hr : Recurring.rrule s = some r) (hi : 1 ≤ r.interval) (hi2 : r.interval ≤ 255) (hx : RealDate x) (hin : InRange x)
    (hf : r.freq = .secondly ∨ r.freq = .minutely ∨ r.freq = .hourly) (h : Run s xs s') :
    (starts xs).tail.Pairwise (fun a b => ∃ x y, a = some x ∧ b = some y ∧ x.lt y = true) ∧
    ∀ a ∈ (starts xs).tail, ∃ y, a = some y ∧ y.hasTime = true ∧ y.lt (.date x) = false := by
  have hrank : ¬ Freq.daily.rank ≤ r.freq.rank := by rcases hf with h | h | h <;> rw [h] <;> decide
  have hvx : x.Valid := (valid_iff x).2 ⟨hin, hx⟩
  have hp : (NaiveDateTime.midnight x).Plain := ⟨hvx, by simp [NaiveDateTime.midnight], by simp [NaiveDateTime.midnight]⟩
  have hfwd : Forward r (.dateTime (.naive (NaiveDateTime.midnight x))) := .naive hp.valid
  have hstep : ∀ k, nthDate r (k + 1) (.date x) = nthDate r (k + 1) (.dateTime (.naive (NaiveDateTime.midnight x))) := by
    intro k
    rw [Nat.add_comm k 1, nthDate_add, nthDate_add]
    have : nthDate r 1 (.date x) = nthDate r 1 (.dateTime (.naive (NaiveDateTime.midnight x))) := by
      simp only [nthDate, Option.bind_some, Recur.add, hrank, if_false, Recur.addDateTime, Option.map_map]
      rfl
    rw [this]
  obtain ⟨m, q, hm, -, hxs⟩ := run_reached hd hr h
  rw [starts_yielded hxs, ← List.map_tail]
  have hsorted : (keptSteps r (Recurring.exdate s) (.date x) m).Pairwise (· < ·) := List.Pairwise.filter _ List.pairwise_lt_range
  have hval : ∀ k ∈ keptSteps r (Recurring.exdate s) (.date x) m, ∃ a, nthDate r k (.date x) = some a := by
    intro k hk
    obtain ⟨a, ha⟩ := pos_le hm.hpos (Nat.le_of_lt (List.mem_range.1 (List.mem_filter.1 hk).1))
    exact ⟨a.1, pos_start ha⟩
  generalize hl : keptSteps r (Recurring.exdate s) (.date x) m = l at hsorted hval
  have hpos : ∀ k ∈ l.tail, ∃ j, k = j + 1 := by
    intro k hk
    cases l with
    | nil => cases hk
    | cons i l => have := (List.pairwise_cons.1 hsorted).1 k hk; exact ⟨k - 1, by omega⟩
  constructor
  · rw [List.pairwise_map]
    refine List.Pairwise.imp_of_mem ?_ (List.Pairwise.tail hsorted)
    intro i j hi' hj' hij
    obtain ⟨a, ha⟩ := hval i (List.mem_of_mem_tail hi')
    obtain ⟨b, hb⟩ := hval j (List.mem_of_mem_tail hj')
    refine ⟨a, b, ha, hb, ?_⟩
    obtain ⟨i, rfl⟩ := hpos i hi'
    obtain ⟨j, rfl⟩ := hpos j hj'
    rw [hstep] at ha hb
    simp [Date.lt, forward_lt hi hi2 hfwd ha hb hij]
  · intro a ha
    obtain ⟨k, hk, rfl⟩ := List.mem_map.1 ha
    obtain ⟨y, hy⟩ := hval k (List.mem_of_mem_tail hk)
    obtain ⟨j, rfl⟩ := hpos k hk
    rw [hstep] at hy
    rw [hstep, hy]
    refine ⟨y, rfl, ?_⟩
    have hlt := forward_lt hi hi2 hfwd (i := 0) rfl hy (by omega)
    obtain ⟨t', rfl⟩ := C65_kinds.2.1 _ hy
    refine ⟨rfl, ?_⟩
    have hlt' : (NaiveDateTime.midnight x).cmp t' = .lt := hlt
    have : t'.date.cmp x ≠ .lt := by
      intro hc
      rw [NaiveDate.cmp_lt_iff] at hc
      rcases NaiveDateTime.cmp_lt_iff.1 hlt' with h | ⟨h, -⟩
      · rw [NaiveDate.cmp_lt_iff] at h
        simp only [NaiveDateTime.midnight] at h
        omega
      · have : x = t'.date := h
        rw [← this] at hc
        omega
    have hc : Date.cmp (.dateTime (.naive t')) (.date x) = t'.date.cmp x := rfl
    simp only [Date.lt, hc]
    cases hcc : t'.date.cmp x <;> first | rfl | exact absurd hcc this

/-- **C61** for local date-times and a monthly or yearly rule. -/
theorem C61_local_calendar (hz : FaithfulZone) (hne : TwoOffsets) {s : α} {t : NaiveDateTime} {r : Recur}
    (hd : Recurring.dtstart s = some (.dateTime (.loc t))) (hr : Recurring.rrule s = some r) (hi : 1 ≤ r.interval) (hi2 : r.interval ≤ 255)
    (hf : r.freq = .monthly ∨ r.freq = .yearly) (hw : InRange (localOf t).date) :
    ∃ o s', o ≠ Outcome.running ∧ next ((Recurring.exdate s).length + 1) s = (o, s') := by
  refine returns_of_distinct hd hr ?_
  have hv : (localOf t).date.Valid := (valid_iff _).2 ⟨hw, (clock_shift _ _ : ClockTime (localOf t)).1⟩
  have hfw : Forward r (.date (localOf t).date) := .date hv (by rcases hf with h | h <;> rw [h] <;> decide)
  intro i j a hij ha hb
  obtain ⟨-, e, v, h1, h2, -, rfl⟩ := (C57_local_steps hz hne hf hw i a).1 ha
  obtain ⟨-, e', v', h3, h4, -, h5⟩ := (C57_local_steps hz hne hf hw j _).1 hb
  cases h5
  have heq : ({ localOf t with date := e } : NaiveDateTime) = { localOf t with date := e' } := h2.2.1.symm.trans h4.2.1
  have hee : e = e' := congrArg NaiveDateTime.date heq
  subst hee
  have := forward_lt hi hi2 hfw h1 h3 (Nat.succ_lt_succ hij)
  rw [(Date.strict_order (.date e) (.date e) (.date e)).1] at this
  cases this

end

/-! ## Examples and limits -/

section
attribute [local instance] utc

/-- The leap second at the end of 2016. -/
def leapSecond : NaiveDateTime := ⟨⟨2016, 12, 31⟩, 86399, 1000000000⟩

set_option maxRecDepth 8000 in
/-- C56: it is read from text, and a day later is the second before midnight. -/
example : DateTime.ofStr c!"20161231T235960" = .ok (.naive leapSecond) := by decide +kernel
example : RealTime leapSecond ∧ (List.range 3).map (fun k => nthDate (everyDays 1) k (.dateTime (.naive leapSecond))) =
    [some (.dateTime (.naive leapSecond)), some (.dateTime (.naive ⟨⟨2017, 1, 1⟩, 86399, 0⟩)), some (.dateTime (.naive ⟨⟨2017, 1, 2⟩, 86399, 0⟩))] :=
  ⟨⟨by decide, by decide, by decide, by decide⟩, by decide +kernel⟩

theorem sample_yields {a a' b b' : Date} {r : Recur} (h1 : r.add a = some a') (h2 : r.add b = some b') (hu : r.until_ = none)
    (hc : r.count = none) : Yields (sampleEvent a (some b) r []) (sampleEvent a (some b) r []) (sampleEvent a' (some b') r []) := by
  refine ⟨by simp, 1, ?_⟩
  simp [next, advance, sampleEvent, Recurring.dtstart, Recurring.rrule, Recurring.dtend, Recurring.exdate, Recurring.setDtstart,
    Recurring.setDtend, Recurring.setRrule, pastUntil, hu, hc, h1, h2]

/-- **C59**, the limit: an event that starts in a leap second and ends 30 seconds later lasts 31 seconds a day later. -/
theorem C59_leap_second :
    Run (sampleEvent (.dateTime (.naive leapSecond)) (some (.dateTime (.naive ⟨⟨2017, 1, 1⟩, 30, 0⟩))) (everyDays 1) [])
      [sampleEvent (.dateTime (.naive leapSecond)) (some (.dateTime (.naive ⟨⟨2017, 1, 1⟩, 30, 0⟩))) (everyDays 1) [],
       sampleEvent (.dateTime (.naive ⟨⟨2017, 1, 1⟩, 86399, 0⟩)) (some (.dateTime (.naive ⟨⟨2017, 1, 2⟩, 30, 0⟩))) (everyDays 1) []]
      (sampleEvent (.dateTime (.naive ⟨⟨2017, 1, 2⟩, 86399, 0⟩)) (some (.dateTime (.naive ⟨⟨2017, 1, 3⟩, 30, 0⟩))) (everyDays 1) []) ∧
    (⟨⟨2017, 1, 1⟩, 30, 0⟩ : NaiveDateTime).since leapSecond = ⟨30000000000⟩ ∧
    (⟨⟨2017, 1, 2⟩, 30, 0⟩ : NaiveDateTime).since ⟨⟨2017, 1, 1⟩, 86399, 0⟩ = ⟨31000000000⟩ :=
  ⟨.cons (sample_yields (by decide +kernel) (by decide +kernel) rfl rfl)
    (.cons (sample_yields (by decide +kernel) (by decide +kernel) rfl rfl) .nil), by decide +kernel, by decide +kernel⟩

/-- C60: an hourly event on a date. -/
example : RealDate ⟨2024, 1, 1⟩ ∧ InRange ⟨2024, 1, 1⟩ ∧ (everyHours 1).freq = .hourly := by decide

/-- **C63**, the limit: an hourly event on a date is not in increasing order (C60), and `after(2 o'clock)` yields the date itself and the
occurrence at 1 o'clock, which starts before. -/
theorem C63_hourly_date : ∃ r', RangeRun (after (sampleEvent (jan 1) none (everyHours 1) []) (.dateTime (.naive ⟨⟨2024, 1, 1⟩, 7200, 0⟩)))
    [sampleEvent (jan 1) none (everyHours 1) [], sampleEvent (.dateTime (.naive ⟨⟨2024, 1, 1⟩, 3600, 0⟩)) none (everyHours 1) []] r' :=
  ⟨_, .cons ⟨5, rfl⟩ (.cons ⟨5, rfl⟩ .nil)⟩

end

section
attribute [local instance] autumn

/-- C60: where the clocks go back by one hour they advance in a day, and in two hours; not in one (`C60_clocks_go_back`). -/
example : ClocksAdvance (1 * 86400) ∧ ClocksAdvance (2 * 3600) ∧ ¬ ClocksAdvance (1 * 3600) := by
  have h : ∀ n : Int, Platform.tzOffset n = if n < (⟨⟨2024, 10, 27⟩, 3600, 0⟩ : NaiveDateTime).toSecs then 7200 else 3600 := fun _ => rfl
  refine ⟨fun n => ?_, fun n => ?_, fun hc => ?_⟩
  · rw [h, h]; split <;> split <;> omega
  · rw [h, h]; split <;> split <;> omega
  · have := hc ((⟨⟨2024, 10, 27⟩, 1800, 0⟩ : NaiveDateTime).toSecs)
    revert this
    decide +kernel
example : Increasing (sampleEvent (.dateTime (.loc ⟨⟨2024, 10, 20⟩, 1800, 0⟩)) none (everyDays 1) []) := by
  refine C60_local (u := 24 * 60 * 60) rfl rfl (by decide) (by decide) ⟨by decide, by decide, by decide, by decide⟩ rfl fun n => ?_
  have h : ∀ n : Int, Platform.tzOffset n = if n < (⟨⟨2024, 10, 27⟩, 3600, 0⟩ : NaiveDateTime).toSecs then 7200 else 3600 := fun _ => rfl
  have e : (everyDays 1).interval * (24 * 60 * 60) = 86400 := rfl
  rw [h, h, e]; split <;> split <;> omega

/-- C73: a daily event in local time is regular: with `COUNT` the iteration ends. -/
example : OffsetsWithinADay := by
  intro n
  have h : Platform.tzOffset n = if n < (⟨⟨2024, 10, 27⟩, 3600, 0⟩ : NaiveDateTime).toSecs then 7200 else 3600 := rfl
  rw [h]; split <;> omega

end

section
attribute [local instance] summerZone

/-- C60, C61: a yearly event in local time. -/
example : Increasing (sampleEvent (.dateTime (.loc ⟨⟨-1, 1, 20⟩, 18000, 0⟩)) none (everyYears 1) []) :=
  C60_local_calendar summerZone_faithful summerZone_offsets rfl rfl (by decide) (by decide) (.inr rfl) (by decide +kernel)

end

end Ikal
