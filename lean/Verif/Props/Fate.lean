import Verif.Props.Range
import Verif.Props.Convert

/-!
# What becomes of an iteration (C73)

The interval of a rule is a `u8` in the code: `r.interval ≤ 255` below.
-/

namespace Ikal

open Spec

set_option linter.unusedSectionVars false
set_option linter.unusedSimpArgs false

section
variable [Platform]

/-! ## Progressions come to an end -/

theorem nthDate_none_le {r : Recur} {d : Date} {k m : Nat} (h : nthDate r k d = none) (hk : k ≤ m) : nthDate r m d = none := by
  obtain ⟨n, rfl⟩ : ∃ n, m = k + n := ⟨m - k, by omega⟩
  rw [nthDate_add, h]; rfl

theorem toDays_bound {d : NaiveDate} (h : d.Valid) : -100000000 ≤ d.toDays ∧ d.toDays ≤ 100000000 := by
  have ho := h.ok.ordinal
  obtain ⟨h1, h2, h3, h4, h5, h6⟩ := h
  unfold minYear at h1
  unfold maxYear at h2
  have hl : NaiveDate.leapNat d.year ≤ 1 := by unfold NaiveDate.leapNat; split <;> omega
  unfold NaiveDate.toDays NaiveDate.daysBeforeYear
  omega

theorem nanos_bound {t : NaiveDateTime} (h : t.Plain) : -10000000000000000000000 ≤ t.nanos ∧ t.nanos ≤ 10000000000000000000000 := by
  have := toDays_bound h.1
  obtain ⟨-, h2, h3⟩ := h
  unfold NaiveDateTime.nanos NaiveDateTime.toSecs
  omega

theorem mul_ge {a n : Nat} (h : 1 ≤ n) : a ≤ a * n := Nat.le_mul_of_pos_right a h

theorem dies_date {r : Recur} (hi : 1 ≤ r.interval) {d : NaiveDate} (hd : d.Valid) (hf : Freq.daily.rank ≤ r.freq.rank) :
    ∃ K, nthDate r K (.date d) = none := by
  refine ⟨300000000, ?_⟩
  cases h : nthDate r 300000000 (.date d) with
  | none => rfl
  | some D =>
    exfalso
    have hday : r.freq = .daily ∨ r.freq = .weekly → False := by
      intro hf
      obtain ⟨e, -, he, hn⟩ := (nth_days hf hd _ _).1 h
      have h1 := toDays_bound hd
      have h2 := toDays_bound he
      have h3 : 1 ≤ r.interval * unitDays r.freq := by rcases hf with h | h <;> rw [h] <;> simp only [unitDays] <;> omega
      have h4 := mul_ge (a := 300000000) h3
      omega
    cases hfr : r.freq with
    | secondly => rw [hfr] at hf; exact absurd hf (by decide)
    | minutely => rw [hfr] at hf; exact absurd hf (by decide)
    | hourly => rw [hfr] at hf; exact absurd hf (by decide)
    | daily => exact hday (.inl hfr)
    | weekly => exact hday (.inr hfr)
    | monthly =>
      obtain ⟨e, -, he, hn, -⟩ := (nth_months hfr hd _ _).1 h
      have h4 := mul_ge (a := 300000000) hi
      obtain ⟨a1, a2, a3, a4, -⟩ := hd
      obtain ⟨b1, b2, b3, b4, -⟩ := he
      unfold minYear at a1 b1
      unfold maxYear at a2 b2
      unfold monthIndex at hn
      omega
    | yearly =>
      obtain ⟨-, h2⟩ := (nth_years hfr d _ _).1 h
      have := (h2 300000000 (by omega) (by omega)).1
      have h4 := mul_ge (a := 300000000) hi
      obtain ⟨a1, a2, -⟩ := hd
      unfold InRange at this
      unfold minYear at a1
      simp only at this
      omega

theorem dies_fixed {r : Recur} (hi : 1 ≤ r.interval) (hi2 : r.interval ≤ 255) (h1 : r.freq ≠ .monthly) (h2 : r.freq ≠ .yearly)
    {t : NaiveDateTime} (ht : t.Plain) : (∃ K, nthDate r K (.dateTime (.naive t)) = none) ∧ ∃ K, nthDate r K (.dateTime (.loc t)) = none := by
  have key : ∀ t' : NaiveDateTime, t'.Plain → t'.nanos = t.nanos + (100000000000000 * (r.interval * unitSecs r.freq) : Nat) * 1000000000 → False := by
    intro t' h3 h4
    have h5 := nanos_bound ht
    have h6 := nanos_bound h3
    have h7 : 1 ≤ r.interval * unitSecs r.freq := by
      cases hfr : r.freq <;> simp only [unitSecs] <;> first | omega | contradiction
    have h8 := mul_ge (a := 100000000000000) h7
    omega
  constructor
  · refine ⟨100000000000000, ?_⟩
    cases h : nthDate r 100000000000000 (.dateTime (.naive t)) with
    | none => rfl
    | some D =>
      obtain ⟨t', -, h3, h4⟩ := (nth_fixed_naive h1 h2 hi2 ht _ _).1 h
      exact (key t' h3 h4).elim
  · refine ⟨100000000000000, ?_⟩
    cases h : nthDate r 100000000000000 (.dateTime (.loc t)) with
    | none => rfl
    | some D =>
      obtain ⟨t', -, h3, h4⟩ := (nth_fixed_loc h1 h2 hi2 ht _ _).1 h
      exact (key t' h3 h4).elim

/-- The same with leap seconds. -/
theorem dies_fixed' {r : Recur} (hi : 1 ≤ r.interval) (hi2 : r.interval ≤ 255) (h1 : r.freq ≠ .monthly) (h2 : r.freq ≠ .yearly)
    {t : NaiveDateTime} (ht : t.Valid) : (∃ K, nthDate r K (.dateTime (.naive t)) = none) ∧ ∃ K, nthDate r K (.dateTime (.loc t)) = none := by
  obtain ⟨⟨K, hK⟩, ⟨L, hL⟩⟩ := dies_fixed hi hi2 h1 h2 (plain_withoutLeap ht)
  exact ⟨⟨K + 1, by rw [(nth_leap h1 h2 hi hi2 ht.2.2 K).1]; exact nthDate_none_le hK (Nat.le_succ K)⟩,
    ⟨L + 1, by rw [(nth_leap h1 h2 hi hi2 ht.2.2 L).2]; exact nthDate_none_le hL (Nat.le_succ L)⟩⟩

theorem dies_naive {r : Recur} (hi : 1 ≤ r.interval) (hi2 : r.interval ≤ 255) {t : NaiveDateTime} (ht : t.Valid) :
    ∃ K, nthDate r K (.dateTime (.naive t)) = none := by
  by_cases hcal : r.freq = .monthly ∨ r.freq = .yearly
  · obtain ⟨K, hK⟩ := dies_date hi ht.1 (by rcases hcal with h | h <;> rw [h] <;> decide : Freq.daily.rank ≤ r.freq.rank)
    refine ⟨K, ?_⟩
    cases h : nthDate r K (.dateTime (.naive t)) with
    | none => rfl
    | some D =>
      obtain ⟨e, he, -⟩ := (nth_calendar hcal t K D).1 h
      rw [hK] at he; cases he
  · exact (dies_fixed' hi hi2 (fun h => hcal (.inl h)) (fun h => hcal (.inr h)) ht).1


theorem dies_any_date {r : Recur} (hi : 1 ≤ r.interval) (hi2 : r.interval ≤ 255) {d : NaiveDate} (hd : d.Valid) :
    ∃ K, nthDate r K (.date d) = none := by
  by_cases hf : Freq.daily.rank ≤ r.freq.rank
  · exact dies_date hi hd hf
  · cases h : r.add (.date d) with
    | none => exact ⟨1, by simp only [nthDate, Option.bind_some]; exact h⟩
    | some D =>
      have hsub : ∃ u, r.freq = .secondly ∧ u = 1 ∨ r.freq = .minutely ∧ u = 60 ∨ r.freq = .hourly ∧ u = 3600 := by
        cases hfr : r.freq <;> first | (rw [hfr] at hf; exact absurd (by decide) hf) | exact ⟨_, by simp; rfl⟩
      obtain ⟨u, hu⟩ := hsub
      obtain ⟨t, rfl, ht, -⟩ := (C65_becomes_datetime hu hi2 D).1 h
      obtain ⟨K, hK⟩ := dies_naive hi hi2 ((plain_iff t).1 ht).valid
      refine ⟨1 + K, ?_⟩
      rw [nthDate_add]
      simp only [nthDate, Option.bind_some, h, hK]

/-! ## Local date-times -/

/-- The clocks show `t` at one instant only, `v`, and this is in the range of years. -/
def Spec.ShownOnceAt (t v : NaiveDateTime) : Prop :=
  ClockTime v ∧ localOf v = t ∧ (∀ w, ClockTime w → localOf w = t → w = v) ∧ InRange v.date

/-- No wall-clock time is said to be repeated with twice the same offset. -/
def Spec.TwoOffsets : Prop := ∀ m a b, Platform.tzLocal m = .ambiguous a b → a ≠ b

theorem localSingle_iff (hz : FaithfulZone) (hne : TwoOffsets) {t v : NaiveDateTime} (ht : ClockTime t) :
    localSingle t = some v ↔ ShownOnceAt t v := by
  have hzm := hz t.toSecs
  have hno := hne t.toSecs
  have back : ∀ o : Int, (t.toSecs - o) + Platform.tzOffset (t.toSecs - o) = t.toSecs → localOf (t.shift (-o)) = t := by
    intro o ho
    rw [localOf_eq_iff ht]
    refine ⟨?_, rfl⟩
    rw [NaiveDateTime.toSecs_shift, show t.toSecs + -o = t.toSecs - o by omega]; exact ho
  have inj : ∀ {a b : NaiveDateTime}, ClockTime a → ClockTime b → a.toSecs = b.toSecs → a.frac = b.frac → a = b := fun ha hb h1 h2 =>
    NaiveDateTime.eq_of_toSecs (clock_ok ha) (clock_ok hb) ha.2 hb.2 h1 h2
  unfold localSingle
  cases hl : Platform.tzLocal t.toSecs with
  | none =>
    rw [hl] at hzm
    simp only [reduceCtorEq, false_iff]
    rintro ⟨-, h, -⟩
    exact hzm _ ((localOf_eq_iff ht).1 h).1
  | single o =>
    rw [hl] at hzm
    simp only [utcOf_iff] at hzm ⊢
    have hb := back o ((hzm _).2 rfl)
    constructor
    · rintro ⟨hr, rfl⟩
      refine ⟨clock_shift _ _, hb, fun w hw h => ?_, hr⟩
      obtain ⟨h1, h2⟩ := (localOf_eq_iff ht).1 h
      refine inj hw (clock_shift _ _) ?_ h2
      rw [NaiveDateTime.toSecs_shift, (hzm _).1 h1]; omega
    · rintro ⟨-, -, hu, hr⟩
      have e := hu _ (clock_shift _ _) hb
      exact ⟨e ▸ hr, e.symm⟩
  | ambiguous a b =>
    rw [hl] at hzm
    simp only [reduceCtorEq, false_iff] at hzm ⊢
    rintro ⟨-, -, hu, -⟩
    have h1 := hu _ (clock_shift _ _) (back a ((hzm.2 _).2 (.inl rfl)))
    have h2 := hu _ (clock_shift _ _) (back b ((hzm.2 _).2 (.inr rfl)))
    have h3 := congrArg NaiveDateTime.toSecs (h1.trans h2.symm)
    rw [NaiveDateTime.toSecs_shift, NaiveDateTime.toSecs_shift] at h3
    exact hno a b hl (by omega)

theorem date_real {r : Recur} (hf : r.freq = .monthly ∨ r.freq = .yearly) {d e : NaiveDate} (hd : d.Valid) {k : Nat}
    (h : nthDate r k (.date d) = some (.date e)) : e.Valid := by
  rcases hf with hf | hf
  · obtain ⟨e', he, hv, -⟩ := (nth_months hf hd _ _).1 h; cases he; exact hv
  · cases k with
    | zero => cases h; exact hd
    | succ k =>
      obtain ⟨he, hv⟩ := (nth_years hf d _ _).1 h
      cases he
      exact (valid_iff _).2 (hv (k + 1) (by omega) (by omega))

/-- **C57**, **C58**: in a zone that reads wall-clock times faithfully, `k` steps of a monthly or yearly rule on a local date-time show on the
clocks what `k` steps on the date and the same time of the day make, and they panic exactly when those do or when one of these times is shown
never or twice, or at an instant out of the range of years or, for yearly rules, in a leap second at the very end of it. -/
theorem C57_local_steps (hz : FaithfulZone) (hne : TwoOffsets) {r : Recur} (hf : r.freq = .monthly ∨ r.freq = .yearly) {u : NaiveDateTime}
    (hw : InRange (localOf u).date) (k : Nat) (D : Date) :
    nthDate r (k + 1) (.dateTime (.loc u)) = some D ↔
      (∀ j, 1 ≤ j → j ≤ k → ∃ e v, nthDate r j (.date (localOf u).date) = some (.date e) ∧ ShownOnceAt { localOf u with date := e } v ∧
        (r.freq = .yearly → ¬ Earlier lastInstant v)) ∧
      ∃ e v, nthDate r (k + 1) (.date (localOf u).date) = some (.date e) ∧ ShownOnceAt { localOf u with date := e } v ∧
        (r.freq = .yearly → ¬ Earlier lastInstant v) ∧ D = .dateTime (.loc v) := by
  have hcw : ClockTime (localOf u) := clock_shift _ _
  have hv : (localOf u).date.Valid := (valid_iff _).2 ⟨hw, hcw.1⟩
  have hrank : Freq.daily.rank ≤ r.freq.rank := by rcases hf with h | h <;> rw [h] <;> decide
  have hclock : ∀ {j e}, nthDate r j (.date (localOf u).date) = some (.date e) → ClockTime { localOf u with date := e } :=
    fun h => ⟨((valid_iff _).1 (date_real hf hv h)).2, hcw.2⟩
  have step : ∀ {j e} {x : NaiveDateTime} {E : Date}, nthDate r j (.date (localOf u).date) = some (.date e) → localOf x = { localOf u with date := e } →
      (r.add (.dateTime (.loc x)) = some E ↔ ∃ e' v, nthDate r (j + 1) (.date (localOf u).date) = some (.date e') ∧
        ShownOnceAt { localOf u with date := e' } v ∧ (r.freq = .yearly → ¬ Earlier lastInstant v) ∧ E = .dateTime (.loc v)) := by
    intro j e x E hj hx
    rw [C57_local hf x (.inr (by show InRange (localOf x).date; rw [hx]; exact ((valid_iff _).1 (date_real hf hv hj)).1))]
    simp only [DateTime.toNaive, hx, nthDate, hj, Option.bind_some]
    constructor
    · rintro ⟨e', off, h1, h2, hr, hm, rfl⟩
      have hc := hclock (j := j + 1) (e := e') (by simp only [nthDate, hj, Option.bind_some]; exact h1)
      refine ⟨e', _, h1, (localSingle_iff hz hne hc).1 ?_, hm, rfl⟩
      unfold localSingle
      rw [h2]; exact utcOf_iff.2 ⟨hr, rfl⟩
    · rintro ⟨e', v, h1, h2, hm, rfl⟩
      have hc := hclock (j := j + 1) (e := e') (by simp only [nthDate, hj, Option.bind_some]; exact h1)
      have h3 := (localSingle_iff hz hne hc).2 h2
      unfold localSingle at h3
      split at h3
      · next off ho =>
        obtain ⟨hr, rfl⟩ := utcOf_iff.1 h3
        exact ⟨e', off, h1, ho, hr, hm, rfl⟩
      · cases h3
  induction k generalizing D with
  | zero =>
    rw [show nthDate r (0 + 1) (.dateTime (.loc u)) = r.add (.dateTime (.loc u)) by simp [nthDate]]
    rw [step (j := 0) (e := (localOf u).date) rfl rfl]
    simp only [Nat.zero_add]
    constructor
    · intro h; exact ⟨fun j h1 h2 => by omega, h⟩
    · exact fun h => h.2
  | succ k ih =>
    rw [nthDate, Option.bind_eq_some_iff]
    constructor
    · rintro ⟨E, hE, h⟩
      obtain ⟨h1, e, v, h2, h3, hm, rfl⟩ := (ih E).1 hE
      refine ⟨fun j hj1 hj2 => ?_, (step h2 h3.2.1).1 h⟩
      by_cases hj : j = k + 1
      · subst hj; exact ⟨e, v, h2, h3, hm⟩
      · exact h1 j hj1 (by omega)
    · rintro ⟨h1, h2⟩
      obtain ⟨e, v, h3, h4, hm⟩ := h1 (k + 1) (by omega) (by omega)
      refine ⟨_, (ih _).2 ⟨fun j hj1 hj2 => h1 j hj1 (by omega), e, v, h3, h4, hm, rfl⟩, (step h3 h4.2.1).2 h2⟩

theorem dies_local (hz : FaithfulZone) (hne : TwoOffsets) {r : Recur} (hi : 1 ≤ r.interval) (hf : r.freq = .monthly ∨ r.freq = .yearly)
    {u : NaiveDateTime} (hw : InRange (localOf u).date) : ∃ K, nthDate r K (.dateTime (.loc u)) = none := by
  have hv : (localOf u).date.Valid := (valid_iff _).2 ⟨hw, (clock_shift _ _ : ClockTime (localOf u)).1⟩
  obtain ⟨K, hK⟩ := dies_date hi hv (by rcases hf with h | h <;> rw [h] <;> decide : Freq.daily.rank ≤ r.freq.rank)
  refine ⟨K + 1, ?_⟩
  cases h : nthDate r (K + 1) (.dateTime (.loc u)) with
  | none => rfl
  | some D =>
    obtain ⟨-, e, v, h1, -⟩ := (C57_local_steps hz hne hf hw K D).1 h
    rw [nthDate_none_le hK (Nat.le_succ K)] at h1; cases h1

variable {α : Type} [Recurring α] [LawfulRecurring α]

/-! ## The iteration -/

/-- If the progression of the starts comes to an end, so does the iteration: it ends or panics. -/
theorem fate {s : α} {d : Date} {r : Recur} (hd : Recurring.dtstart s = some d) (hr : Recurring.rrule s = some r) {K : Nat}
    (hK : nthDate r K d = none) : ∃ xs s', Run s xs s' ∧ (Exhausted s' ∨ Panics s') := by
  induction K using Nat.strongRecOn generalizing s d r with
  | _ K ih =>
    have hp : pos r K (d, Recurring.dtend s) = none := by
      cases h : pos r K (d, Recurring.dtend s) with
      | none => rfl
      | some q => have := pos_start h; rw [hK] at this; cases this
    have hK0 : K ≠ 0 := by rintro rfl; cases hK
    have hns : ¬ Passes r (Recurring.exdate s) (d, Recurring.dtend s) K := by
      intro h
      obtain ⟨-, b, -, -, hb, -⟩ := h (K - 1) (by omega)
      rw [show K - 1 + 1 = K by omega, hp] at hb; cases hb
    have hsc : scan r (Recurring.exdate s) K (d, Recurring.dtend s) ≠ .running := fun h => hns (scan_running.1 h)
    obtain ⟨k, hk, h1, h2⟩ := scan_stops rfl hsc
    cases ho : scan r (Recurring.exdate s) K (d, Recurring.dtend s) with
    | running => exact absurd ho hsc
    | done => rw [ho] at h2; exact ⟨[], s, .nil, .inl ((ends_iff hd hr).2 ⟨k, h1, h2⟩)⟩
    | panic => rw [ho] at h2; exact ⟨[], s, .nil, .inr ((panics_iff hd hr).2 ⟨k, h1, h2⟩)⟩
    | item q =>
      rw [ho] at h2
      have hy : Yields s s (place s q r.spend) := (yields_iff hd hr).2 ⟨rfl, k, q, h1, h2, rfl⟩
      obtain ⟨a, -, -, hq, -⟩ := h2
      have hq' := pos_start hq
      have hK' : nthDate r.spend (K - (k + 1)) q.1 = none := by
        rw [spend_eq, spent_nthDate]
        have : K = (k + 1) + (K - (k + 1)) := by omega
        rw [this, nthDate_add, hq'] at hK
        exact hK
      obtain ⟨xs, s', hrun, hend⟩ := ih (K - (k + 1)) (by omega) (LawfulRecurring.dtstart_place s q r.spend)
        (LawfulRecurring.rrule_place s q r.spend) hK'
      exact ⟨s :: xs, s', .cons hy hrun, hend⟩

/-! ## Steps that cannot fail -/

/-- The year of the date. -/
def Spec.yearOf (d : Date) : Int := d.dateNaive.year

/-- The offsets of the zone are less than a day, as chrono's are. -/
def Spec.OffsetsWithinADay : Prop := ∀ n : Int, -86400 < Platform.tzOffset n ∧ Platform.tzOffset n < 86400

/-- A start or an end on which no step of the rule fails before the end of the calendar: a date, if the rule is not finer than daily, a
floating date-time, or a local one if the rule has a fixed length; not a 29 February if the rule is yearly. -/
def Spec.Regular (r : Recur) (d : Date) : Prop :=
  ((∃ x, d = .date x ∧ RealDate x ∧ InRange x ∧ (r.freq = .daily ∨ r.freq = .weekly ∨ r.freq = .monthly ∨ r.freq = .yearly)) ∨
    (∃ t, d = .dateTime (.naive t) ∧ RealTime t) ∨
    ∃ t u, d = .dateTime (.loc t) ∧ RealTime t ∧ secondsOf r.freq = some u ∧ OffsetsWithinADay) ∧
  (r.freq = .yearly → ¬ (d.dateNaive.month = 2 ∧ d.dateNaive.day = 29))

theorem coarse_iff (f : Freq) : (f = .daily ∨ f = .weekly ∨ f = .monthly ∨ f = .yearly) ↔ Freq.daily.rank ≤ f.rank := by
  cases f <;> simp <;> decide

theorem year_days {d : NaiveDate} (h : d.Ok) : NaiveDate.daysBeforeYear d.year ≤ d.toDays ∧ d.toDays < NaiveDate.daysBeforeYear (d.year + 1) := by
  have ho := h.ordinal
  have := NaiveDate.daysBeforeYear_succ d.year
  obtain ⟨-, -, h3, -⟩ := h
  unfold NaiveDate.toDays
  omega

theorem year_later {x e : NaiveDate} (hx : x.Ok) (he : e.Ok) {n : Nat} (h1 : x.toDays ≤ e.toDays) (h2 : e.toDays ≤ x.toDays + 365 * n) :
    x.year ≤ e.year ∧ e.year ≤ x.year + n := by
  have hx := year_days hx
  have he := year_days he
  constructor
  · refine Int.not_lt.1 fun h => ?_
    have := NaiveDate.daysBeforeYear_mono (show e.year + 1 ≤ x.year by omega)
    omega
  · refine Int.not_lt.1 fun h => ?_
    have := NaiveDate.daysBeforeYear_mono (show x.year + 1 ≤ e.year by omega)
    omega

/-- The date some days later, if it is in a representable year. -/
theorem date_later {x : NaiveDate} (hx : x.Valid) {n m : Nat} (hm : m ≤ 365 * n) (hy : x.year + n ≤ 262142) :
    ∃ e : NaiveDate, e.Valid ∧ e.toDays = x.toDays + m ∧ x.year ≤ e.year ∧ e.year ≤ x.year + n := by
  have hok := NaiveDate.ofDays_ok (x.toDays + m)
  have hd := NaiveDate.toDays_ofDays (x.toDays + m)
  have hyr := year_later (n := n) hx.ok hok (by omega) (by omega)
  refine ⟨_, ?_, hd, hyr⟩
  rw [valid_iff, ← NaiveDate.ok_iff]
  have := ((valid_iff x).1 hx).1
  unfold InRange at this ⊢
  exact ⟨by omega, hok⟩

theorem monthLength_ge (y : Int) {m : Nat} (h1 : 1 ≤ m) (h2 : m ≤ 12) : 28 ≤ monthLength y m := by
  rw [← daysInMonth_eq y h1 h2]; exact NaiveDate.daysInMonth_ge y h1 h2

theorem monthLength_year (y y' : Int) {m : Nat} (h1 : 1 ≤ m) (h2 : m ≤ 12) (h3 : m ≠ 2) : monthLength y m = monthLength y' m := by
  rw [← daysInMonth_eq y h1 h2, ← daysInMonth_eq y' h1 h2]
  match m, h1, h2, h3 with
  | 1, _, _, _ | 3, _, _, _ | 4, _, _, _ | 5, _, _, _ | 6, _, _, _ | 7, _, _, _ | 8, _, _, _ | 9, _, _, _ | 10, _, _, _ | 11, _, _, _ | 12, _, _, _ => rfl

theorem feb_le (y : Int) : monthLength y 2 ≤ 29 := by
  rw [← daysInMonth_eq y (by omega) (by omega)]
  unfold daysInMonth; cases isLeap y <;> simp

theorem step_date {r : Recur} (hi : 1 ≤ r.interval) {x : NaiveDate} (hx : x.Valid) (hf : Freq.daily.rank ≤ r.freq.rank)
    (hl : r.freq = .yearly → ¬ (x.month = 2 ∧ x.day = 29)) (hy : x.year + r.interval ≤ 262142) :
    ∃ e, r.add (.date x) = some (.date e) ∧ e.Valid ∧ x.year ≤ e.year ∧ e.year ≤ x.year + r.interval ∧
      (r.freq = .yearly → ¬ (e.month = 2 ∧ e.day = 29)) := by
  have hday : r.freq = .daily ∨ r.freq = .weekly → ∃ e, r.add (.date x) = some (.date e) ∧ e.Valid ∧ x.year ≤ e.year ∧
      e.year ≤ x.year + r.interval := by
    intro hf
    obtain ⟨e, he, hn, h1, h2⟩ := date_later (m := r.interval * unitDays r.freq) hx (by
      rcases hf with h | h <;> rw [h] <;> simp only [unitDays] <;> omega) hy
    exact ⟨e, (add_days hf x _).2 ⟨e, rfl, he, hn⟩, he, h1, h2⟩
  have hv := (valid_iff x).1 hx
  obtain ⟨hin, r1, r2, r3, r4⟩ := hv
  cases hfr : r.freq with
  | secondly => rw [hfr] at hf; exact absurd hf (by decide)
  | minutely => rw [hfr] at hf; exact absurd hf (by decide)
  | hourly => rw [hfr] at hf; exact absurd hf (by decide)
  | daily => obtain ⟨e, h1, h2, h3, h4⟩ := hday (.inl hfr); exact ⟨e, h1, h2, h3, h4, by simp⟩
  | weekly => obtain ⟨e, h1, h2, h3, h4⟩ := hday (.inr hfr); exact ⟨e, h1, h2, h3, h4, by simp⟩
  | monthly =>
    obtain ⟨i, hidx⟩ : ∃ i, i = monthIndex x + r.interval := ⟨_, rfl⟩
    have hm1 : 1 ≤ (i % 12).toNat + 1 := by omega
    have hm2 : (i % 12).toNat + 1 ≤ 12 := by omega
    have hml := monthLength_ge (i / 12) hm1 hm2
    refine ⟨⟨i / 12, (i % 12).toNat + 1, min x.day (monthLength (i / 12) ((i % 12).toNat + 1))⟩, ?_⟩
    unfold monthIndex at hidx
    unfold InRange at hin
    have hreal : RealDate ⟨i / 12, (i % 12).toNat + 1, min x.day (monthLength (i / 12) ((i % 12).toNat + 1))⟩ :=
      ⟨hm1, hm2, by simp only; omega, Nat.min_le_right _ _⟩
    have hinr : InRange ⟨i / 12, (i % 12).toNat + 1, min x.day (monthLength (i / 12) ((i % 12).toNat + 1))⟩ := by
      unfold InRange; simp only; omega
    refine ⟨(add_months hfr hx _).2 ⟨_, rfl, ⟨hreal, ?_, rfl⟩, hinr⟩, (valid_iff _).2 ⟨hinr, hreal⟩, ?_, ?_, by simp⟩
    · unfold monthIndex; simp only; omega
    · simp only; omega
    · simp only; omega
  | yearly =>
    have hl := hl hfr
    refine ⟨⟨x.year + r.interval, x.month, x.day⟩, ?_⟩
    unfold InRange at hin
    have hreal : RealDate ⟨x.year + r.interval, x.month, x.day⟩ := by
      refine ⟨r1, r2, r3, ?_⟩
      simp only
      by_cases h2 : x.month = 2
      · have := feb_le x.year
        have := monthLength_ge (x.year + r.interval) r1 r2
        rw [h2] at r4
        omega
      · rw [monthLength_year _ x.year r1 r2 h2]; exact r4
    have hinr : InRange ⟨x.year + r.interval, x.month, x.day⟩ := by unfold InRange; simp only; omega
    exact ⟨(add_years hfr x _).2 ⟨_, rfl, rfl, hinr, hreal⟩, (valid_iff _).2 ⟨hinr, hreal⟩, by simp only; omega, by simp only; omega, fun _ => hl⟩

theorem step_naive {r : Recur} (hi : 1 ≤ r.interval) (hi2 : r.interval ≤ 255) {t : NaiveDateTime} (ht : t.Valid)
    (hl : r.freq = .yearly → ¬ (t.date.month = 2 ∧ t.date.day = 29)) (hy : t.date.year + r.interval ≤ 262142) :
    ∃ t', r.add (.dateTime (.naive t)) = some (.dateTime (.naive t')) ∧ t'.Valid ∧ t.date.year ≤ t'.date.year ∧
      t'.date.year ≤ t.date.year + r.interval ∧ (r.freq = .yearly → ¬ (t'.date.month = 2 ∧ t'.date.day = 29)) := by
  by_cases hcal : r.freq = .monthly ∨ r.freq = .yearly
  · obtain ⟨e, h1, h2, h3, h4, h5⟩ := step_date hi ht.1 (by rcases hcal with h | h <;> rw [h] <;> decide) hl hy
    refine ⟨{ t with date := e }, ?_, ⟨h2, ht.2⟩, h3, h4, h5⟩
    simp only [Recur.add, Recur.addDateTime, (addNaive_calendar hcal t { t with date := e }).2 ⟨e, h1, rfl⟩, Option.map_some]
  · have h1 : r.freq ≠ .monthly := fun h => hcal (.inl h)
    have h2 : r.freq ≠ .yearly := fun h => hcal (.inr h)
    have hS : r.interval * unitSecs r.freq ≤ 604800 * r.interval := by
      cases hfr : r.freq <;> simp only [unitSecs] <;> omega
    generalize hSe : r.interval * unitSecs r.freq = S at hS
    obtain ⟨e, he, hd, hy1, hy2⟩ := date_later (n := r.interval) (m := (t.secs + S) / 86400) ht.1 (by have := ht.2.1; omega) hy
    have hplain : NaiveDateTime.Plain ⟨e, (t.secs + S) % 86400, t.frac % 1000000000⟩ :=
      ⟨he, Nat.mod_lt _ (by omega), Nat.mod_lt _ (by omega)⟩
    refine ⟨⟨e, (t.secs + S) % 86400, t.frac % 1000000000⟩, ?_, hplain.valid, hy1, hy2, fun h => absurd h h2⟩
    have : r.addNaive t = some ⟨e, (t.secs + S) % 86400, t.frac % 1000000000⟩ := by
      rw [addNaive_leap h1 h2 hi hi2 ht.2.2, addNaive_fixed h1 h2 hi2 (plain_withoutLeap ht).2.2]
      refine ⟨hplain, ?_⟩
      rw [hSe]
      unfold NaiveDateTime.nanos NaiveDateTime.toSecs withoutLeapSecond
      simp only [hd]
      omega
    simp only [Recur.add, Recur.addDateTime, this, Option.map_some]

/-- The wall-clock day of an instant is that of the instant in UTC, or the day before or after. -/
theorem wall_days (hz : OffsetsWithinADay) {t : NaiveDateTime} (ht : t.secs < 86400) :
    (localOf t).date.Ok ∧ t.date.toDays ≤ (localOf t).date.toDays + 1 ∧ (localOf t).date.toDays ≤ t.date.toDays + 1 := by
  have h1 := hz t.toSecs
  have h2 : (localOf t).toSecs = t.toSecs + Platform.tzOffset t.toSecs := NaiveDateTime.toSecs_shift _ _
  have h3 := NaiveDateTime.shift_ok t (Platform.tzOffset t.toSecs)
  have h4 : (localOf t).secs < 86400 := h3.2
  refine ⟨h3.1, ?_⟩
  generalize Platform.tzOffset t.toSecs = o at *
  unfold NaiveDateTime.toSecs at h2
  omega

/-- A step of a fixed length on an instant. -/
theorem step_loc {r : Recur} (hz : OffsetsWithinADay) (hi : 1 ≤ r.interval) (hi2 : r.interval ≤ 255) (h1 : r.freq ≠ .monthly)
    (h2 : r.freq ≠ .yearly) {t : NaiveDateTime} (ht : t.Valid) (hy : (localOf t).date.year + r.interval ≤ 262142) :
    ∃ t', r.add (.dateTime (.loc t)) = some (.dateTime (.loc t')) ∧ t'.Valid ∧ (localOf t').date.year ≤ (localOf t).date.year + r.interval := by
  obtain ⟨w1, w2, w3⟩ := wall_days hz ht.2.1
  have hS : r.interval * unitSecs r.freq ≤ 604800 * r.interval := by
    cases hfr : r.freq <;> simp only [unitSecs] <;> omega
  generalize hSe : r.interval * unitSecs r.freq = S at hS
  have hd := NaiveDate.toDays_ofDays (t.date.toDays + ((t.secs + S) / 86400 : Nat))
  have hok := NaiveDate.ofDays_ok (t.date.toDays + ((t.secs + S) / 86400 : Nat))
  generalize NaiveDate.ofDays (t.date.toDays + ((t.secs + S) / 86400 : Nat)) = e at hd hok
  have hts := ht.2.1
  have hyr : e.year ≤ (localOf t).date.year + r.interval := by
    rcases Int.le_total (localOf t).date.toDays e.toDays with hle | hle
    · exact (year_later w1 hok hle (by omega)).2
    · have := (year_later (n := r.interval) hok w1 hle (by omega)).1; omega
  have hyr2 : t.date.year ≤ e.year := (year_later (n := r.interval) ht.1.ok hok (by omega) (by omega)).1
  have hv : e.Valid := by
    rw [valid_iff, ← NaiveDate.ok_iff]
    have := ((valid_iff _).1 ht.1).1
    unfold InRange at this ⊢
    exact ⟨by omega, hok⟩
  have hplain : NaiveDateTime.Plain ⟨e, (t.secs + S) % 86400, t.frac % 1000000000⟩ :=
    ⟨hv, Nat.mod_lt _ (by omega), Nat.mod_lt _ (by omega)⟩
  refine ⟨⟨e, (t.secs + S) % 86400, t.frac % 1000000000⟩, ?_, hplain.valid, ?_⟩
  · have : r.addNaive t = some ⟨e, (t.secs + S) % 86400, t.frac % 1000000000⟩ := by
      rw [addNaive_leap h1 h2 hi hi2 ht.2.2, addNaive_fixed h1 h2 hi2 (plain_withoutLeap ht).2.2]
      refine ⟨hplain, ?_⟩
      rw [hSe]
      unfold NaiveDateTime.nanos NaiveDateTime.toSecs withoutLeapSecond
      simp only [hd]
      omega
    simp only [Recur.add, Recur.addDateTime, addLocal_fixed h1 h2, this, Option.map_some]
  · obtain ⟨v1, v2, v3⟩ := wall_days hz (t := ⟨e, (t.secs + S) % 86400, t.frac % 1000000000⟩) (Nat.mod_lt _ (by omega))
    simp only at v2 v3
    rcases Int.le_total (localOf t).date.toDays (localOf ⟨e, (t.secs + S) % 86400, t.frac % 1000000000⟩).date.toDays with hle | hle
    · exact (year_later w1 v1 hle (by omega)).2
    · have := (year_later (n := r.interval) v1 w1 hle (by omega)).1; omega

theorem step_regular {r : Recur} (hi : 1 ≤ r.interval) (hi2 : r.interval ≤ 255) {d : Date} (hd : Regular r d)
    (hy : yearOf d + r.interval ≤ 262142) : ∃ e, r.add d = some e ∧ Regular r e ∧ yearOf e ≤ yearOf d + r.interval := by
  obtain ⟨⟨x, rfl, h1, h2, h3⟩ | ⟨t, rfl, ht⟩ | ⟨t, u, rfl, ht, hu, hz⟩, hl⟩ := hd
  · obtain ⟨e, a1, a2, a3, a4, a5⟩ := step_date hi ((valid_iff x).2 ⟨h2, h1⟩) ((coarse_iff _).1 h3) hl hy
    exact ⟨_, a1, ⟨.inl ⟨e, rfl, ((valid_iff e).1 a2).2, ((valid_iff e).1 a2).1, h3⟩, a5⟩, a4⟩
  · obtain ⟨e, a1, a2, a3, a4, a5⟩ := step_naive hi hi2 ((realTime_iff t).1 ht) hl hy
    exact ⟨_, a1, ⟨.inr (.inl ⟨e, rfl, (realTime_iff e).2 a2⟩), a5⟩, a4⟩
  · obtain ⟨n1, n2, -⟩ := secondsOf_some hu
    obtain ⟨e, a1, a2, a3⟩ := step_loc hz hi hi2 n1 n2 ((realTime_iff t).1 ht) hy
    exact ⟨_, a1, ⟨.inr (.inr ⟨e, u, rfl, (realTime_iff e).2 a2, hu, hz⟩), fun h => absurd h n2⟩, a3⟩

theorem regular_add {r : Recur} (hi : 1 ≤ r.interval) (hi2 : r.interval ≤ 255) {d e : Date} (hd : Regular r d) (h : r.add d = some e) :
    Regular r e := by
  obtain ⟨⟨x, rfl, h1, h2, h3⟩ | ⟨t, rfl, ht⟩ | ⟨t, u, rfl, ht, hu, hz⟩, hl⟩ := hd
  · have hf := (coarse_iff _).1 h3
    obtain ⟨e, rfl⟩ := add_date_kind hf h
    obtain ⟨hv, hlt⟩ := date_step hf hi ((valid_iff x).2 ⟨h2, h1⟩) h
    have hv' := (valid_iff e).1 hv
    refine ⟨.inl ⟨e, rfl, hv'.2, hv'.1, h3⟩, fun hy => ?_⟩
    obtain ⟨e', he, rfl, -⟩ := (add_years hy x _).1 h; cases he; exact hl hy
  · simp only [Recur.add, Recur.addDateTime, Option.map_eq_some_iff] at h
    obtain ⟨v, ⟨w, hw, rfl⟩, rfl⟩ := h
    obtain ⟨hv, hlt⟩ := naive_step hi hi2 ((realTime_iff t).1 ht) hw
    refine ⟨.inr (.inl ⟨w, rfl, (realTime_iff w).2 hv⟩), fun hy => ?_⟩
    obtain ⟨e, he, rfl⟩ := (addNaive_calendar (.inr hy) t w).1 hw
    obtain ⟨e', he', rfl, -⟩ := (add_years hy t.date _).1 he; cases he'; exact hl hy
  · obtain ⟨n1, n2, -⟩ := secondsOf_some hu
    simp only [Recur.add, Recur.addDateTime, addLocal_fixed n1 n2, Option.map_eq_some_iff] at h
    obtain ⟨v, ⟨w, hw, rfl⟩, rfl⟩ := h
    obtain ⟨hv, -⟩ := naive_step hi hi2 ((realTime_iff t).1 ht) hw
    exact ⟨.inr (.inr ⟨w, u, rfl, (realTime_iff w).2 hv, hu, hz⟩), fun h => absurd h n2⟩

theorem regular_nth {r : Recur} (hi : 1 ≤ r.interval) (hi2 : r.interval ≤ 255) {d e : Date} (hd : Regular r d) {k : Nat}
    (h : nthDate r k d = some e) : Regular r e := by
  induction k generalizing e with
  | zero => cases h; exact hd
  | succ k ih =>
    simp only [nthDate, Option.bind_eq_some_iff] at h
    obtain ⟨c, hc, h⟩ := h
    exact regular_add hi hi2 (ih hc) h

/-- The years of the progression. -/
theorem regular_years {r : Recur} (hi : 1 ≤ r.interval) (hi2 : r.interval ≤ 255) {d : Date} (hd : Regular r d) (k : Nat)
    (hy : yearOf d + r.interval * k ≤ 262142) : ∃ e, nthDate r k d = some e ∧ yearOf e ≤ yearOf d + r.interval * k := by
  induction k with
  | zero => exact ⟨d, rfl, by simp⟩
  | succ k ih =>
    have hmul : (r.interval : Int) * ((k + 1 : Nat) : Int) = r.interval * k + r.interval := by rw [Int.natCast_succ, Int.mul_add, Int.mul_one]
    rw [hmul] at hy ⊢
    obtain ⟨e, he, hye⟩ := ih (by omega)
    obtain ⟨e', h1, -, h2⟩ := step_regular hi hi2 (regular_nth hi hi2 hd he) (by omega)
    exact ⟨e', by simp only [nthDate, he, Option.bind_some]; exact h1, by omega⟩

/-! ## Starts and ends keep their distance -/

theorem year_gap {a b d e : NaiveDate} (ha : a.Ok) (hb : b.Ok) (hd : d.Ok) (he : e.Ok) (h : b.toDays - a.toDays ≤ e.toDays - d.toDays + 5)
    (hy : e.year ≤ d.year + 100) : b.year ≤ a.year + 102 := by
  have ha := year_days ha
  have hb := year_days hb
  have hd := year_days hd
  have he := year_days he
  refine Int.not_lt.1 fun hn => ?_
  have h1 := NaiveDate.daysBeforeYear_mono (show a.year + 1 ≤ b.year by omega)
  have h2 : NaiveDate.daysBeforeYear (e.year + 1) ≤ NaiveDate.daysBeforeYear (d.year + 101) := by
    have := NaiveDate.daysBeforeYear_mono (show e.year + 1 ≤ d.year + 101 by omega); omega
  have h3 : NaiveDate.daysBeforeYear (d.year + 101) ≤ NaiveDate.daysBeforeYear d.year + 36900 := by
    unfold NaiveDate.daysBeforeYear; omega
  omega

/-- The days passed in `k` steps of a fixed length. -/
theorem nth_day_shift {r : Recur} (hi : 1 ≤ r.interval) (hi2 : r.interval ≤ 255) (h1 : r.freq ≠ .monthly) (h2 : r.freq ≠ .yearly) {d a : Date} (hd : Regular r d) {k : Nat}
    (h : nthDate r k d = some a) : a.dateNaive.Ok ∧ d.dateNaive.Ok ∧
      d.dateNaive.toDays + ((k * (r.interval * unitSecs r.freq)) / 86400 : Nat) ≤ a.dateNaive.toDays + 2 ∧
      a.dateNaive.toDays ≤ d.dateNaive.toDays + ((k * (r.interval * unitSecs r.freq) + 86399) / 86400 : Nat) + 2 := by
  obtain ⟨⟨x, rfl, hx1, hx2, h3⟩ | ⟨t, rfl, ht⟩ | ⟨t, u, rfl, ht, hu, hz⟩, -⟩ := hd
  · have hf : r.freq = .daily ∨ r.freq = .weekly := by
      rcases h3 with h | h | h | h
      · exact .inl h
      · exact .inr h
      · exact absurd h h1
      · exact absurd h h2
    obtain ⟨e, rfl, he, hn⟩ := (nth_days hf ((valid_iff x).2 ⟨hx2, hx1⟩) k a).1 h
    refine ⟨he.ok, (NaiveDate.ok_iff x).2 hx1, ?_⟩
    simp only [Date.dateNaive, hn]
    have hu : unitSecs r.freq = unitDays r.freq * 86400 := by rcases hf with h | h <;> rw [h] <;> rfl
    rw [hu, ← Nat.mul_assoc r.interval, ← Nat.mul_assoc k]
    generalize k * (r.interval * unitDays r.freq) = m
    omega
  · have hv := (realTime_iff t).1 ht
    cases k with
    | zero => cases h; exact ⟨hv.1.ok, hv.1.ok, by simp [Date.dateNaive] <;> omega⟩
    | succ k =>
      rw [(nth_leap h1 h2 hi hi2 hv.2.2 k).1] at h
      have hp := plain_withoutLeap hv
      obtain ⟨t', rfl, ht', hn⟩ := (nth_fixed_naive h1 h2 hi2 hp (k + 1) a).1 h
      refine ⟨ht'.1.ok, hp.1.ok, ?_⟩
      simp only [Date.dateNaive, DateTime.dateNaive, DateTime.toNaive]
      obtain ⟨-, b1, b2⟩ := ht'
      obtain ⟨-, c1, c2⟩ := hp
      have e1 : (withoutLeapSecond t).date = t.date := rfl
      generalize (k + 1) * (r.interval * unitSecs r.freq) = S at *
      unfold NaiveDateTime.nanos NaiveDateTime.toSecs at hn
      rw [e1] at hn
      omega
  · have hv := (realTime_iff t).1 ht
    have hw := wall_days hz hv.2.1
    cases k with
    | zero => cases h; exact ⟨hw.1, hw.1, by simp <;> omega⟩
    | succ k =>
      rw [(nth_leap h1 h2 hi hi2 hv.2.2 k).2] at h
      have hp := plain_withoutLeap hv
      obtain ⟨t', rfl, ht', hn⟩ := (nth_fixed_loc h1 h2 hi2 hp (k + 1) a).1 h
      have hw' := wall_days hz ht'.2.1
      refine ⟨hw'.1, hw.1, ?_⟩
      simp only [Date.dateNaive, DateTime.dateNaive, DateTime.toNaive]
      obtain ⟨-, w1, w2⟩ := hw
      obtain ⟨-, w3, w4⟩ := hw'
      obtain ⟨-, b1, b2⟩ := ht'
      obtain ⟨-, c1, c2⟩ := hp
      have e1 : (withoutLeapSecond t).date = t.date := rfl
      generalize (k + 1) * (r.interval * unitSecs r.freq) = S at *
      unfold NaiveDateTime.nanos NaiveDateTime.toSecs at hn
      rw [e1] at hn
      omega

theorem nth_month_shift {r : Recur} (hf : r.freq = .monthly) {d a : Date} (hd : Regular r d) {k : Nat} (h : nthDate r k d = some a) :
    monthIndex a.dateNaive = monthIndex d.dateNaive + (k * r.interval : Nat) ∧
      1 ≤ a.dateNaive.month ∧ a.dateNaive.month ≤ 12 ∧ 1 ≤ d.dateNaive.month ∧ d.dateNaive.month ≤ 12 := by
  have key : ∀ (x : NaiveDate) D, x.Valid → nthDate r k (.date x) = some D → monthIndex D.dateNaive = monthIndex x + (k * r.interval : Nat) ∧
      1 ≤ D.dateNaive.month ∧ D.dateNaive.month ≤ 12 ∧ 1 ≤ x.month ∧ x.month ≤ 12 := by
    intro x D hx h
    obtain ⟨e, rfl, he, hn, -⟩ := (nth_months hf hx k D).1 h
    have h1 := ((valid_iff e).1 he).2
    have h2 := ((valid_iff x).1 hx).2
    exact ⟨hn, h1.1, h1.2.1, h2.1, h2.2.1⟩
  obtain ⟨⟨x, rfl, hx1, hx2, h3⟩ | ⟨t, rfl, ht⟩ | ⟨t, u, rfl, ht, hu, hz⟩, -⟩ := hd
  · exact key x a ((valid_iff x).2 ⟨hx2, hx1⟩) h
  · obtain ⟨e, he, rfl⟩ := (nth_calendar (.inl hf) t k a).1 h
    exact key t.date (.date e) ((realTime_iff t).1 ht).1 he
  · exact absurd hf (secondsOf_some hu).1

theorem nth_year_shift {r : Recur} (hf : r.freq = .yearly) {d a : Date} (hd : Regular r d) {k : Nat} (h : nthDate r k d = some a) :
    yearOf a = yearOf d + (k * r.interval : Nat) := by
  obtain ⟨⟨x, rfl, hx1, hx2, h3⟩ | ⟨t, rfl, ht⟩ | ⟨t, u, rfl, ht, hu, hz⟩, -⟩ := hd
  · obtain ⟨rfl, -⟩ := (nth_years hf x k a).1 h; rfl
  · obtain ⟨e, he, rfl⟩ := (nth_calendar (.inr hf) t k a).1 h
    obtain ⟨he, -⟩ := (nth_years hf t.date k _).1 he
    cases he; rfl
  · exact absurd hf (secondsOf_some hu).2.1

theorem gap_kept {r : Recur} (hi : 1 ≤ r.interval) (hi2 : r.interval ≤ 255) {d e a b : Date} (hd : Regular r d) (he : Regular r e) (hy : yearOf e ≤ yearOf d + 100)
    {k : Nat} (ha : nthDate r k d = some a) (hb : nthDate r k e = some b) : yearOf b ≤ yearOf a + 102 := by
  by_cases h1 : r.freq = .monthly
  · obtain ⟨h2, h3, h4, h5, h6⟩ := nth_month_shift h1 hd ha
    obtain ⟨g2, g3, g4, g5, g6⟩ := nth_month_shift h1 he hb
    unfold monthIndex at h2 g2
    unfold yearOf at hy ⊢
    omega
  · by_cases h2 : r.freq = .yearly
    · have h3 := nth_year_shift h2 hd ha
      have h4 := nth_year_shift h2 he hb
      omega
    · obtain ⟨p1, p2, p3, p4⟩ := nth_day_shift hi hi2 h1 h2 hd ha
      obtain ⟨q1, q2, q3, q4⟩ := nth_day_shift hi hi2 h1 h2 he hb
      exact year_gap p1 q1 p2 q2 (by omega) hy

theorem nth_lower {r : Recur} (hi : 1 ≤ r.interval) (hi2 : r.interval ≤ 255) {d a : Date} (hd : Regular r d)
    {k : Nat} (ha : nthDate r k d = some a) : yearOf d ≤ yearOf a + 1 := by
  by_cases h1 : r.freq = .monthly
  · obtain ⟨h2, h3, h4, h5, h6⟩ := nth_month_shift h1 hd ha
    unfold monthIndex at h2
    unfold yearOf
    omega
  · by_cases h2 : r.freq = .yearly
    · have h3 := nth_year_shift h2 hd ha
      omega
    · obtain ⟨p1, p2, p3, -⟩ := nth_day_shift hi hi2 h1 h2 hd ha
      have q1 := year_days p1
      have q2 := year_days p2
      refine Int.not_lt.1 fun hn => ?_
      unfold yearOf at hn
      have m1 := NaiveDate.daysBeforeYear_succ (a.dateNaive.year + 1)
      have m2 := NaiveDate.daysBeforeYear_mono (show a.dateNaive.year + 2 ≤ d.dateNaive.year by omega)
      rw [show a.dateNaive.year + 1 + 1 = a.dateNaive.year + 2 by omega] at m1
      omega

theorem onCalendar_of_year {d : Date} (h1 : -262143 ≤ yearOf d) (h2 : yearOf d ≤ 262142) : OnCalendar d := by
  match d, h1, h2 with
  | .date _, _, _ => trivial
  | .dateTime (.naive _), _, _ => trivial
  | .dateTime (.loc _), h1, h2 => exact ⟨h1, h2⟩

/-! ## Where an iteration panics -/

theorem panic_reached {s s' : α} {xs : List α} {d : Date} {r : Recur} (hd : Recurring.dtstart s = some d) (hr : Recurring.rrule s = some r)
    (h : Run s xs s') (hp : Panics s') : ∃ m k q a, Reached s d r m q ∧ xs.map some = yielded s d r m ∧
      (∀ j, j < m + k → ∀ b, pos r j (d, Recurring.dtend s) = some b → WithinUntil r b.1) ∧
      (∀ i, i < k → ∃ e ∈ Recurring.exdate s, nthDate r (m + i + 1) d = some e) ∧
      pos r (m + k) (d, Recurring.dtend s) = some a ∧
      (OffUntil r a.1 ∨ WithinUntil r a.1 ∧ pos r (m + k + 1) (d, Recurring.dtend s) = none) := by
  obtain ⟨m, q, hm, rfl, hxs⟩ := run_reached hd hr h
  obtain ⟨k, h1, a, ha, h2⟩ := (panics_iff (stateAt_dtstart _ _ _ _) (stateAt_rrule _ _ _ _)).1 hp
  rw [stateAt_exdate] at h1
  rw [stateAt_pos hm.hpos] at ha h2
  refine ⟨m, k, q, a, hm, hxs, ?_, ?_, ha, ?_⟩
  · intro j hj b hb
    rw [within_iff]
    rcases Nat.lt_or_ge j m with h' | h'
    · exact hm.hwithin j h' b hb
    · obtain ⟨c, -, hc, hw, -, -⟩ := h1 (j - m) (by omega)
      rw [stateAt_pos hm.hpos, show m + (j - m) = j by omega, hb] at hc
      cases hc
      rw [spent_past] at hw; exact hw
  · intro i hi
    obtain ⟨a, b, -, -, hb, hx⟩ := h1 i hi
    rw [stateAt_pos hm.hpos] at hb
    exact ⟨b.1, hx, pos_start hb⟩
  · rw [off_iff, within_iff]; rw [spent_past] at h2; exact h2

/-- Start and end of a component are such that only the end of the calendar can make an iteration over it panic. -/
def Spec.RegularComponent (s : α) (d : Date) (r : Recur) : Prop :=
  Regular r d ∧ ∀ e, Recurring.dtend s = some e → Regular r e

theorem pos_regular {s : α} {d : Date} {r : Recur} (hi : 1 ≤ r.interval) (hi2 : r.interval ≤ 255) (hreg : RegularComponent s d r) {k : Nat}
    {a : Date × Option Date} (h : pos r k (d, Recurring.dtend s) = some a) (hn : pos r (k + 1) (d, Recurring.dtend s) = none) :
    Regular r a.1 ∧
      (262142 < yearOf a.1 + r.interval ∨ ∃ e b, Recurring.dtend s = some e ∧ nthDate r k e = some b ∧ 262142 < yearOf b + r.interval) := by
  have ha := pos_start h
  have h1 := regular_nth hi hi2 hreg.1 ha
  refine ⟨h1, ?_⟩
  rcases Int.lt_or_le 262142 (yearOf a.1 + r.interval) with hlt | hle
  · exact .inl hlt
  · right
    obtain ⟨a', ha', -⟩ := step_regular hi hi2 h1 hle
    rw [pos_succ', h, Option.bind_some] at hn
    unfold stepBoth at hn
    rw [ha'] at hn
    simp only at hn
    cases hb : a.2 with
    | none => rw [hb] at hn; cases hn
    | some b =>
      rw [hb] at hn
      have hs := pos_isSome h
      rw [hb] at hs
      cases he : Recurring.dtend s with
      | none => simp only [he] at hs; cases hs
      | some e =>
        have hnb := pos_end h (e := e) he
        rw [hb] at hnb
        refine ⟨e, b, rfl, hnb, ?_⟩
        refine Int.not_le.1 fun hle => ?_
        obtain ⟨b', hb', -⟩ := step_regular hi hi2 (regular_nth hi hi2 (hreg.2 e he) hnb) hle
        simp only [hb', Option.map_some] at hn
        cases hn

/-- A panic is near the end of the calendar. -/
theorem panic_late {s : α} {d : Date} {r : Recur} (hi : 1 ≤ r.interval) (hi2 : r.interval ≤ 255) (hreg : RegularComponent s d r)
    (hgap : ∀ e, Recurring.dtend s = some e → yearOf e ≤ yearOf d + 100) {k : Nat}
    {a : Date × Option Date} (h : pos r k (d, Recurring.dtend s) = some a) (hn : pos r (k + 1) (d, Recurring.dtend s) = none) :
    261000 < yearOf a.1 := by
  obtain ⟨-, h1 | ⟨e, b, he, hb, h1⟩⟩ := pos_regular hi hi2 hreg h hn
  · omega
  · have := gap_kept hi hi2 hreg.1 (hreg.2 e he) (hgap e he) (pos_start h) hb
    omega

/-! ## C73 -/

/-- A start from which the steps of the rule cannot go on for ever: a date, a floating date-time, or a local date-time if the rule has a fixed
length or the zone reads wall-clock times faithfully. -/
def Spec.Bounded (r : Recur) : Date → Prop
  | .date x => RealDate x ∧ InRange x
  | .dateTime (.naive t) => RealTime t
  | .dateTime (.loc t) => (RealTime t ∧ ∃ u, secondsOf r.freq = some u) ∨
      (FaithfulZone ∧ TwoOffsets ∧ (r.freq = .monthly ∨ r.freq = .yearly) ∧ InRange (localOf t).date)

theorem dies {r : Recur} (hi : 1 ≤ r.interval) (hi2 : r.interval ≤ 255) {d : Date} (hd : Bounded r d) : ∃ K, nthDate r K d = none := by
  match d, hd with
  | .date x, hd => exact dies_any_date hi hi2 ((valid_iff x).2 ⟨hd.2, hd.1⟩)
  | .dateTime (.naive t), hd => exact dies_naive hi hi2 ((realTime_iff t).1 hd)
  | .dateTime (.loc t), .inl ⟨ht, u, hu⟩ =>
    obtain ⟨h1, h2, -⟩ := secondsOf_some hu
    exact (dies_fixed' hi hi2 h1 h2 ((realTime_iff t).1 ht)).2
  | .dateTime (.loc t), .inr ⟨hz, hne, hf, hw⟩ => exact dies_local hz hne hi hf hw

theorem regular_bounded {r : Recur} {d : Date} (h : Regular r d) : Bounded r d := by
  obtain ⟨⟨x, rfl, h1, h2, -⟩ | ⟨t, rfl, ht⟩ | ⟨t, u, rfl, ht, hu, hz⟩, -⟩ := h
  · exact ⟨h1, h2⟩
  · exact ht
  · exact .inl ⟨ht, u, hu⟩

/-- **C73**: no iteration with a positive interval goes on for ever: after finitely many occurrences it ends or panics. -/
theorem C73_fate {s : α} {d : Date} {r : Recur} (hd : Recurring.dtstart s = some d) (hr : Recurring.rrule s = some r)
    (hi : 1 ≤ r.interval) (hi2 : r.interval ≤ 255) (hb : Bounded r d) : ∃ xs s', Run s xs s' ∧ (Exhausted s' ∨ Panics s') := by
  obtain ⟨K, hK⟩ := dies hi hi2 hb
  exact fate hd hr hK

/-- **C73**: an iteration without `COUNT` and `UNTIL` always comes to a panic, that is, it never returns `None`. -/
theorem C73_endless {s : α} {d : Date} {r : Recur} (hd : Recurring.dtstart s = some d) (hr : Recurring.rrule s = some r)
    (hi : 1 ≤ r.interval) (hi2 : r.interval ≤ 255) (hb : Bounded r d) (hn : r.count = none) (hu : r.until_ = none) :
    ∃ xs s', Run s xs s' ∧ Panics s' := by
  obtain ⟨xs, s', h, he | hp⟩ := C73_fate hd hr hi hi2 hb
  · exact absurd he (C51_endless hd hr hn hu h)
  · exact ⟨xs, s', h, hp⟩

/-- **C73**: with an `UNTIL` before the year 261000 an iteration ends and does not panic (for years other than the first that can be
represented). -/
theorem C73_until {s : α} {d u : Date} {r : Recur} (hd : Recurring.dtstart s = some d) (hr : Recurring.rrule s = some r)
    (hi : 1 ≤ r.interval) (hi2 : r.interval ≤ 255) (hreg : RegularComponent s d r) (hlo : -262142 ≤ yearOf d)
    (hgap : ∀ e, Recurring.dtend s = some e → yearOf e ≤ yearOf d + 100) (hu : r.until_ = some u) (hu2 : OnCalendar u)
    (hy : yearOf u ≤ 261000) (hhi : yearOf d ≤ 262142) :
    ∃ xs s', Run s xs s' ∧ Exhausted s' := by
  obtain ⟨xs, s', h, he | hp⟩ := C73_fate hd hr hi hi2 (regular_bounded hreg.1)
  · exact ⟨xs, s', h, he⟩
  · exfalso
    have within : ∀ {i a}, pos r i (d, Recurring.dtend s) = some a → WithinUntil r a.1 → yearOf a.1 ≤ 261000 := by
      intro i a ha hw
      have := (hw u hu).2.2
      unfold EarlierDay at this
      unfold yearOf at hy ⊢
      omega
    obtain ⟨m, k, q, a, hm, -, hall, hskip, h1, h2 | ⟨h2, h3⟩⟩ := panic_reached hd hr h hp
    · obtain ⟨u', hu', hoff⟩ := h2
      rw [hu] at hu'; cases hu'
      have ha := pos_start h1
      have hl := nth_lower hi hi2 hreg.1 ha
      refine hoff ⟨onCalendar_of_year (by omega) ?_, hu2⟩
      cases hmk : m + k with
      | zero =>
        rw [hmk] at ha
        cases ha
        omega
      | succ j =>
        obtain ⟨b, hb⟩ := pos_le h1 (show j ≤ m + k by omega)
        have hbw : yearOf b.1 ≤ 261000 := within hb (hall j (by omega) b hb)
        obtain ⟨c, hc, -, hle⟩ := step_regular hi hi2 (regular_nth hi hi2 hreg.1 (pos_start hb)) (by omega)
        rw [hmk, nthDate, pos_start hb, Option.bind_some, hc] at ha
        cases ha
        omega
    · have h4 := panic_late hi hi2 hreg hgap h1 h3
      have := within h1 h2
      omega

theorem keptSteps_length (r : Recur) (ex : List Date) (d : Date) (n : Nat) (hd : ∀ i j a, i < j → nthDate r i d = some a → nthDate r j d ≠ some a)
    (hex : ∀ i, i < n → ∃ a, nthDate r i d = some a) : n ≤ (keptSteps r ex d n).length + ex.length := by
  have hsplit : (List.range n).length = (keptSteps r ex d n).length +
      ((List.range n).filter fun k => !decide (k = 0 ∨ ∀ e ∈ ex, nthDate r k d ≠ some e)).length := by
    unfold keptSteps
    have := List.length_eq_countP_add_countP (l := List.range n) (fun k => decide (k = 0 ∨ ∀ e ∈ ex, nthDate r k d ≠ some e))
    rw [List.countP_eq_length_filter, List.countP_eq_length_filter] at this
    rw [this]
    congr 2
    apply List.filter_congr
    intro k _
    rw [Bool.eq_iff_iff]; simp
  rw [List.length_range] at hsplit
  generalize hl : ((List.range n).filter fun k => !decide (k = 0 ∨ ∀ e ∈ ex, nthDate r k d ≠ some e)) = l at hsplit
  have hmem : ∀ k ∈ l, k < n ∧ ∃ e ∈ ex, nthDate r k d = some e := by
    intro k hk
    rw [← hl, List.mem_filter, List.mem_range] at hk
    refine ⟨hk.1, ?_⟩
    have := hk.2
    simp only [Bool.not_eq_true', decide_eq_false_iff_not, not_or] at this
    refine Classical.byContradiction fun hc => this.2 fun e he hn => hc ⟨e, he, hn⟩
  have hpw : l.Pairwise (· < ·) := by rw [← hl]; exact List.Pairwise.filter _ List.pairwise_lt_range
  have hlen : (l.filterMap fun k => nthDate r k d).length = l.length := by
    clear hpw hl hsplit
    induction l with
    | nil => rfl
    | cons k l ih =>
      obtain ⟨-, e, -, he⟩ := hmem k (by simp)
      simp only [List.filterMap_cons, he, List.length_cons, ih fun x hx => hmem x (by simp [hx])]
  have hle := length_le_of_nodup (l := l.filterMap fun k => nthDate r k d) (m := ex) ?_ ?_
  · omega
  · refine List.Pairwise.filterMap _ (S := (· ≠ ·)) ?_ hpw
    intro i j hij a ha b hb hab
    subst hab
    exact hd i j a hij ha hb
  · intro x hx
    obtain ⟨k, hk, hx⟩ := List.mem_filterMap.1 hx
    obtain ⟨-, e, he, h⟩ := hmem k hk
    rw [h] at hx; cases hx; exact he

theorem regular_distinct {r : Recur} (hi : 1 ≤ r.interval) (hi2 : r.interval ≤ 255) {d : Date} (hd : Regular r d) (i j : Nat) (a : Date) (hij : i < j)
    (ha : nthDate r i d = some a) : nthDate r j d ≠ some a := by
  intro hb
  have fin : Forward r d → False := by
    intro hfw
    have := forward_lt hi hi2 hfw ha hb hij
    rw [(Date.strict_order a a a).1] at this
    cases this
  obtain ⟨⟨x, rfl, h1, h2, h3⟩ | ⟨t, rfl, ht⟩ | ⟨t, u, rfl, ht, hu, hz⟩, -⟩ := hd
  · exact fin (.date ((valid_iff x).2 ⟨h2, h1⟩) ((coarse_iff _).1 h3))
  · exact fin (.naive ((realTime_iff t).1 ht))
  · obtain ⟨n1, n2, -⟩ := secondsOf_some hu
    have hv := (realTime_iff t).1 ht
    have hp := plain_withoutLeap hv
    have hpos : 1 ≤ r.interval * unitSecs r.freq := Nat.mul_le_mul hi (unitSecs_pos n1 n2)
    obtain ⟨j, rfl⟩ : ∃ j', j = j' + 1 := ⟨j - 1, by omega⟩
    rw [(nth_leap n1 n2 hi hi2 hv.2.2 j).2] at hb
    obtain ⟨t2, rfl, hp2, e2⟩ := (nth_fixed_loc n1 n2 hi2 hp _ _).1 hb
    have hmul : i * (r.interval * unitSecs r.freq) < (j + 1) * (r.interval * unitSecs r.freq) := Nat.mul_lt_mul_of_pos_right hij hpos
    cases i with
    | zero =>
      cases ha
      have h1 : (withoutLeapSecond t).toSecs = t.toSecs := rfl
      have h2 := hp.2.2
      have h3 := hp2.2.2
      unfold NaiveDateTime.nanos at e2
      omega
    | succ i =>
      rw [(nth_leap n1 n2 hi hi2 hv.2.2 i).2] at ha
      obtain ⟨t1, h1, -, e1⟩ := (nth_fixed_loc n1 n2 hi2 hp _ _).1 ha
      cases h1
      omega

/-- **C73**: with a `COUNT` that does not lead beyond the end of the calendar an iteration ends and does not panic, and it yields exactly that
many occurrences if there is no `UNTIL`. -/
theorem C73_count {s : α} {d : Date} {r : Recur} {n : Nat} (hd : Recurring.dtstart s = some d) (hr : Recurring.rrule s = some r)
    (hi : 1 ≤ r.interval) (hi2 : r.interval ≤ 255) (hreg : RegularComponent s d r) (hn : r.count = some n)
    (hy : ∀ a, a = d ∨ Recurring.dtend s = some a → yearOf a + r.interval * (n + (Recurring.exdate s).length + 1) ≤ 262142)
    (hlo : ∀ u, r.until_ = some u → OnCalendar u ∧ -262142 ≤ yearOf d) :
    ∃ xs s', Run s xs s' ∧ Exhausted s' ∧ (r.until_ = none → xs.length = n) := by
  obtain ⟨xs, s', h, he | hp⟩ := C73_fate hd hr hi hi2 (regular_bounded hreg.1)
  · exact ⟨xs, s', h, he, fun hu => C51_exactly hd hr hn hu h he⟩
  · exfalso
    obtain ⟨m, k, q, a, hm, hxs, -, hskip, h1, h2⟩ := panic_reached hd hr h hp
    have hc := hm.hcount n hn
    have hex : ∀ i, i < m + k + 1 → ∃ a, nthDate r i d = some a := by
      intro i hi
      obtain ⟨b, hb⟩ := pos_le h1 (show i ≤ m + k by omega)
      exact ⟨b.1, pos_start hb⟩
    have hlen := keptSteps_length r (Recurring.exdate s) d (m + k + 1) (regular_distinct hi hi2 hreg.1) hex
    rw [keptSteps_step k hm.kept hskip, List.length_append, List.length_singleton] at hlen
    have hbound : m + k ≤ n + (Recurring.exdate s).length := by omega
    have hmono : (r.interval : Int) * ((m + k : Nat) : Int) + r.interval ≤ r.interval * ((n : Int) + (Recurring.exdate s).length + 1) := by
      have := Nat.mul_le_mul_left r.interval (show m + k + 1 ≤ n + (Recurring.exdate s).length + 1 by omega)
      have h' : ((r.interval * (m + k + 1) : Nat) : Int) ≤ ((r.interval * (n + (Recurring.exdate s).length + 1) : Nat) : Int) := by exact_mod_cast this
      simp only [Int.natCast_mul, Int.natCast_add, Int.natCast_one, Int.mul_add, Int.mul_one] at h' ⊢
      exact h'
    have key : ∀ x b, (x = d ∨ Recurring.dtend s = some x) → Regular r x → nthDate r (m + k) x = some b → yearOf b + r.interval ≤ 262142 := by
      intro x b hx hrx hb
      have hyx := hy x hx
      obtain ⟨b', hb', hle⟩ := regular_years hi hi2 hrx (m + k) (by omega)
      rw [hb] at hb'; cases hb'
      omega
    rcases h2 with ⟨u, hu, hoff⟩ | ⟨-, h3⟩
    · have k1 := key d a.1 (.inl rfl) hreg.1 (pos_start h1)
      have k2 := nth_lower hi hi2 hreg.1 (pos_start h1)
      have k3 := hlo u hu
      exact hoff ⟨onCalendar_of_year (by omega) (by omega), k3.1⟩
    obtain ⟨-, hl | ⟨e, b, he, hb, hl⟩⟩ := pos_regular hi hi2 hreg h1 h3
    · have := key d a.1 (.inl rfl) hreg.1 (pos_start h1); omega
    · have := key e b (.inr he) (hreg.2 e he) hb; omega

theorem lt_year {x y : Date} (h : yearOf y < yearOf x) : x.lt y = false := by
  have : x.cmp y ≠ .lt := by
    intro hc
    have := (Date.lt_meaning x y).1 hc
    unfold yearOf at h
    cases x with
    | date a => exact absurd this (by simp only [EarlierDay]; simp only [Date.dateNaive] at *; omega)
    | dateTime a =>
      cases y with
      | date b => exact absurd this (by simp only [EarlierDay]; simp only [Date.dateNaive] at *; omega)
      | dateTime b => exact absurd this (by simp only [Earlier]; simp only [Date.dateNaive, DateTime.dateNaive] at *; omega)
  simp [Date.lt, this]

theorem keptSteps_prefix (r : Recur) (ex : List Date) (d : Date) {m n : Nat} (h : m ≤ n) : keptSteps r ex d m <+: keptSteps r ex d n := by
  unfold keptSteps
  refine List.IsPrefix.filter _ ?_
  rw [List.prefix_iff_eq_take, List.length_range, List.take_range, Nat.min_eq_left h]

/-- The first number with a property. -/
theorem least_of {p : Nat → Prop} {n : Nat} (h : p n) : ∃ m, m ≤ n ∧ p m ∧ ∀ i, i < m → ¬ p i := by
  induction n using Nat.strongRecOn with
  | _ n ih =>
    by_cases hc : ∃ i, i < n ∧ p i
    · obtain ⟨i, hi, hp⟩ := hc
      obtain ⟨m, h1, h2⟩ := ih i hi hp
      exact ⟨m, by omega, h2⟩
    · exact ⟨n, Nat.le_refl _, h, fun i hi hp => hc ⟨i, hi, hp⟩⟩

/-- **C73**: `between` returns `None` in the end, whatever the rule, if all years are before 260000 (and not the first that can be
represented): it stops, also when the iteration itself would not end, and it has yielded the occurrences in the range if these are in
increasing order (C60). -/
theorem C73_between {s : α} {d : Date} {r : Recur} (hd : Recurring.dtstart s = some d) (hr : Recurring.rrule s = some r)
    (hi : 1 ≤ r.interval) (hi2 : r.interval ≤ 255) (hreg : RegularComponent s d r) (hlo : -262142 ≤ yearOf d)
    (hgap : ∀ e, Recurring.dtend s = some e → yearOf e ≤ yearOf d + 100) (hy : yearOf d ≤ 260000)
    (hex : ∀ e ∈ Recurring.exdate s, yearOf e ≤ 260000) (hu : ∀ u, r.until_ = some u → OnCalendar u)
    {a b : Date} (ha0 : OnCalendar a) (hb0 : OnCalendar b) (ha : yearOf a ≤ 260000) (hb : yearOf b ≤ 260000) :
    ∃ ys, Selects (between s a b) ys ∧ (Increasing s →
      (∃ xs s', Run s xs s' ∧ ys = xs.filter fun x => !startsBefore a x && startsBefore b x) ∧
      ∀ xs s', Run s xs s' → (xs.filter fun x => !startsBefore a x && startsBefore b x) <+: ys) := by
  suffices ∃ ys, Selects (between s a b) ys by
    obtain ⟨ys, h⟩ := this
    exact ⟨ys, h, fun hinc => C63_between hinc h⟩
  obtain ⟨xs, s', h, hend⟩ := C73_fate hd hr hi hi2 (regular_bounded hreg.1)
  obtain ⟨m, hxs, hend⟩ : ∃ m, xs.map some = yielded s d r m ∧ (Exhausted s' ∨ ∃ k p,
      (∀ i, i < k → ∃ e ∈ Recurring.exdate s, nthDate r (m + i + 1) d = some e) ∧ pos r (m + k) (d, Recurring.dtend s) = some p ∧
      (OffUntil r p.1 ∨ WithinUntil r p.1 ∧ pos r (m + k + 1) (d, Recurring.dtend s) = none)) := by
    rcases hend with he | hp
    · obtain ⟨m, q, -, -, hxs⟩ := run_reached hd hr h
      exact ⟨m, hxs, .inl he⟩
    · obtain ⟨m, k, q, p, -, hxs, -, hskip, h1, h2⟩ := panic_reached hd hr h hp
      exact ⟨m, hxs, .inr ⟨k, p, hskip, h1, h2⟩⟩
  -- up to the first step beyond the year 260000 all steps are on the calendar
  have early : ∀ M, (∀ i, i < M → ∀ c, nthDate r i d = some c → yearOf c ≤ 260000) →
      ∀ i, i ≤ M → ∀ c, nthDate r i d = some c → yearOf c ≤ 260255 ∧ OnCalendar c := by
    intro M hM i hiM c hc
    have hl := nth_lower hi hi2 hreg.1 hc
    suffices yearOf c ≤ 260255 from ⟨this, onCalendar_of_year (by omega) (by omega)⟩
    cases i with
    | zero => cases hc; omega
    | succ i =>
      simp only [nthDate, Option.bind_eq_some_iff] at hc
      obtain ⟨b, hb, hc⟩ := hc
      have hyb := hM i (by omega) b hb
      obtain ⟨c', hc', -, hle⟩ := step_regular hi hi2 (regular_nth hi hi2 hreg.1 hb) (by omega)
      rw [hc] at hc'; cases hc'
      omega
  by_cases hbig : ∃ i c, i < m ∧ nthDate r i d = some c ∧ 260000 < yearOf c
  · -- stop at the first of them
    obtain ⟨i0, c0, hi0, hc0, hyc0⟩ := hbig
    obtain ⟨i, hii, ⟨him, c, hc, hyc⟩, hmin⟩ := least_of (p := fun i => i < m ∧ ∃ c, nthDate r i d = some c ∧ 260000 < yearOf c) ⟨hi0, c0, hc0, hyc0⟩
    have hM : ∀ j, j < i → ∀ c, nthDate r j d = some c → yearOf c ≤ 260000 := by
      intro j hj c hc
      exact Int.not_lt.1 fun hlt => hmin j hj ⟨by omega, c, hc, hlt⟩
    have hpre := keptSteps_prefix r (Recurring.exdate s) d (show i + 1 ≤ m by omega)
    have hkept : i ∈ keptSteps r (Recurring.exdate s) d (i + 1) := by
      unfold keptSteps
      rw [List.mem_filter, List.mem_range]
      refine ⟨by omega, decide_eq_true (.inr fun e he hn => ?_)⟩
      rw [hc] at hn
      cases hn
      have := hex _ he
      omega
    rw [← List.take_append_drop (keptSteps r (Recurring.exdate s) d (i + 1)).length xs] at h
    obtain ⟨s1, h1, -⟩ := Run.split h
    have hst : starts (xs.take (keptSteps r (Recurring.exdate s) d (i + 1)).length) =
        (keptSteps r (Recurring.exdate s) d (i + 1)).map fun k => nthDate r k d := by
      unfold starts
      rw [List.map_take]
      show (starts xs).take _ = _
      rw [starts_yielded hxs, ← List.map_take, ← List.prefix_iff_eq_take.1 hpre]
    have hx0 : some c ∈ starts (xs.take (keptSteps r (Recurring.exdate s) d (i + 1)).length) := by
      rw [hst, List.mem_map]
      exact ⟨i, hkept, hc⟩
    obtain ⟨x, hx, hxd⟩ := List.mem_map.1 hx0
    refine C63_ends h1 ha0 hb0 (fun y hy' e he => ?_) (.inr ⟨x, hx, ?_, ?_⟩)
    · have hm1 : Recurring.dtstart y ∈ starts (xs.take (keptSteps r (Recurring.exdate s) d (i + 1)).length) := List.mem_map_of_mem hy'
      rw [hst, List.mem_map] at hm1
      obtain ⟨k, hk, hke⟩ := hm1
      have hk' : k < i + 1 := by
        unfold keptSteps at hk
        exact List.mem_range.1 (List.mem_filter.1 hk).1
      exact (early i hM k (by omega) e (by rw [hke, he])).2
    · unfold startsBefore; rw [hxd]; exact lt_year (by omega)
    · unfold startsBefore; rw [hxd]; exact lt_year (by omega)
  · have hM : ∀ j, j < m → ∀ c, nthDate r j d = some c → yearOf c ≤ 260000 := fun j hj c hc =>
      Int.not_lt.1 fun hlt => hbig ⟨j, c, hj, hc, hlt⟩
    have hon : ∀ y ∈ xs, ∀ e, Recurring.dtstart y = some e → OnCalendar e := by
      intro y hy' e he
      have hm1 : Recurring.dtstart y ∈ starts xs := List.mem_map_of_mem hy'
      rw [starts_yielded hxs, List.mem_map] at hm1
      obtain ⟨k, hk, hke⟩ := hm1
      have hk' : k < m := by
        unfold keptSteps at hk
        exact List.mem_range.1 (List.mem_filter.1 hk).1
      exact (early m hM k (by omega) e (by rw [hke, he])).2
    rcases hend with he | ⟨k, p, hskip, h1, h2⟩
    · exact C63_ends h ha0 hb0 hon (.inl he)
    · exfalso
      have hp := pos_start h1
      have hyp : yearOf p.1 ≤ 260255 := by
        cases k with
        | zero => exact (early m hM m (Nat.le_refl _) p.1 hp).1
        | succ k =>
          obtain ⟨e, he, hn⟩ := hskip k (by omega)
          rw [show m + (k + 1) = m + k + 1 by omega, hn] at hp
          cases hp
          have := hex _ he
          omega
      have hl := nth_lower hi hi2 hreg.1 hp
      rcases h2 with ⟨u, hu', hoff⟩ | ⟨-, h3⟩
      · exact hoff ⟨onCalendar_of_year (by omega) (by omega), hu u hu'⟩
      · have := panic_late hi hi2 hreg hgap h1 h3
        omega

/-- **C73**: a rule with interval 0 repeats the start: it yields it any number of times, up to `COUNT`. -/
theorem C73_interval_zero {s : α} {d : Date} {r : Recur} (hd : Recurring.dtstart s = some d) (hr : Recurring.rrule s = some r) (h0 : r.interval = 0)
    (hs : ∀ a, a = d ∨ Recurring.dtend s = some a →
      (∃ x, a = .date x ∧ RealDate x ∧ InRange x ∧ (r.freq = .daily ∨ r.freq = .weekly ∨ r.freq = .monthly ∨ r.freq = .yearly)) ∨
      (∃ t, a = .dateTime (.naive t) ∧ RealTime t) ∨ ∃ t u, a = .dateTime (.loc t) ∧ RealTime t ∧ secondsOf r.freq = some u)
    (hx : d ∉ Recurring.exdate s) (hu : WithinUntil r d) (n : Nat) (hn : ∀ c, r.count = some c → n ≤ c) :
    ∃ xs s', Run s xs s' ∧ starts xs = List.replicate n (some d) := by
  have hfix : ∀ k a, (a = d ∨ Recurring.dtend s = some a) → nthDate r k a = some a := by
    intro k a ha
    induction k with
    | zero => rfl
    | succ k ih => simp only [nthDate, ih, Option.bind_some, add_zero h0 (hs a ha)]
  have hd' : ∀ k, nthDate r k d = some d := fun k => hfix k d (.inl rfl)
  have hall : keptSteps r (Recurring.exdate s) d n = List.range n := by
    unfold keptSteps
    rw [List.filter_eq_self]
    intro k _
    refine decide_eq_true (.inr fun e he h => ?_)
    rw [hd'] at h; cases h; exact hx he
  have hmap : (List.range n).map (fun k => nthDate r k d) = List.replicate n (some d) := by
    apply List.ext_getElem
    · simp
    · intro i h1 h2; simp [hd']
  refine (C54_progression hd hr _).2 ⟨n, by rw [hall, hmap], ⟨d, hd' n, fun _ => hx⟩, fun e he => ⟨e, hfix n e (.inr he)⟩, ?_, ?_⟩
  · intro i _ a ha; rw [hd'] at ha; cases ha; exact hu
  · intro c hc; simpa using hn c hc

end

/-! ## Examples and limits -/

section
attribute [local instance] utc

instance (x : NaiveDate) : Decidable (RealDate x) := inferInstanceAs (Decidable (_ ∧ _ ∧ _ ∧ _))
instance (x : NaiveDate) : Decidable (InRange x) := inferInstanceAs (Decidable (_ ∧ _))

/-- An event of two days from 31 January, every `n`th month. -/
def monthlyEvent (n : Nat) (c : Option Nat) (u : Option Date) : VEvent :=
  sampleEvent (jan 31) (some (.date ⟨2024, 2, 1⟩)) { Recur.default with freq := .monthly, interval := n, count := c, until_ := u } [.date ⟨2024, 3, 29⟩]

/-- The hypotheses of `C73_fate`, `C73_until`, `C73_count` and `C73_between`. -/
theorem monthlyEvent_regular (n : Nat) (c : Option Nat) (u : Option Date) :
    RegularComponent (monthlyEvent n c u) (jan 31) { Recur.default with freq := .monthly, interval := n, count := c, until_ := u } := by
  refine ⟨⟨.inl ⟨_, rfl, by decide, by decide, .inr (.inr (.inl rfl))⟩, by simp⟩, ?_⟩
  intro e he
  cases he
  exact ⟨.inl ⟨_, rfl, by decide, by decide, .inr (.inr (.inl rfl))⟩, by simp⟩

/-- An endless rule: the iteration comes to a panic, but `between` gives the occurrences of a year and stops. -/
example : ∃ xs s', Run (monthlyEvent 1 none none) xs s' ∧ Panics s' :=
  C73_endless rfl rfl (by decide) (by decide) (show Bounded _ (Date.date ⟨2024, 1, 31⟩) from ⟨by decide, by decide⟩) rfl rfl
example : ∃ ys, Selects (between (monthlyEvent 1 none none) (.date ⟨2025, 1, 1⟩) (.date ⟨2026, 1, 1⟩)) ys :=
  (C73_between (a := .date ⟨2025, 1, 1⟩) (b := .date ⟨2026, 1, 1⟩) (d := jan 31) rfl rfl (by decide) (by decide) (monthlyEvent_regular 1 none none) (by decide)
    (by intro e he; cases he; decide) (by decide) (by intro e he; cases List.mem_singleton.1 he; decide) (by intro u hu; cases hu)
    trivial trivial (by decide) (by decide)).imp fun _ h => h.1
/-- `COUNT`. -/
example : ∃ xs s', Run (monthlyEvent 2 (some 500) none) xs s' ∧ Exhausted s' ∧ xs.length = 500 :=
  (C73_count (d := jan 31) rfl rfl (by decide) (by decide) (monthlyEvent_regular 2 (some 500) none) rfl
    (by rintro a (rfl | h)
        · decide
        · cases h; decide) (by intro u hu; cases hu)).imp fun _ h => h.imp fun _ h => ⟨h.1, h.2.1, h.2.2 rfl⟩
/-- `UNTIL`. -/
example : ∃ xs s', Run (monthlyEvent 1 none (some (.date ⟨9999, 1, 1⟩))) xs s' ∧ Exhausted s' :=
  C73_until (d := jan 31) rfl rfl (by decide) (by decide) (monthlyEvent_regular 1 none _) (by decide) (by intro e he; cases he; decide) rfl
    trivial (by decide) (by decide)
/-- A yearly rule from 29 February is not regular, and panics at once. -/
example : Panics (sampleEvent (.date ⟨2024, 2, 29⟩) none { Recur.default with freq := .yearly, interval := 1, count := some 3 } []) :=
  ⟨by simp, 2, rfl⟩
/-- An `UNTIL` in the last year of the calendar does not keep the iteration from panicking. -/
example : Panics (sampleEvent (.date ⟨262142, 12, 31⟩) none { everyDays 1 with until_ := some (.date ⟨262142, 12, 31⟩) } []) :=
  ⟨by simp, 2, rfl⟩
/-- Interval 0: three times the same. -/
example : ∃ xs s', Run (sampleEvent (jan 1) none (everyDays 0) []) xs s' ∧ starts xs = [some (jan 1), some (jan 1), some (jan 1)] :=
  C73_interval_zero (d := jan 1) rfl rfl rfl
    (by rintro a (rfl | h)
        · exact .inl ⟨_, rfl, by decide, by decide, .inl rfl⟩
        · cases h) (by simp [sampleEvent, Recurring.exdate])
    (by intro u hu; cases hu) 3 (by intro c hc; cases hc)
end

section
attribute [local instance] summerZone

theorem summerZone_offsets : TwoOffsets := by
  intro m a b h
  change summerRead m = .ambiguous a b at h
  unfold summerRead at h
  split at h
  · cases h
  · split at h
    · cases h
    · split at h
      · cases h
      · split at h
        · cases h; decide
        · cases h

/-- C57, C58 on local date-times: six o'clock on the clocks, 5 and 4 hours UTC before and in summer. -/
example : nthDate { Recur.default with freq := .monthly, interval := 1 } 2 (.dateTime (.loc ⟨⟨0, 1, 5⟩, 18000, 0⟩)) =
      some (.dateTime (.loc ⟨⟨0, 3, 5⟩, 18000, 0⟩)) ∧
    nthDate { Recur.default with freq := .yearly, interval := 1 } 1 (.dateTime (.loc ⟨⟨-1, 1, 20⟩, 18000, 0⟩)) =
      some (.dateTime (.loc ⟨⟨0, 1, 20⟩, 14400, 0⟩)) ∧
    (localOf ⟨⟨-1, 1, 20⟩, 18000, 0⟩) = ⟨⟨-1, 1, 20⟩, 21600, 0⟩ ∧ (localOf ⟨⟨0, 1, 20⟩, 14400, 0⟩) = ⟨⟨0, 1, 20⟩, 21600, 0⟩ := by
  decide +kernel
example : Bounded { Recur.default with freq := .yearly, interval := 1 } (.dateTime (.loc ⟨⟨-1, 1, 20⟩, 18000, 0⟩)) :=
  .inr ⟨summerZone_faithful, summerZone_offsets, .inr rfl, by decide +kernel⟩
/-- Half an hour before the end of the last day of UTC the clocks show a day that cannot be represented: the comparison with `UNTIL` panics, while
without `UNTIL` the first call does not. -/
example : Panics (sampleEvent (.dateTime (.loc ⟨⟨262142, 12, 31⟩, 84600, 0⟩)) none
      { Recur.default with freq := .secondly, interval := 1, until_ := some (.date ⟨2024, 1, 1⟩) } []) ∧
    ∃ s', Yields (sampleEvent (.dateTime (.loc ⟨⟨262142, 12, 31⟩, 84600, 0⟩)) none { Recur.default with freq := .secondly, interval := 1 } [])
      (sampleEvent (.dateTime (.loc ⟨⟨262142, 12, 31⟩, 84600, 0⟩)) none { Recur.default with freq := .secondly, interval := 1 } []) s' :=
  ⟨⟨by simp, 2, rfl⟩, _, by simp, 2, rfl⟩
end

end Ikal
