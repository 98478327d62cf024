import Verif.Lemmas.Steps
import Verif.Props.Recur

/-!
# Dates of occurrences (C56–C61, C65)

The interval of a rule is a `u8` in the code: `r.interval ≤ 255` below.
-/

namespace Ikal

open Spec

set_option linter.unusedSectionVars false
set_option linter.unusedSimpArgs false

section
variable [Platform]

/-! ## C56 -/

/-- The length of a fixed-length frequency in seconds, as RFC 5545 has it. -/
def Spec.secondsOf : Freq → Option Nat
  | .secondly => some 1
  | .minutely => some 60
  | .hourly => some (60 * 60)
  | .daily => some (24 * 60 * 60)
  | .weekly => some (7 * 24 * 60 * 60)
  | .monthly => none
  | .yearly => none

theorem secondsOf_some {f : Freq} {u : Nat} (h : secondsOf f = some u) : f ≠ .monthly ∧ f ≠ .yearly ∧ unitSecs f = u := by
  cases f <;> simp [secondsOf] at h <;> simp [unitSecs, h]

/-- **C56**: on a floating date-time the `k`th step of a rule of a fixed length is exactly `k` times interval times the length later, and it
exists exactly when that time is representable. -/
theorem C56_floating {r : Recur} {u : Nat} (hf : secondsOf r.freq = some u) (hi : r.interval ≤ 255) {t : NaiveDateTime} (ht : NoLeapSecond t)
    (k : Nat) (D : Date) : nthDate r k (.dateTime (.naive t)) = some D ↔
      ∃ t', D = .dateTime (.naive t') ∧ NoLeapSecond t' ∧ t'.toSecs = t.toSecs + k * (r.interval * u) ∧ t'.frac = t.frac := by
  obtain ⟨h1, h2, rfl⟩ := secondsOf_some hf
  rw [nth_fixed_naive h1 h2 hi ((plain_iff t).1 ht)]
  refine exists_congr fun t' => and_congr Iff.rfl ?_
  rw [plain_iff]
  refine and_congr_right fun hp => ?_
  have a := ((plain_iff t).1 ht).2.2
  have b := hp.2.2
  unfold NaiveDateTime.nanos
  simp only [Int.natCast_mul]
  constructor
  · intro h; omega
  · rintro ⟨h, h'⟩; rw [h, h']; omega

/-- **C56**: on a local date-time the same is true of the UTC instants. -/
theorem C56_local {r : Recur} {u : Nat} (hf : secondsOf r.freq = some u) (hi : r.interval ≤ 255) {t : NaiveDateTime} (ht : NoLeapSecond t)
    (k : Nat) (D : Date) : nthDate r k (.dateTime (.loc t)) = some D ↔
      ∃ t', D = .dateTime (.loc t') ∧ NoLeapSecond t' ∧ t'.toSecs = t.toSecs + k * (r.interval * u) ∧ t'.frac = t.frac := by
  obtain ⟨h1, h2, rfl⟩ := secondsOf_some hf
  rw [nth_fixed_loc h1 h2 hi ((plain_iff t).1 ht)]
  refine exists_congr fun t' => and_congr Iff.rfl ?_
  rw [plain_iff]
  refine and_congr_right fun hp => ?_
  have a := ((plain_iff t).1 ht).2.2
  have b := hp.2.2
  unfold NaiveDateTime.nanos
  simp only [Int.natCast_mul]
  constructor
  · intro h; omega
  · rintro ⟨h, h'⟩; rw [h, h']; omega

/-- **C56**: a start in a leap second: the first step of a rule of a fixed length with a positive interval, and all later ones, are those of
a start in the second before it (the leap second is lost); with interval 0 it stays where it is. -/
theorem C56_leap_second {r : Recur} {u : Nat} (hf : secondsOf r.freq = some u) (hi : r.interval ≤ 255) {t : NaiveDateTime} (ht : RealTime t)
    (k : Nat) :
    (1 ≤ r.interval →
      nthDate r (k + 1) (.dateTime (.naive t)) = nthDate r (k + 1) (.dateTime (.naive (withoutLeapSecond t))) ∧
      nthDate r (k + 1) (.dateTime (.loc t)) = nthDate r (k + 1) (.dateTime (.loc (withoutLeapSecond t))) ∧
      NoLeapSecond (withoutLeapSecond t)) ∧
    (r.interval = 0 →
      nthDate r k (.dateTime (.naive t)) = some (.dateTime (.naive t)) ∧ nthDate r k (.dateTime (.loc t)) = some (.dateTime (.loc t))) := by
  obtain ⟨h1, h2, rfl⟩ := secondsOf_some hf
  constructor
  · intro h
    obtain ⟨a, b⟩ := nth_leap h1 h2 h hi ht.2.2.2 k
    exact ⟨a, b, (plain_iff _).2 (plain_withoutLeap ((realTime_iff t).1 ht))⟩
  · intro h
    have hs := addNaive_still h1 h2 h ((realTime_iff t).1 ht)
    induction k with
    | zero => exact ⟨rfl, rfl⟩
    | succ k ih =>
      simp only [nthDate, ih.1, ih.2, Option.bind_some, Recur.add, Recur.addDateTime, addLocal_fixed h1 h2, hs, Option.map_some]
      trivial

theorem daysLater_iff {d e : NaiveDate} (hd : RealDate d) (n : Nat) : e = daysLater n d ↔ RealDate e ∧ e.toDays = d.toDays + n := by
  obtain ⟨h1, h2⟩ := NaiveDate.daysLater_spec n d ((NaiveDate.ok_iff d).2 hd)
  constructor
  · rintro rfl; exact ⟨(NaiveDate.ok_iff _).1 h1, h2⟩
  · rintro ⟨h3, h4⟩; exact NaiveDate.toDays_inj ((NaiveDate.ok_iff e).2 h3) h1 (by omega)

/-- **C56**: on a date the `k`th step of a daily rule is `k` times the interval days later. -/
theorem C56_daily {r : Recur} (hf : r.freq = .daily) {d : NaiveDate} (hd : RealDate d) (hr : InRange d) (k : Nat) (D : Date) :
    nthDate r k (.date d) = some D ↔ D = .date (daysLater (k * r.interval) d) ∧ InRange (daysLater (k * r.interval) d) := by
  rw [nth_days (.inl hf) ((valid_iff d).2 ⟨hr, hd⟩)]
  simp only [hf, unitDays, Nat.mul_one]
  constructor
  · rintro ⟨e, rfl, he, hn⟩
    have := (daysLater_iff hd (k * r.interval)).2 ⟨((valid_iff e).1 he).2, hn⟩
    exact ⟨by rw [this], this ▸ ((valid_iff e).1 he).1⟩
  · rintro ⟨rfl, hin⟩
    obtain ⟨h1, h2⟩ := (daysLater_iff hd (k * r.interval)).1 rfl
    exact ⟨_, rfl, (valid_iff _).2 ⟨hin, h1⟩, h2⟩

/-- **C56**: on a date the `k`th step of a weekly rule is `k` times the interval times seven days later. -/
theorem C56_weekly {r : Recur} (hf : r.freq = .weekly) {d : NaiveDate} (hd : RealDate d) (hr : InRange d) (k : Nat) (D : Date) :
    nthDate r k (.date d) = some D ↔ D = .date (daysLater (k * r.interval * 7) d) ∧ InRange (daysLater (k * r.interval * 7) d) := by
  rw [nth_days (.inr hf) ((valid_iff d).2 ⟨hr, hd⟩)]
  simp only [hf, unitDays, ← Nat.mul_assoc]
  constructor
  · rintro ⟨e, rfl, he, hn⟩
    have := (daysLater_iff hd (k * r.interval * 7)).2 ⟨((valid_iff e).1 he).2, hn⟩
    exact ⟨by rw [this], this ▸ ((valid_iff e).1 he).1⟩
  · rintro ⟨rfl, hin⟩
    obtain ⟨h1, h2⟩ := (daysLater_iff hd (k * r.interval * 7)).1 rfl
    exact ⟨_, rfl, (valid_iff _).2 ⟨hin, h1⟩, h2⟩

/-- **C56**: steps of a daily rule on a floating date-time keep the time of the day and move the date by `k` times the interval days. -/
theorem C56_time_of_day {r : Recur} {n : Nat} (hf : r.freq = .daily ∧ n = 1 ∨ r.freq = .weekly ∧ n = 7) (hi : r.interval ≤ 255)
    {t t' : NaiveDateTime} (ht : NoLeapSecond t) (k : Nat) (h : nthDate r k (.dateTime (.naive t)) = some (.dateTime (.naive t'))) :
    t'.secs = t.secs ∧ t'.frac = t.frac ∧ t'.date = daysLater (k * r.interval * n) t.date := by
  have key : t'.toSecs = t.toSecs + 86400 * (k * r.interval * n : Nat) ∧ t'.frac = t.frac ∧ NoLeapSecond t' := by
    rcases hf with ⟨hf, rfl⟩ | ⟨hf, rfl⟩
    · obtain ⟨x, hx, h1, h2, h3⟩ := (C56_floating (u := 24 * 60 * 60) (by rw [hf]; rfl) hi ht k _).1 h
      cases hx
      refine ⟨?_, h3, h1⟩
      rw [h2]
      simp only [Nat.mul_one]
      rw [← Int.mul_assoc, ← Int.natCast_mul]
      omega
    · obtain ⟨x, hx, h1, h2, h3⟩ := (C56_floating (u := 7 * 24 * 60 * 60) (by rw [hf]; rfl) hi ht k _).1 h
      cases hx
      refine ⟨?_, h3, h1⟩
      rw [h2]
      rw [← Int.mul_assoc, ← Int.natCast_mul]
      omega
  obtain ⟨h1, h2, h3⟩ := key
  obtain ⟨a1, a2, a3, a4⟩ := ht
  obtain ⟨b1, b2, b3, b4⟩ := h3
  unfold NaiveDateTime.toSecs at h1
  refine ⟨by omega, h2, ?_⟩
  exact (daysLater_iff a1 _).2 ⟨b1, by omega⟩

/-! ## C57 -/

/-- **C57**: a monthly step lands on the same day of the month `interval` months later, or on the last day of that month if it is shorter;
it fails only out of the range of years. -/
theorem C57_step {r : Recur} (hf : r.freq = .monthly) {d : NaiveDate} (hd : RealDate d) (hr : InRange d) (D : Date) :
    r.add (.date d) = some D ↔ ∃ e : NaiveDate, D = .date e ∧ MonthsLater r.interval d e ∧ InRange e :=
  add_months hf ((valid_iff d).2 ⟨hr, hd⟩) D

/-- **C57**: after `k` steps the month is `k` times the interval months later, and the day is the smallest of the original day and the
lengths of all the months visited: a day that was clamped once stays clamped. -/
theorem C57_clamped {r : Recur} (hf : r.freq = .monthly) {d : NaiveDate} (hd : RealDate d) (hr : InRange d) (k : Nat) (D : Date) :
    nthDate r k (.date d) = some D ↔
      ∃ e : NaiveDate, D = .date e ∧ RealDate e ∧ InRange e ∧ monthIndex e = monthIndex d + (k * r.interval : Nat) ∧
        e.day ≤ d.day ∧ (∀ j, 1 ≤ j → j ≤ k → e.day ≤ lengthOfMonth (monthIndex d + (j * r.interval : Nat))) ∧
        (e.day = d.day ∨ ∃ j, 1 ≤ j ∧ j ≤ k ∧ e.day = lengthOfMonth (monthIndex d + (j * r.interval : Nat))) := by
  rw [nth_months hf ((valid_iff d).2 ⟨hr, hd⟩)]
  refine exists_congr fun e => and_congr Iff.rfl ?_
  rw [valid_iff, and_comm (a := InRange e), and_assoc]

/-- **C57**, **C58**: on a floating date-time monthly and yearly rules move the date as they do on dates, and keep the time of the day. -/
theorem C57_time {r : Recur} (hf : r.freq = .monthly ∨ r.freq = .yearly) (t : NaiveDateTime) (k : Nat) (D : Date) :
    nthDate r k (.dateTime (.naive t)) = some D ↔
      ∃ e, nthDate r k (.date t.date) = some (.date e) ∧ D = .dateTime (.naive { t with date := e }) := nth_calendar hf t k D

/-- **C57**, **C58**: on a local date-time monthly and yearly rules move the wall-clock date as they do on dates, and the result is the
instant with that wall-clock time; there must be exactly one, and it must be in the range of years, and for yearly rules not in a leap second
at the very end of it. -/
theorem C57_local {r : Recur} (hf : r.freq = .monthly ∨ r.freq = .yearly) (u : NaiveDateTime)
    (hu : r.interval ≠ 0 ∨ OnClock (.loc u)) (D : Date) :
    r.add (.dateTime (.loc u)) = some D ↔
      ∃ e off, r.add (.date (DateTime.loc u).toNaive.date) = some (.date e) ∧
        Platform.tzLocal ({ (DateTime.loc u).toNaive with date := e } : NaiveDateTime).toSecs = .single off ∧
        InRange (({ (DateTime.loc u).toNaive with date := e } : NaiveDateTime).shift (-off)).date ∧
        (r.freq = .yearly → ¬ Earlier lastInstant (({ (DateTime.loc u).toNaive with date := e } : NaiveDateTime).shift (-off))) ∧
        D = .dateTime (.loc (({ (DateTime.loc u).toNaive with date := e } : NaiveDateTime).shift (-off))) := by
  have hloc : ∀ v, r.addLocal u = some v ↔ ∃ w, r.addNaive (DateTime.loc u).toNaive = some w ∧ localSingle w = some v ∧
      (r.freq = .yearly → v.cmp .MIN ≠ .lt ∧ v.cmp .MAX ≠ .gt) := by
    intro v
    unfold Recur.addLocal Recur.addNaive DateTime.toNaive
    have keep : ∀ x : NaiveDateTime, (if x.cmp .MIN ≠ .lt ∧ x.cmp .MAX ≠ .gt then some x else none) = some v ↔
        x = v ∧ (v.cmp .MIN ≠ .lt ∧ v.cmp .MAX ≠ .gt) := by
      intro x
      split
      · next h =>
        constructor
        · intro e; cases e; exact ⟨rfl, h⟩
        · intro e; rw [e.1]
      · next h =>
        constructor
        · intro e; cases e
        · rintro ⟨rfl, h'⟩; exact absurd h' h
    rcases hf with h | h
    · simp only [h, Option.bind_eq_bind, Option.bind_eq_some_iff, reduceCtorEq, false_implies, and_true]
    · simp only [h, forall_const]
      by_cases h0 : r.interval = 0
      · have hu := hu.resolve_left (fun h => h h0)
        have hv := (valid_iff _).2 ⟨hu, (NaiveDate.ok_iff _).1 (NaiveDateTime.shift_ok u _).1⟩
        have : (localOf u).withYear ((localOf u).date.year + (0 : Nat)) = some (localOf u) := by
          unfold NaiveDateTime.withYear NaiveDate.withYear
          rw [show (localOf u).date.year + ((0 : Nat) : Int) = (localOf u).date.year by omega]
          rw [fromYmdOpt_of hv]
        simp only [h0, if_true, this, Option.bind_eq_bind, Option.bind_eq_some_iff, keep]
        constructor
        · rintro ⟨w, h1, x, h2, rfl, h3⟩; exact ⟨w, h1, h2, h3⟩
        · rintro ⟨w, h1, h2, h3⟩; exact ⟨w, h1, v, h2, rfl, h3⟩
      simp only [if_neg h0, Option.bind_eq_bind, Option.bind_eq_some_iff, keep]
      constructor
      · rintro ⟨w, h1, x, h2, rfl, h3⟩; exact ⟨w, h1, h2, h3⟩
      · rintro ⟨w, h1, h2, h3⟩; exact ⟨w, h1, v, h2, rfl, h3⟩
  have bounds : ∀ (x : NaiveDateTime) (off : Int), InRange (x.shift (-off)).date →
      ((x.shift (-off)).cmp .MIN ≠ .lt ∧ (x.shift (-off)).cmp .MAX ≠ .gt ↔ ¬ Earlier lastInstant (x.shift (-off))) := by
    intro x off hr
    have hok := (NaiveDate.ok_iff _).1 (NaiveDateTime.shift_ok x (-off)).1
    have h1 : (x.shift (-off)).cmp .MIN ≠ .lt := by
      intro h
      have h := (earlier_iff _ _).1 h
      have e : NaiveDateTime.MIN = ⟨⟨-262143, 1, 1⟩, 0, 0⟩ := rfl
      rw [e] at h
      obtain ⟨a, -⟩ := hr
      obtain ⟨b, c, d, -⟩ := hok
      unfold Earlier at h
      simp only at h
      omega
    have h2 : (x.shift (-off)).cmp .MAX = .gt ↔ Earlier lastInstant (x.shift (-off)) := NaiveDateTime.cmp_gt_iff.trans (earlier_iff _ _)
    exact ⟨fun h h' => h.2 (h2.2 h'), fun h => ⟨h1, fun h' => h (h2.1 h')⟩⟩
  simp only [Recur.add, Recur.addDateTime, Option.map_eq_some_iff, hloc, addNaive_calendar hf]
  constructor
  · rintro ⟨v, ⟨w, ⟨x, ⟨e, he, rfl⟩, hs, hm⟩, rfl⟩, rfl⟩
    unfold localSingle at hs
    split at hs
    · next off ho =>
      obtain ⟨hr, rfl⟩ := utcOf_iff.1 hs
      exact ⟨e, off, he, ho, hr, fun hy => (bounds _ _ hr).1 (hm hy), rfl⟩
    · cases hs
  · rintro ⟨e, off, he, ho, hr, hm, rfl⟩
    refine ⟨_, ⟨_, ⟨_, ⟨e, he, rfl⟩, ?_, fun hy => (bounds _ _ hr).2 (hm hy)⟩, rfl⟩, rfl⟩
    unfold localSingle
    rw [ho]
    exact utcOf_iff.2 ⟨hr, rfl⟩

/-! ## C58 -/

/-- **C58**: a yearly step lands on the same month and day `interval` years later. -/
theorem C58_step {r : Recur} (hf : r.freq = .yearly) (d : NaiveDate) (D : Date) :
    r.add (.date d) = some D ↔ ∃ e : NaiveDate, D = .date e ∧ e.year = d.year + r.interval ∧ e.month = d.month ∧ e.day = d.day ∧
      InRange e ∧ RealDate e := by
  rw [add_years hf]
  refine exists_congr fun e => and_congr Iff.rfl ?_
  constructor
  · rintro ⟨rfl, h⟩; exact ⟨rfl, rfl, rfl, h⟩
  · rintro ⟨h1, h2, h3, h⟩
    refine ⟨?_, h⟩
    cases e
    simp only at h1 h2 h3
    rw [h1, h2, h3]

/-- **C58**: it panics exactly when the date does not exist (29 February of a year that is not a leap year) or its year is too large. -/
theorem C58_panics {r : Recur} (hf : r.freq = .yearly) {d : NaiveDate} (hd : RealDate d) (hr : InRange d) :
    r.add (.date d) = none ↔ d.month = 2 ∧ d.day = 29 ∧ ¬ Leap (d.year + r.interval) ∨ d.year + r.interval > 262142 := by
  have hiff : r.add (.date d) = none ↔ ¬ (InRange ⟨d.year + r.interval, d.month, d.day⟩ ∧ RealDate ⟨d.year + r.interval, d.month, d.day⟩) := by
    cases h : r.add (.date d) with
    | none =>
      simp only [true_iff]
      intro hx
      have := (add_years hf d _).2 ⟨_, rfl, rfl, hx⟩
      rw [h] at this; cases this
    | some D =>
      obtain ⟨e, -, rfl, hx⟩ := (add_years hf d D).1 h
      simp [hx]
  rw [hiff]
  clear hiff
  obtain ⟨h1, h2, h3, h4⟩ := hd
  unfold InRange RealDate monthLength at *
  simp only at *
  by_cases hm : d.month = 2
  · simp only [hm, if_true] at *
    by_cases hl : Leap (d.year + r.interval)
    · rw [if_pos hl]
      have : d.day ≤ 29 := by split at h4 <;> omega
      simp only [hl, not_true, and_false, false_or]
      omega
    · rw [if_neg hl]
      have : d.day ≤ 29 := by split at h4 <;> omega
      simp only [hl, not_false_eq_true, and_true, true_and]
      omega
  · simp only [hm, if_false, false_and, false_or] at *
    omega

/-- **C58**: after `k` steps. -/
theorem C58_progression {r : Recur} (hf : r.freq = .yearly) (d : NaiveDate) (k : Nat) (D : Date) :
    nthDate r k (.date d) = some D ↔ D = .date ⟨d.year + (k * r.interval : Nat), d.month, d.day⟩ ∧
      ∀ j, 1 ≤ j → j ≤ k → InRange ⟨d.year + (j * r.interval : Nat), d.month, d.day⟩ ∧
        RealDate ⟨d.year + (j * r.interval : Nat), d.month, d.day⟩ := nth_years hf d k D

end

section
variable [Platform] {α : Type} [Recurring α] [LawfulRecurring α]

/-! ## C59 -/

theorem mem_nth {s s' x : α} {xs : List α} {d : Date} {r : Recur} (hd : Recurring.dtstart s = some d) (hr : Recurring.rrule s = some r)
    (h : Run s xs s') (hx : x ∈ xs) : ∃ k a, Recurring.dtstart x = some a ∧ nthDate r k d = some a ∧
      (∀ e, Recurring.dtend s = some e → ∃ b, nthDate r k e = some b ∧ Recurring.dtend x = some b) := by
  obtain ⟨m, q, hm, -, hxs⟩ := run_reached hd hr h
  obtain ⟨j, k, q', hk, hq', rfl⟩ := mem_yielded hxs hx
  obtain ⟨h1, h2, h3⟩ := pos_iff.1 hq'
  refine ⟨k, q'.1, stateAt_dtstart _ _ _ _, h1, fun e he => ?_⟩
  rw [stateAt_dtend hq']
  have h4 := h3 e he
  simp only [he] at h2
  cases hq : q'.2 with
  | none => rw [hq] at h2; cases h2
  | some b => rw [hq] at h4; exact ⟨b, h4, rfl⟩

/-- **C59**: all occurrences of a component with floating start and end and a rule of a fixed length last equally long. -/
theorem C59_floating {s s' x : α} {xs : List α} {t e : NaiveDateTime} {r : Recur} {u : Nat}
    (hd : Recurring.dtstart s = some (.dateTime (.naive t))) (he : Recurring.dtend s = some (.dateTime (.naive e)))
    (hr : Recurring.rrule s = some r) (hf : secondsOf r.freq = some u) (hi : r.interval ≤ 255) (ht : NoLeapSecond t) (hel : NoLeapSecond e)
    (h : Run s xs s') (hx : x ∈ xs) :
    ∃ t' e', Recurring.dtstart x = some (.dateTime (.naive t')) ∧ Recurring.dtend x = some (.dateTime (.naive e')) ∧
      e'.since t' = e.since t := by
  obtain ⟨k, a, hxa, hna, hend⟩ := mem_nth hd hr h hx
  obtain ⟨b, hnb, hxb⟩ := hend _ he
  obtain ⟨h1, h2, rfl⟩ := secondsOf_some hf
  obtain ⟨t', rfl, htp, htn⟩ := (nth_fixed_naive h1 h2 hi ((plain_iff t).1 ht) k a).1 hna
  obtain ⟨e', rfl, hep, hen⟩ := (nth_fixed_naive h1 h2 hi ((plain_iff e).1 hel) k b).1 hnb
  refine ⟨t', e', hxa, hxb, ?_⟩
  have e1 := NaiveDateTime.since_nanos hep.2.2 htp.2.2
  have e2 := NaiveDateTime.since_nanos ((plain_iff e).1 hel).2.2 ((plain_iff t).1 ht).2.2
  have : (e'.since t').nanos = (e.since t).nanos := by omega
  cases hs1 : e'.since t' with
  | mk n1 => cases hs2 : e.since t with
    | mk n2 => rw [hs1, hs2] at this; simp only at this; rw [this]

/-- **C59**: the same for local date-times and the time that passes. -/
theorem C59_local {s s' x : α} {xs : List α} {t e : NaiveDateTime} {r : Recur} {u : Nat}
    (hd : Recurring.dtstart s = some (.dateTime (.loc t))) (he : Recurring.dtend s = some (.dateTime (.loc e)))
    (hr : Recurring.rrule s = some r) (hf : secondsOf r.freq = some u) (hi : r.interval ≤ 255) (ht : NoLeapSecond t) (hel : NoLeapSecond e)
    (h : Run s xs s') (hx : x ∈ xs) :
    ∃ t' e', Recurring.dtstart x = some (.dateTime (.loc t')) ∧ Recurring.dtend x = some (.dateTime (.loc e')) ∧
      e'.since t' = e.since t := by
  obtain ⟨k, a, hxa, hna, hend⟩ := mem_nth hd hr h hx
  obtain ⟨b, hnb, hxb⟩ := hend _ he
  obtain ⟨h1, h2, rfl⟩ := secondsOf_some hf
  obtain ⟨t', rfl, htp, htn⟩ := (nth_fixed_loc h1 h2 hi ((plain_iff t).1 ht) k a).1 hna
  obtain ⟨e', rfl, hep, hen⟩ := (nth_fixed_loc h1 h2 hi ((plain_iff e).1 hel) k b).1 hnb
  refine ⟨t', e', hxa, hxb, ?_⟩
  have e1 := NaiveDateTime.since_nanos hep.2.2 htp.2.2
  have e2 := NaiveDateTime.since_nanos ((plain_iff e).1 hel).2.2 ((plain_iff t).1 ht).2.2
  have : (e'.since t').nanos = (e.since t).nanos := by omega
  cases hs1 : e'.since t' with
  | mk n1 => cases hs2 : e.since t with
    | mk n2 => rw [hs1, hs2] at this; simp only at this; rw [this]

/-- **C59**: for dates and daily or weekly rules: the end is as many days after the start. -/
theorem C59_days {s s' x : α} {xs : List α} {d : NaiveDate} {n : Nat} {r : Recur}
    (hd : Recurring.dtstart s = some (.date d)) (he : Recurring.dtend s = some (.date (daysLater n d)))
    (hr : Recurring.rrule s = some r) (hf : r.freq = .daily ∨ r.freq = .weekly) (hreal : RealDate d) (hin : InRange d)
    (hin' : InRange (daysLater n d)) (h : Run s xs s') (hx : x ∈ xs) :
    ∃ d', Recurring.dtstart x = some (.date d') ∧ Recurring.dtend x = some (.date (daysLater n d')) := by
  obtain ⟨k, a, hxa, hna, hend⟩ := mem_nth hd hr h hx
  obtain ⟨b, hnb, hxb⟩ := hend _ he
  obtain ⟨hn1, hn2⟩ := (daysLater_iff hreal n).1 rfl
  obtain ⟨d', rfl, hdv, hdn⟩ := (nth_days hf ((valid_iff _).2 ⟨hin, hreal⟩) k a).1 hna
  obtain ⟨e', rfl, hev, hen⟩ := (nth_days hf ((valid_iff _).2 ⟨hin', hn1⟩) k b).1 hnb
  refine ⟨d', hxa, ?_⟩
  rw [hxb, (daysLater_iff ((valid_iff d').1 hdv).2 n).2 ⟨((valid_iff e').1 hev).2, by omega⟩]

/-! ## C60 -/

/-- The dates on which the steps of a rule go strictly forward in the order of dates. -/
inductive Forward (r : Recur) : Date → Prop
  | date {d : NaiveDate} : d.Valid → Freq.daily.rank ≤ r.freq.rank → Forward r (.date d)
  | naive {t : NaiveDateTime} : t.Valid → Forward r (.dateTime (.naive t))

theorem date_step {r : Recur} (hf : Freq.daily.rank ≤ r.freq.rank) (hi : 1 ≤ r.interval) {d e : NaiveDate} (hd : d.Valid)
    (h : r.add (.date d) = some (.date e)) : e.Valid ∧ d.cmp e = .lt := by
  have hdays : r.freq = .daily ∨ r.freq = .weekly → e.Valid ∧ d.cmp e = .lt := by
    intro hf
    obtain ⟨e', he, hv, hn⟩ := (add_days hf d _).1 h
    cases he
    refine ⟨hv, ?_⟩
    rw [NaiveDate.cmp_eq_compare hd.ok hv.ok, Int.compare_eq_lt, hn]
    have : 1 ≤ r.interval * unitDays r.freq := by rcases hf with h | h <;> rw [h] <;> simp only [unitDays] <;> omega
    omega
  cases hfr : r.freq with
  | secondly => rw [hfr] at hf; exact absurd hf (by decide)
  | minutely => rw [hfr] at hf; exact absurd hf (by decide)
  | hourly => rw [hfr] at hf; exact absurd hf (by decide)
  | daily => exact hdays (.inl hfr)
  | weekly => exact hdays (.inr hfr)
  | monthly =>
    obtain ⟨e', he, ⟨hre, hix, -⟩, hin⟩ := (add_months hfr hd _).1 h
    cases he
    refine ⟨(valid_iff _).2 ⟨hin, hre⟩, ?_⟩
    obtain ⟨a1, a2, -⟩ := ((valid_iff _).1 hd).2
    obtain ⟨b1, b2, -⟩ := hre
    rw [NaiveDate.cmp_lt_iff]
    unfold monthIndex at hix
    omega
  | yearly =>
    obtain ⟨e', he, rfl, hin, hre⟩ := (add_years hfr d _).1 h
    cases he
    refine ⟨(valid_iff _).2 ⟨hin, hre⟩, ?_⟩
    rw [NaiveDate.cmp_lt_iff]
    simp only
    omega

theorem cmp_of_toSecs {a b : NaiveDateTime} (ha : a.Valid) (hb : b.Valid) (h : a.toSecs < b.toSecs) : a.cmp b = .lt := by
  rw [NaiveDateTime.cmp_lt_iff]
  have h1 := ha.2.1
  have h2 := hb.2.1
  unfold NaiveDateTime.toSecs at h
  by_cases hd : a.date.toDays < b.date.toDays
  · left; rw [NaiveDate.cmp_eq_compare ha.1.ok hb.1.ok, Int.compare_eq_lt]; exact hd
  · right; exact ⟨NaiveDate.toDays_inj ha.1.ok hb.1.ok (by omega), .inl (by omega)⟩

theorem naive_step {r : Recur} (hi : 1 ≤ r.interval) (hi2 : r.interval ≤ 255) {t t' : NaiveDateTime} (ht : t.Valid)
    (h : r.addNaive t = some t') : t'.Valid ∧ t.cmp t' = .lt := by
  by_cases hcal : r.freq = .monthly ∨ r.freq = .yearly
  · obtain ⟨e, he, rfl⟩ := (addNaive_calendar hcal t t').1 h
    have hrank : Freq.daily.rank ≤ r.freq.rank := by rcases hcal with h | h <;> rw [h] <;> decide
    obtain ⟨h1, h2⟩ := date_step hrank hi ht.1 he
    exact ⟨⟨h1, ht.2⟩, NaiveDateTime.cmp_lt_iff.2 (.inl h2)⟩
  · have n1 : r.freq ≠ .monthly := fun hx => hcal (.inl hx)
    have n2 : r.freq ≠ .yearly := fun hx => hcal (.inr hx)
    rw [addNaive_leap n1 n2 hi hi2 ht.2.2] at h
    have hp := plain_withoutLeap ht
    obtain ⟨h1, h2⟩ := (addNaive_fixed n1 n2 hi2 hp.2.2).1 h
    refine ⟨h1.valid, cmp_of_toSecs ht h1.valid ?_⟩
    have : 1 ≤ r.interval * unitSecs r.freq := Nat.mul_le_mul hi (unitSecs_pos n1 n2)
    have e : (withoutLeapSecond t).toSecs = t.toSecs := rfl
    have a := hp.2.2
    have b := h1.2.2
    unfold NaiveDateTime.nanos at h2
    omega

theorem forward_step {r : Recur} (hi : 1 ≤ r.interval) (hi2 : r.interval ≤ 255) {a b : Date} (ha : Forward r a) (h : r.add a = some b) :
    Forward r b ∧ a.cmp b = .lt := by
  cases ha with
  | date hd hf =>
    obtain ⟨e, rfl⟩ := add_date_kind hf h
    obtain ⟨h1, h2⟩ := date_step hf hi hd h
    exact ⟨.date h1 hf, h2⟩
  | naive ht =>
    simp only [Recur.add, Recur.addDateTime, Option.map_eq_some_iff] at h
    obtain ⟨v, ⟨w, hw, rfl⟩, rfl⟩ := h
    obtain ⟨h1, h2⟩ := naive_step hi hi2 ht hw
    exact ⟨.naive h1, h2⟩

theorem forward_nth {r : Recur} (hi : 1 ≤ r.interval) (hi2 : r.interval ≤ 255) {d : Date} (hd : Forward r d) {k : Nat} {a : Date}
    (h : nthDate r k d = some a) : Forward r a := by
  induction k generalizing a with
  | zero => cases h; exact hd
  | succ k ih =>
    simp only [nthDate, Option.bind_eq_some_iff] at h
    obtain ⟨b, hb, h⟩ := h
    exact (forward_step hi hi2 (ih hb) h).1

theorem forward_lt {r : Recur} (hi : 1 ≤ r.interval) (hi2 : r.interval ≤ 255) {d : Date} (hd : Forward r d) {i j : Nat} {a b : Date}
    (ha : nthDate r i d = some a) (hb : nthDate r j d = some b) (hij : i < j) : a.cmp b = .lt := by
  obtain ⟨k, rfl⟩ : ∃ k, j = i + k + 1 := ⟨j - i - 1, by omega⟩
  clear hij
  induction k generalizing b with
  | zero =>
    simp only [Nat.add_zero, nthDate, ha, Option.bind_some] at hb
    exact (forward_step hi hi2 (forward_nth hi hi2 hd ha) hb).2
  | succ k ih =>
    rw [show i + (k + 1) + 1 = (i + k + 1) + 1 by omega] at hb
    rw [nthDate, Option.bind_eq_some_iff] at hb
    obtain ⟨c, hc, hb⟩ := hb
    have h1 := ih hc
    have h2 := (forward_step hi hi2 (forward_nth hi hi2 hd hc) hb).2
    exact (Date.strict_order a c b).2.2.2 h1 h2

/-- **C60**: with a positive interval, a start that is a date and a rule that is not finer than daily, or a floating start and any rule, every
occurrence starts before the later ones. -/
theorem C60_increasing {s s' : α} {xs : List α} {d : Date} {r : Recur} (hd : Recurring.dtstart s = some d) (hr : Recurring.rrule s = some r)
    (hi : 1 ≤ r.interval) (hi2 : r.interval ≤ 255)
    (hs : (∃ x, d = .date x ∧ RealDate x ∧ InRange x ∧ (r.freq = .daily ∨ r.freq = .weekly ∨ r.freq = .monthly ∨ r.freq = .yearly)) ∨
      ∃ t, d = .dateTime (.naive t) ∧ RealTime t) (h : Run s xs s') :
    (starts xs).Pairwise fun a b => ∃ x y, a = some x ∧ b = some y ∧ x.lt y = true := by
  have hfw : Forward r d := by
    rcases hs with ⟨x, rfl, h1, h2, h3⟩ | ⟨t, rfl, ht⟩
    · exact .date ((valid_iff x).2 ⟨h2, h1⟩) (by rcases h3 with h | h | h | h <;> rw [h] <;> decide)
    · exact .naive ((realTime_iff t).1 ht)
  obtain ⟨m, q, hm, -, hxs⟩ := run_reached hd hr h
  rw [starts_yielded hxs, List.pairwise_map]
  have hsorted : (keptSteps r (Recurring.exdate s) d m).Pairwise (· < ·) := List.Pairwise.filter _ List.pairwise_lt_range
  refine List.Pairwise.imp_of_mem ?_ hsorted
  intro i j hi' hj' hij
  have hmem : ∀ k ∈ keptSteps r (Recurring.exdate s) d m, ∃ a, nthDate r k d = some a := by
    intro k hk
    obtain ⟨a, ha⟩ := pos_le hm.hpos (Nat.le_of_lt (List.mem_range.1 (List.mem_filter.1 hk).1))
    exact ⟨a.1, pos_start ha⟩
  obtain ⟨a, ha⟩ := hmem i hi'
  obtain ⟨b, hb⟩ := hmem j hj'
  exact ⟨a, b, ha, hb, by simp [Date.lt, forward_lt hi hi2 hfw ha hb hij]⟩

/-! ## C61 -/

theorem length_le_of_nodup {β : Type} [DecidableEq β] {l m : List β} (hn : l.Nodup) (h : ∀ x ∈ l, x ∈ m) : l.length ≤ m.length := by
  induction l generalizing m with
  | nil => exact Nat.zero_le _
  | cons a l ih =>
    obtain ⟨h1, h2⟩ := List.nodup_cons.1 hn
    have ham := h a (List.mem_cons_self ..)
    have := ih (m := m.erase a) h2 (fun x hx => by
      refine (List.mem_erase_of_ne ?_).2 (h x (List.mem_cons_of_mem _ hx))
      rintro rfl; exact h1 hx)
    rw [List.length_erase_of_mem ham] at this
    have : 0 < m.length := List.length_pos_of_mem ham
    simp only [List.length_cons]
    omega

/-- When the dates of the steps differ from each other, a call returns after at most one more round than there are excluded dates. -/
theorem returns_of_distinct {s : α} {d : Date} {r : Recur} (hd : Recurring.dtstart s = some d) (hr : Recurring.rrule s = some r)
    (hdist : ∀ i j a, i < j → nthDate r (i + 1) d = some a → nthDate r (j + 1) d ≠ some a) :
    ∃ o s', o ≠ Outcome.running ∧ next ((Recurring.exdate s).length + 1) s = (o, s') := by
  refine ⟨_, _, ?_, rfl⟩
  intro hrun
  have hp := (running_iff hd hr _).1 hrun
  have hval : ∀ i, i < (Recurring.exdate s).length + 1 → ∃ b, nthDate r (i + 1) d = some b ∧ b ∈ Recurring.exdate s := by
    intro i hi
    obtain ⟨-, b, -, -, hb, hx⟩ := hp i hi
    exact ⟨b.1, pos_start hb, hx⟩
  have hlen := length_le_of_nodup (l := (List.range ((Recurring.exdate s).length + 1)).filterMap fun i => nthDate r (i + 1) d)
    (m := Recurring.exdate s) ?_ ?_
  · have hl : ((List.range ((Recurring.exdate s).length + 1)).filterMap fun i => nthDate r (i + 1) d).length =
        (Recurring.exdate s).length + 1 := by
      have : ∀ n, n ≤ (Recurring.exdate s).length + 1 → ((List.range n).filterMap fun i => nthDate r (i + 1) d).length = n := by
        intro n hn
        induction n with
        | zero => rfl
        | succ n ih =>
          obtain ⟨b, hb, -⟩ := hval n (by omega)
          rw [List.range_succ, List.filterMap_append, List.length_append, ih (by omega)]
          simp [hb]
      exact this _ (Nat.le_refl _)
    omega
  · refine List.Pairwise.filterMap _ (S := (· ≠ ·)) ?_ (List.pairwise_lt_range (n := (Recurring.exdate s).length + 1))
    intro i j hij a ha b hb hab
    subst hab
    exact hdist i j a hij ha hb
  · intro x hx
    obtain ⟨i, hi, hx⟩ := List.mem_filterMap.1 hx
    obtain ⟨b, hb, hbx⟩ := hval i (List.mem_range.1 hi)
    rw [hx] at hb
    cases hb
    exact hbx

/-- **C61**: with a positive interval every call of `next` on a component whose start is a date or a floating date-time, or a local
date-time if the rule has a fixed length, returns, after at most one more round than there are excluded dates. -/
theorem C61_returns {s : α} {d : Date} {r : Recur} (hd : Recurring.dtstart s = some d) (hr : Recurring.rrule s = some r)
    (hi : 1 ≤ r.interval) (hi2 : r.interval ≤ 255)
    (hs : (∃ x, d = .date x ∧ RealDate x ∧ InRange x) ∨ (∃ t, d = .dateTime (.naive t) ∧ RealTime t) ∨
      (∃ t u, d = .dateTime (.loc t) ∧ RealTime t ∧ secondsOf r.freq = some u)) :
    ∃ o s', o ≠ Outcome.running ∧ next ((Recurring.exdate s).length + 1) s = (o, s') := by
  refine returns_of_distinct hd hr ?_
  intro i j a hij ha hb
  have hfwd : ∀ d', Forward r d' → ∀ i j a, i < j → nthDate r i d' = some a → nthDate r j d' ≠ some a := by
    intro d' hf i j a hij ha hb
    have h1 := forward_lt hi hi2 hf ha hb hij
    have h2 := (Date.strict_order a a a).1
    rw [h1] at h2; cases h2
  rcases hs with ⟨x, rfl, h1, h2⟩ | ⟨t, rfl, ht⟩ | ⟨t, u, rfl, ht, hu⟩
  · by_cases hf : Freq.daily.rank ≤ r.freq.rank
    · exact hfwd _ (.date ((valid_iff x).2 ⟨h2, h1⟩) hf) _ _ a (Nat.succ_lt_succ hij) ha hb
    · -- the first step gives a floating date-time
      rw [show i + 1 = 1 + i by omega, nthDate_add] at ha
      rw [show j + 1 = 1 + j by omega, nthDate_add] at hb
      obtain ⟨d1, hd1, ha⟩ := Option.bind_eq_some_iff.1 ha
      rw [hd1, Option.bind_some] at hb
      refine hfwd d1 ?_ i j a hij ha hb
      simp only [nthDate, Option.bind_some, Recur.add, hf, if_false, Option.map_eq_some_iff] at hd1
      obtain ⟨t, ht, rfl⟩ := hd1
      have hp : (NaiveDateTime.midnight x).Plain := ⟨(valid_iff x).2 ⟨h2, h1⟩, by simp [NaiveDateTime.midnight], by simp [NaiveDateTime.midnight]⟩
      exact .naive (naive_step hi hi2 hp.valid ht).1
  · exact hfwd _ (.naive ((realTime_iff t).1 ht)) _ _ a (Nat.succ_lt_succ hij) ha hb
  · obtain ⟨h1, h2, rfl⟩ := secondsOf_some hu
    have hv := (realTime_iff t).1 ht
    have hp := plain_withoutLeap hv
    rw [(nth_leap h1 h2 hi hi2 hv.2.2 _).2] at ha hb
    obtain ⟨t1, rfl, -, e1⟩ := (nth_fixed_loc h1 h2 hi2 hp _ _).1 ha
    obtain ⟨t2, he, -, e2⟩ := (nth_fixed_loc h1 h2 hi2 hp _ _).1 hb
    cases he
    have hpos : 1 ≤ r.interval * unitSecs r.freq := by
      cases hfr : r.freq <;> simp only [unitSecs] <;> first | omega | exact absurd hfr h1 | exact absurd hfr h2
    have : (i + 1) * (r.interval * unitSecs r.freq) < (j + 1) * (r.interval * unitSecs r.freq) :=
      Nat.mul_lt_mul_of_pos_right (by omega) hpos
    omega

/-- A rule of interval 0 does not move a date (if it is not finer than daily), a floating date-time, or a local date-time (if it has a fixed
length). -/
theorem add_zero {r : Recur} (h0 : r.interval = 0) {d : Date}
    (hd : (∃ x, d = .date x ∧ RealDate x ∧ InRange x ∧ (r.freq = .daily ∨ r.freq = .weekly ∨ r.freq = .monthly ∨ r.freq = .yearly)) ∨
      (∃ t, d = .dateTime (.naive t) ∧ RealTime t) ∨ ∃ t u, d = .dateTime (.loc t) ∧ RealTime t ∧ secondsOf r.freq = some u) :
    r.add d = some d := by
  have hdate : ∀ x : NaiveDate, RealDate x → InRange x → (r.freq = .daily ∨ r.freq = .weekly ∨ r.freq = .monthly ∨ r.freq = .yearly) →
      r.add (.date x) = some (.date x) := by
    intro x h1 h2 hf
    have hv := (valid_iff x).2 ⟨h2, h1⟩
    rcases hf with hf | hf | hf | hf
    · exact (add_days (.inl hf) x _).2 ⟨x, rfl, hv, by rw [h0]; simp⟩
    · exact (add_days (.inr hf) x _).2 ⟨x, rfl, hv, by rw [h0]; simp⟩
    · refine (add_months hf hv _).2 ⟨x, rfl, ⟨h1, by rw [h0]; simp, ?_⟩, h2⟩
      have := h1.2.2.2
      omega
    · exact (add_years hf x _).2 ⟨x, rfl, by rw [h0]; simp, h2, h1⟩
  rcases hd with ⟨x, rfl, h1, h2, h3⟩ | ⟨t, rfl, ht⟩ | ⟨t, u, rfl, ht, hu⟩
  · exact hdate x h1 h2 h3
  rotate_left
  · obtain ⟨h1, h2, -⟩ := secondsOf_some hu
    simp only [Recur.add, Recur.addDateTime, addLocal_fixed h1 h2, addNaive_still h1 h2 h0 ((realTime_iff t).1 ht), Option.map_some]
  · have : r.addNaive t = some t := by
      by_cases hcal : r.freq = .monthly ∨ r.freq = .yearly
      · exact (addNaive_calendar hcal t t).2 ⟨t.date, hdate _ ht.1 ht.2.1 (.inr (.inr hcal)), rfl⟩
      · exact addNaive_still (fun hx => hcal (.inl hx)) (fun hx => hcal (.inr hx)) h0 ((realTime_iff t).1 ht)
    simp only [Recur.add, Recur.addDateTime, this, Option.map_some]

/-- **C61**, the limit: with interval 0 (which is the default of the `Recur` type) a call on a component whose start is excluded never returns. -/
theorem C61_never_returns {s : α} {d : Date} {r : Recur} (hd : Recurring.dtstart s = some d) (hr : Recurring.rrule s = some r)
    (h0 : r.interval = 0)
    (hs : ∀ a, a = d ∨ Recurring.dtend s = some a →
      (∃ x, a = .date x ∧ RealDate x ∧ InRange x ∧ (r.freq = .daily ∨ r.freq = .weekly ∨ r.freq = .monthly ∨ r.freq = .yearly)) ∨
      (∃ t, a = .dateTime (.naive t) ∧ RealTime t) ∨ ∃ t u, a = .dateTime (.loc t) ∧ RealTime t ∧ secondsOf r.freq = some u)
    (hx : d ∈ Recurring.exdate s) (hu : WithinUntil r d) : RunsForever s := by
  have hpos : ∀ k, pos r k (d, Recurring.dtend s) = some (d, Recurring.dtend s) := by
    intro k
    rw [pos_iff]
    have hfix : ∀ a, r.add a = some a → nthDate r k a = some a := by
      intro a ha
      induction k with
      | zero => rfl
      | succ k ih => simp only [nthDate, ih, Option.bind_some, ha]
    exact ⟨hfix d (add_zero h0 (hs d (.inl rfl))), rfl, fun e he => by
      simp only at he ⊢
      rw [he]
      exact hfix e (add_zero h0 (hs e (.inr he)))⟩
  intro fuel
  rw [running_iff hd hr]
  intro i _
  exact ⟨_, _, hpos i, (within_iff r d).1 hu, hpos (i + 1), hx⟩

/-! ## C65 -/

/-- **C65**: a rule finer than daily turns a date into the floating date-time that many seconds after midnight. -/
theorem C65_becomes_datetime {r : Recur} {u : Nat} (hf : r.freq = .secondly ∧ u = 1 ∨ r.freq = .minutely ∧ u = 60 ∨ r.freq = .hourly ∧ u = 3600)
    (hi : r.interval ≤ 255) {d : NaiveDate} (D : Date) :
    r.add (.date d) = some D ↔
      ∃ t, D = .dateTime (.naive t) ∧ NoLeapSecond t ∧ t.toSecs = d.toDays * 86400 + r.interval * u ∧ t.frac = 0 := by
  have hsub : ¬ Freq.daily.rank ≤ r.freq.rank := by rcases hf with ⟨h, -⟩ | ⟨h, -⟩ | ⟨h, -⟩ <;> rw [h] <;> decide
  have hne : r.freq ≠ .monthly ∧ r.freq ≠ .yearly ∧ unitSecs r.freq = u := by
    rcases hf with ⟨h, rfl⟩ | ⟨h, rfl⟩ | ⟨h, rfl⟩ <;> rw [h] <;> simp [unitSecs]
  obtain ⟨h1, h2, rfl⟩ := hne
  simp only [Recur.add, hsub, if_false, Option.map_eq_some_iff, addNaive_fixed h1 h2 hi (t := NaiveDateTime.midnight d) (by simp [NaiveDateTime.midnight])]
  simp only [plain_iff]
  have hmid : (NaiveDateTime.midnight d).nanos = d.toDays * 86400 * 1000000000 := by
    simp [NaiveDateTime.nanos, NaiveDateTime.toSecs, NaiveDateTime.midnight]
  rw [hmid]
  constructor
  · rintro ⟨t, ⟨hp, hn⟩, rfl⟩
    have := hp.2.2
    unfold NaiveDateTime.nanos at hn
    refine ⟨t, rfl, hp, ?_, ?_⟩
    · simp only [Int.natCast_mul] at hn ⊢; omega
    · simp only [Int.natCast_mul] at hn ⊢; omega
  · rintro ⟨t, rfl, hp, hn, hfr⟩
    refine ⟨t, ⟨hp, ?_⟩, rfl⟩
    unfold NaiveDateTime.nanos
    rw [hn, hfr]
    simp only [Int.natCast_mul]
    omega

/-- **C65**: coarser rules keep dates dates, and every rule keeps floating date-times floating and local ones local. -/
theorem C65_kinds {r : Recur} {k : Nat} {D : Date} :
    (∀ d, (r.freq = .daily ∨ r.freq = .weekly ∨ r.freq = .monthly ∨ r.freq = .yearly) → nthDate r k (.date d) = some D → ∃ e, D = .date e) ∧
    (∀ t, nthDate r k (.dateTime (.naive t)) = some D → ∃ t', D = .dateTime (.naive t')) ∧
    (∀ t, nthDate r k (.dateTime (.loc t)) = some D → ∃ t', D = .dateTime (.loc t')) := by
  refine ⟨fun d hf h => nth_date_kind (by rcases hf with h | h | h | h <;> rw [h] <;> decide) h, ?_, ?_⟩
  · intro t h
    induction k generalizing D with
    | zero => cases h; exact ⟨t, rfl⟩
    | succ k ih =>
      simp only [nthDate, Option.bind_eq_some_iff] at h
      obtain ⟨E, hE, h⟩ := h
      obtain ⟨t', rfl⟩ := ih hE
      simp only [Recur.add, Recur.addDateTime, Option.map_eq_some_iff] at h
      obtain ⟨v, ⟨w, -, rfl⟩, rfl⟩ := h
      exact ⟨w, rfl⟩
  · intro t h
    induction k generalizing D with
    | zero => cases h; exact ⟨t, rfl⟩
    | succ k ih =>
      simp only [nthDate, Option.bind_eq_some_iff] at h
      obtain ⟨E, hE, h⟩ := h
      obtain ⟨t', rfl⟩ := ih hE
      simp only [Recur.add, Recur.addDateTime, Option.map_eq_some_iff] at h
      obtain ⟨v, ⟨w, -, rfl⟩, rfl⟩ := h
      exact ⟨w, rfl⟩

end

/-! ## Examples and limits -/

section
attribute [local instance] utc

/-- C56, C59, C61: hypotheses that hold. -/
example : secondsOf (everyDays 2).freq = some 86400 ∧ (everyDays 2).interval ≤ 255 ∧ NoLeapSecond ⟨⟨2024, 2, 28⟩, 3600, 0⟩ :=
  ⟨rfl, by decide, ⟨by decide, by decide, by decide, by decide⟩, ⟨by decide, by decide⟩, by decide, by decide⟩
example : nthDate (everyDays 2) 3 (.dateTime (.naive ⟨⟨2024, 2, 28⟩, 3600, 0⟩)) = some (.dateTime (.naive ⟨⟨2024, 3, 5⟩, 3600, 0⟩)) := by
  decide +kernel

/-- Every `n` months. -/
def everyMonths (n : Nat) : Recur := { Recur.default with freq := .monthly, interval := n }
/-- Every `n` years. -/
def everyYears (n : Nat) : Recur := { Recur.default with freq := .yearly, interval := n }
/-- Every `n` hours. -/
def everyHours (n : Nat) : Recur := { Recur.default with freq := .hourly, interval := n }

/-- C57: 31 January, 29 February, 29 March. -/
example : (List.range 4).map (fun k => nthDate (everyMonths 1) k (jan 31)) =
    [some (jan 31), some (.date ⟨2024, 2, 29⟩), some (.date ⟨2024, 3, 29⟩), some (.date ⟨2024, 4, 29⟩)] := by decide +kernel
/-- C58: 29 February has no anniversary the next year, and one after four years. -/
example : (everyYears 1).add (.date ⟨2024, 2, 29⟩) = none ∧ (everyYears 4).add (.date ⟨2024, 2, 29⟩) = some (.date ⟨2028, 2, 29⟩) := by
  decide +kernel
/-- C58: so the first call of `next` panics, although the event itself is a valid occurrence. -/
theorem C58_first_call_panics : Panics (sampleEvent (.date ⟨2024, 2, 29⟩) none (everyYears 1) []) := ⟨by simp, 1, rfl⟩

/-- **C59**, the limit: a monthly event of one day (30 to 31 January) has an occurrence of no length (29 to 29 February). -/
theorem C59_monthly_varies :
    Run (sampleEvent (jan 30) (some (jan 31)) (everyMonths 1) [])
      [sampleEvent (jan 30) (some (jan 31)) (everyMonths 1) [],
       sampleEvent (.date ⟨2024, 2, 29⟩) (some (.date ⟨2024, 2, 29⟩)) (everyMonths 1) []]
      (sampleEvent (.date ⟨2024, 3, 29⟩) (some (.date ⟨2024, 3, 29⟩)) (everyMonths 1) []) :=
  .cons ⟨by simp, 1, rfl⟩ (.cons ⟨by simp, 1, rfl⟩ .nil)

/-- **C60**, the limit: the first two occurrences of an hourly event that starts on a date are not in order; they compare equal. -/
theorem C60_hourly_date : (∃ s', Run (sampleEvent (jan 1) none (everyHours 1) [])
      [sampleEvent (jan 1) none (everyHours 1) [], sampleEvent (.dateTime (.naive ⟨⟨2024, 1, 1⟩, 3600, 0⟩)) none (everyHours 1) []] s') ∧
    Date.cmp (jan 1) (.dateTime (.naive ⟨⟨2024, 1, 1⟩, 3600, 0⟩)) = .eq :=
  ⟨⟨_, .cons ⟨by simp, 1, rfl⟩ (.cons ⟨by simp, 1, rfl⟩ .nil)⟩, by decide +kernel⟩

/-- C61: with the default interval and an excluded start. -/
example : RunsForever (sampleEvent (jan 1) none Recur.default [jan 1]) := by
  refine C61_never_returns (d := jan 1) (r := Recur.default) rfl rfl rfl ?_ (by decide) (by intro u hu; cases hu)
  rintro a (rfl | h)
  · exact .inl ⟨_, rfl, ⟨by decide, by decide, by decide, by decide⟩, ⟨by decide, by decide⟩, .inl rfl⟩
  · cases h

end

/-- A zone that is one hour behind from 2024-10-27T01:00:00Z on, as in western Europe. -/
@[reducible] def autumn : Platform :=
  { utc with
    tzOffset := fun n => if n < (⟨⟨2024, 10, 27⟩, 3600, 0⟩ : NaiveDateTime).toSecs then 7200 else 3600
    tzLocal := fun n => if n < (⟨⟨2024, 10, 27⟩, 7200, 0⟩ : NaiveDateTime).toSecs then .single 7200
      else if n < (⟨⟨2024, 10, 27⟩, 10800, 0⟩ : NaiveDateTime).toSecs then .ambiguous 7200 3600 else .single 3600 }

section
attribute [local instance] autumn

/-- **C60**, the limit: the occurrences of an hourly event in local time are not in order where the clocks go back: two of them, an hour
apart, compare equal. -/
theorem C60_clocks_go_back :
    nthDate (everyHours 1) 1 (.dateTime (.loc ⟨⟨2024, 10, 27⟩, 1800, 0⟩)) = some (.dateTime (.loc ⟨⟨2024, 10, 27⟩, 5400, 0⟩)) ∧
    Date.cmp (.dateTime (.loc ⟨⟨2024, 10, 27⟩, 1800, 0⟩)) (.dateTime (.loc ⟨⟨2024, 10, 27⟩, 5400, 0⟩)) = .eq := by decide +kernel

/-- **C57**, the limit: a monthly step that lands on a wall-clock time that occurs twice panics. -/
theorem C57_ambiguous_panics : (everyMonths 1).add (.dateTime (.loc ⟨⟨2024, 9, 27⟩, 1800, 0⟩)) = none := by decide +kernel

end

end Ikal
