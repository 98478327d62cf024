import Verif.Spec.Operators
import Verif.Props.Steps

/-!
# Adding a rule to a date or a time (C87)

`rule + x` for every type of `x` the crate has an operator for: chrono's dates, floating and local times, and the crate's `DateTime` and `Date`.
-/

namespace Ikal

open Spec

section
variable [Platform]

/-- **C87**: `rule + date` on a date of chrono is the date the interval of days, weeks, months or years later, the same date if the rule is in
hours, minutes or seconds, and a panic if there is no such date in the range of years. -/
theorem C87_date (r : Recur) {d : NaiveDate} (hd : RealDate d) (hr : InRange d) (e : NaiveDate) :
    r.addDate d = some e ↔ DateLater r.interval d e r.freq ∧ InRange e := by
  have hadd : Freq.daily.rank ≤ r.freq.rank → (r.addDate d = some e ↔ r.add (.date d) = some (.date e)) := by
    intro hf
    simp only [Recur.add, if_pos hf]
    constructor
    · intro h; rw [h]; rfl
    · intro h
      obtain ⟨x, hx, h2⟩ := Option.map_eq_some_iff.1 h
      cases h2; exact hx
  cases hf : r.freq with
  | secondly | minutely | hourly =>
    simp only [Recur.addDate, hf, DateLater, Option.some.injEq]
    exact ⟨by rintro rfl; exact ⟨rfl, hr⟩, fun h => h.1.symm⟩
  | daily =>
    rw [hadd (by rw [hf]; decide)]
    have := C56_daily hf hd hr 1 (.date e)
    simp only [nthDate, Option.bind_some, Nat.one_mul] at this
    rw [this]
    simp only [DateLater, Date.date.injEq]
    exact ⟨by rintro ⟨rfl, h⟩; exact ⟨rfl, h⟩, by rintro ⟨rfl, h⟩; exact ⟨rfl, h⟩⟩
  | weekly =>
    rw [hadd (by rw [hf]; decide)]
    have := C56_weekly hf hd hr 1 (.date e)
    simp only [nthDate, Option.bind_some, Nat.one_mul] at this
    rw [this, Nat.mul_comm]
    simp only [DateLater, Date.date.injEq]
    exact ⟨by rintro ⟨rfl, h⟩; exact ⟨rfl, h⟩, by rintro ⟨rfl, h⟩; exact ⟨rfl, h⟩⟩
  | monthly =>
    rw [hadd (by rw [hf]; decide), C57_step hf hd hr]
    simp only [DateLater, Date.date.injEq]
    exact ⟨by rintro ⟨x, rfl, h⟩; exact h, fun h => ⟨e, rfl, h⟩⟩
  | yearly =>
    rw [hadd (by rw [hf]; decide), C58_step hf]
    simp only [DateLater, Date.date.injEq, YearsLater]
    exact ⟨by rintro ⟨x, rfl, h1, h2, h3, h4, h5⟩; exact ⟨⟨h1, h2, h3, h5⟩, h4⟩,
      by rintro ⟨⟨h1, h2, h3, h5⟩, h4⟩; exact ⟨e, rfl, h1, h2, h3, h4, h5⟩⟩

/-- A step of a rule of a fixed length, on a floating or a local time. -/
theorem fixed_later {r : Recur} {u : Nat} (hf : secondsOf r.freq = some u) (hi : r.interval ≤ 255) {t : NaiveDateTime} (ht : RealTime t)
    (t' : NaiveDateTime) :
    (r.add (.dateTime (.naive t)) = some (.dateTime (.naive t')) ↔ SecondsLater (r.interval * u) t t' ∧ InRange t'.date) ∧
    (r.add (.dateTime (.loc t)) = some (.dateTime (.loc t')) ↔ SecondsLater (r.interval * u) t t' ∧ InRange t'.date) := by
  have hu : 1 ≤ u := by
    revert hf; cases r.freq <;> simp only [secondsOf, Option.some.injEq] <;> intro h <;> first | omega | cases h
  obtain ⟨hp, hz⟩ := C56_leap_second hf hi ht (if r.interval = 0 then 1 else 0)
  by_cases h0 : r.interval = 0
  · obtain ⟨h1, h2⟩ := hz h0
    rw [if_pos h0] at h1 h2
    simp only [nthDate, Option.bind_some] at h1 h2
    rw [h1, h2]
    simp only [Option.some.injEq, Date.dateTime.injEq, DateTime.naive.injEq, DateTime.loc.injEq, SecondsLater, h0, Nat.zero_mul]
    have : (t = t' ↔ (True ∧ t' = t ∨ 1 ≤ 0 ∧ NoLeapSecond t' ∧ t'.frac = t.frac % 1000000000 ∧ t'.toSecs = t.toSecs + ((0 : Nat) : Int)) ∧
        InRange t'.date) :=
      ⟨by rintro rfl; exact ⟨.inl ⟨trivial, rfl⟩, ht.2.1⟩, by rintro ⟨⟨-, rfl⟩ | ⟨h, -⟩, -⟩; · rfl
                                                              · omega⟩
    exact ⟨this, this⟩
  · obtain ⟨h1, h2, h3⟩ := hp (by omega)
    rw [if_neg h0] at h1 h2
    have e1 := C56_floating hf hi h3 1
    have e2 := C56_local hf hi h3 1
    simp only [nthDate, Option.bind_some] at h1 h2 e1 e2
    have hs : (withoutLeapSecond t).toSecs = t.toSecs := rfl
    have hk : 1 ≤ r.interval * u := Nat.mul_pos (by omega) hu
    rw [h1, h2, e1, e2]
    simp only [Date.dateTime.injEq, DateTime.naive.injEq, DateTime.loc.injEq, SecondsLater, hs]
    have : (∃ x, t' = x ∧ NoLeapSecond x ∧ x.toSecs = t.toSecs + ((1 : Nat) : Int) * (r.interval * u) ∧ x.frac = (withoutLeapSecond t).frac) ↔
        (r.interval * u = 0 ∧ t' = t ∨
          1 ≤ r.interval * u ∧ NoLeapSecond t' ∧ t'.frac = t.frac % 1000000000 ∧ t'.toSecs = t.toSecs + (r.interval * u : Nat)) ∧ InRange t'.date := by
      constructor
      · rintro ⟨x, rfl, hx1, hx2, hx3⟩
        exact ⟨.inr ⟨hk, hx1, hx3, by rw [hx2, Int.natCast_mul]; omega⟩, hx1.2.1⟩
      · rintro ⟨⟨h, -⟩ | ⟨-, hx1, hx2, hx3⟩, -⟩
        · omega
        · exact ⟨t', rfl, hx1, by rw [hx3, Int.natCast_mul]; omega, hx2⟩
    exact ⟨this, this⟩

theorem addNaive_iff (r : Recur) (t t' : NaiveDateTime) : r.addNaive t = some t' ↔ r.add (.dateTime (.naive t)) = some (.dateTime (.naive t')) := by
  simp only [Recur.add, Recur.addDateTime]
  constructor
  · intro h; rw [h]; rfl
  · intro h
    obtain ⟨x, hx, h2⟩ := Option.map_eq_some_iff.1 h
    obtain ⟨y, hy, h3⟩ := Option.map_eq_some_iff.1 hx
    cases h3; cases h2; exact hy

theorem addLocal_iff (r : Recur) (t t' : NaiveDateTime) : r.addLocal t = some t' ↔ r.add (.dateTime (.loc t)) = some (.dateTime (.loc t')) := by
  simp only [Recur.add, Recur.addDateTime]
  constructor
  · intro h; rw [h]; rfl
  · intro h
    obtain ⟨x, hx, h2⟩ := Option.map_eq_some_iff.1 h
    obtain ⟨y, hy, h3⟩ := Option.map_eq_some_iff.1 hx
    cases h3; cases h2; exact hy

/-- **C87**: `rule + time` on a floating time of chrono is the time the interval later, and a panic if there is no such time in the range of
years. -/
theorem C87_floating (r : Recur) (hi : r.interval ≤ 255) {t : NaiveDateTime} (ht : RealTime t) (t' : NaiveDateTime) :
    r.addNaive t = some t' ↔ TimeLater r.interval t t' r.freq ∧ InRange t'.date := by
  rw [addNaive_iff]
  cases hf : r.freq with
  | secondly => have := (fixed_later (u := 1) (by rw [hf]; rfl) hi ht t').1; rw [Nat.mul_one] at this; exact this
  | minutely => exact (fixed_later (u := 60) (by rw [hf]; rfl) hi ht t').1
  | hourly => exact (fixed_later (u := 60 * 60) (by rw [hf]; rfl) hi ht t').1
  | daily => exact (fixed_later (u := 24 * 60 * 60) (by rw [hf]; rfl) hi ht t').1
  | weekly => exact (fixed_later (u := 7 * 24 * 60 * 60) (by rw [hf]; rfl) hi ht t').1
  | monthly =>
    have := C57_time (.inl hf) t 1 (.dateTime (.naive t'))
    simp only [nthDate, Option.bind_some] at this
    rw [this]
    simp only [C57_step hf ht.1 ht.2.1, TimeLater, Date.dateTime.injEq, DateTime.naive.injEq, Date.date.injEq]
    constructor
    · rintro ⟨e, ⟨x, rfl, h1, h2⟩, rfl⟩; exact ⟨⟨h1, rfl, rfl⟩, h2⟩
    · rintro ⟨⟨h1, h2, h3⟩, h4⟩
      exact ⟨t'.date, ⟨_, rfl, h1, h4⟩, by cases t'; cases h2; cases h3; rfl⟩
  | yearly =>
    have := C57_time (.inr hf) t 1 (.dateTime (.naive t'))
    simp only [nthDate, Option.bind_some] at this
    rw [this]
    simp only [C58_step hf, TimeLater, Date.dateTime.injEq, DateTime.naive.injEq, YearsLater, Date.date.injEq]
    constructor
    · rintro ⟨e, ⟨x, rfl, h1, h2, h3, h4, h5⟩, rfl⟩; exact ⟨⟨⟨h1, h2, h3, h5⟩, rfl, rfl⟩, h4⟩
    · rintro ⟨⟨⟨h1, h2, h3, h5⟩, h6, h7⟩, h4⟩
      exact ⟨t'.date, ⟨_, rfl, h1, h2, h3, h4, h5⟩, by cases t'; cases h6; cases h7; rfl⟩

/-- **C87**: on a local time of chrono a rule in seconds, minutes, hours, days or weeks counts the time that passes, whatever the clocks show. -/
theorem C87_local_fixed (r : Recur) (hi : r.interval ≤ 255) (hf : r.freq ≠ .monthly ∧ r.freq ≠ .yearly) {u : NaiveDateTime} (hu : RealTime u)
    (u' : NaiveDateTime) : r.addLocal u = some u' ↔ TimeLater r.interval u u' r.freq ∧ InRange u'.date := by
  rw [addLocal_iff]
  cases hq : r.freq with
  | secondly => have := (fixed_later (u := 1) (by rw [hq]; rfl) hi hu u').2; rw [Nat.mul_one] at this; exact this
  | minutely => exact (fixed_later (u := 60) (by rw [hq]; rfl) hi hu u').2
  | hourly => exact (fixed_later (u := 60 * 60) (by rw [hq]; rfl) hi hu u').2
  | daily => exact (fixed_later (u := 24 * 60 * 60) (by rw [hq]; rfl) hi hu u').2
  | weekly => exact (fixed_later (u := 7 * 24 * 60 * 60) (by rw [hq]; rfl) hi hu u').2
  | monthly => exact absurd hq hf.1
  | yearly => exact absurd hq hf.2

/-- **C87**: a rule in months or years moves what the clocks show as it moves a floating time; the result is the only instant at which they show
it, and there is a panic if the zone says there are none or two, or if it is out of the range of years or, for years, in a leap second at the very end of it. -/
theorem C87_local_calendar (r : Recur) (hf : r.freq = .monthly ∨ r.freq = .yearly) {u : NaiveDateTime}
    (hu : InRange (DateTime.loc u).toNaive.date) (u' : NaiveDateTime) :
    r.addLocal u = some u' ↔ ∃ w off, TimeLater r.interval (DateTime.loc u).toNaive w r.freq ∧ InRange w.date ∧
      Platform.tzLocal w.toSecs = .single off ∧ u' = w.shift (-off) ∧ InRange u'.date ∧ (r.freq = .yearly → ¬ Earlier lastInstant u') := by
  rw [addLocal_iff, C57_local hf u (.inr hu)]
  have hreal : RealDate (DateTime.loc u).toNaive.date := (NaiveDate.ok_iff _).1 (NaiveDateTime.shift_ok u _).1
  generalize (DateTime.loc u).toNaive = v at hu hreal
  have key : ∀ e, r.add (.date v.date) = some (.date e) ↔ TimeLater r.interval v { v with date := e } r.freq ∧ InRange e := by
    intro e
    rcases hf with h | h
    · rw [C57_step h hreal hu, h]
      simp only [TimeLater, Date.date.injEq, and_true]
      exact ⟨by rintro ⟨x, rfl, h⟩; exact h, fun h => ⟨e, rfl, h⟩⟩
    · rw [C58_step h, h]
      simp only [TimeLater, Date.date.injEq, and_true, YearsLater]
      exact ⟨by rintro ⟨x, rfl, h1, h2, h3, h4, h5⟩; exact ⟨⟨h1, h2, h3, h5⟩, h4⟩,
        by rintro ⟨⟨h1, h2, h3, h5⟩, h4⟩; exact ⟨e, rfl, h1, h2, h3, h4, h5⟩⟩
  simp only [key, Date.dateTime.injEq, DateTime.loc.injEq]
  constructor
  · rintro ⟨e, off, ⟨h1, h2⟩, h3, h4, hm, rfl⟩
    exact ⟨_, off, h1, h2, h3, rfl, h4, hm⟩
  · rintro ⟨w, off, h1, h2, h3, rfl, h4, hm⟩
    have hw : w = { v with date := w.date } := by
      have : w.secs = v.secs ∧ w.frac = v.frac := by
        rcases hf with h | h <;> rw [h] at h1 <;> exact h1.2
      cases w; obtain ⟨rfl, rfl⟩ := this; rfl
    refine ⟨w.date, off, ⟨?_, h2⟩, ?_, ?_, ?_, ?_⟩
    · rw [← hw]; exact h1
    · rw [← hw]; exact h3
    · rw [← hw]; exact h4
    · rw [← hw]; exact hm
    · rw [← hw]

/-- **C87**: the operators on the crate's own types agree with these: a `DateTime` stays floating or local, a `Date` that is a time is moved as
that time, and one that is a day is moved as a day by days, weeks, months and years, and as its midnight otherwise. -/
theorem C87_agree (r : Recur) :
    (∀ t, r.addDateTime (.naive t) = (r.addNaive t).map .naive) ∧
    (∀ u, r.addDateTime (.loc u) = (r.addLocal u).map .loc) ∧
    (∀ t, r.add (.dateTime t) = (r.addDateTime t).map .dateTime) ∧
    (∀ d, r.freq = .daily ∨ r.freq = .weekly ∨ r.freq = .monthly ∨ r.freq = .yearly → r.add (.date d) = (r.addDate d).map .date) ∧
    ∀ d, r.freq = .secondly ∨ r.freq = .minutely ∨ r.freq = .hourly →
      r.add (.date d) = (r.addNaive ⟨d, 0, 0⟩).map fun t => .dateTime (.naive t) := by
  refine ⟨fun _ => rfl, fun _ => rfl, fun _ => rfl, fun d h => ?_, fun d h => ?_⟩
  · rcases h with h | h | h | h <;> simp only [Recur.add, h] <;> rfl
  · rcases h with h | h | h <;> simp only [Recur.add, h] <;> rfl

/-- **C87**: `rule + date` panics exactly if the day is out of the range of years or, for a rule in years, if it is 29 February and the other year
is not a leap year. -/
theorem C87_date_panics (r : Recur) {d : NaiveDate} (hd : RealDate d) (hr : InRange d) :
    r.addDate d = none ↔ match r.freq with
      | .secondly | .minutely | .hourly => False
      | .daily => ¬ InRange (daysLater r.interval d)
      | .weekly => ¬ InRange (daysLater (7 * r.interval) d)
      | .monthly => 262142 < (monthIndex d + r.interval) / 12
      | .yearly => 262142 < d.year + r.interval ∨ d.month = 2 ∧ d.day = 29 ∧ ¬ Leap (d.year + r.interval) := by
  have hnone : ∀ {P : NaiveDate → Prop}, (∀ e, r.addDate d = some e ↔ P e) → (r.addDate d = none ↔ ∀ e, ¬ P e) := by
    intro P h
    constructor
    · intro hn e he; rw [(h e).2 he] at hn; cases hn
    · intro hn
      cases hx : r.addDate d with
      | none => rfl
      | some e => exact absurd ((h e).1 hx) (hn e)
  rw [hnone fun e => C87_date r hd hr e]
  cases hf : r.freq with
  | secondly | minutely | hourly => exact ⟨fun h => h d ⟨rfl, hr⟩, False.elim⟩
  | daily => exact ⟨fun h hin => h _ ⟨rfl, hin⟩, by rintro h e ⟨rfl, hin⟩; exact h hin⟩
  | weekly => exact ⟨fun h hin => h _ ⟨rfl, hin⟩, by rintro h e ⟨rfl, hin⟩; exact h hin⟩
  | monthly =>
    simp only [DateLater]
    constructor
    · intro h
      refine Classical.byContradiction fun hle => ?_
      obtain ⟨a, b⟩ := hd
      let y : Int := (monthIndex d + r.interval) / 12
      let m : Nat := ((monthIndex d + r.interval) % 12).toNat + 1
      have hm : (m : Int) = (monthIndex d + r.interval) % 12 + 1 := by
        have := Int.emod_nonneg (monthIndex d + r.interval) (by decide : (12 : Int) ≠ 0)
        show ((((monthIndex d + r.interval) % 12).toNat + 1 : Nat) : Int) = _
        omega
      have hm2 := Int.emod_lt_of_pos (monthIndex d + r.interval) (by decide : (0 : Int) < 12)
      have hlen : 28 ≤ monthLength y m := by unfold monthLength; repeat' split
                                             all_goals omega
      refine h ⟨y, m, min d.day (monthLength y m)⟩ ⟨⟨⟨?_, ?_, ?_, ?_⟩, ?_, rfl⟩, ?_, ?_⟩
      · show 1 ≤ m; omega
      · show m ≤ 12; omega
      · show 1 ≤ min _ _; omega
      · show min _ _ ≤ monthLength y m; omega
      · show (y * 12 + ((m : Int) - 1) : Int) = _
        have := Int.mul_ediv_add_emod (monthIndex d + r.interval) 12
        show (monthIndex d + r.interval) / 12 * 12 + _ = _
        omega
      · show _ ≤ (monthIndex d + r.interval) / 12
        have : monthIndex d = d.year * 12 + ((d.month : Int) - 1) := rfl
        have := hr.1
        omega
      · show (monthIndex d + r.interval) / 12 ≤ _; omega
    · rintro h e ⟨⟨h1, h2, -⟩, h3⟩
      have : monthIndex e = e.year * 12 + ((e.month : Int) - 1) := rfl
      have := h3.2
      have := h1.1
      have := h1.2.1
      omega
  | yearly =>
    simp only [DateLater, YearsLater]
    constructor
    · intro h
      refine Classical.byContradiction fun hn => ?_
      have hn1 : d.year + r.interval ≤ 262142 := Classical.byContradiction fun hc => hn (.inl (by omega))
      refine h ⟨d.year + r.interval, d.month, d.day⟩ ⟨⟨rfl, rfl, rfl, hd.1, hd.2.1, hd.2.2.1, ?_⟩, ?_, hn1⟩
      · have hx := hd.2.2.2
        show d.day ≤ monthLength _ _
        unfold monthLength at hx ⊢
        by_cases hm : d.month = 2
        · rw [if_pos hm] at hx ⊢
          by_cases hl : Leap (d.year + r.interval)
          · rw [if_pos hl]; split at hx <;> omega
          · rw [if_neg hl]
            have : d.day ≠ 29 := fun h29 => hn (.inr ⟨hm, h29, hl⟩)
            split at hx <;> omega
        · rw [if_neg hm] at hx ⊢; exact hx
      · have := hr.1; show _ ≤ d.year + r.interval; omega
    · rintro h e ⟨⟨h1, h2, h3, h4⟩, h5⟩
      rcases h with h | ⟨hm, hday, hl⟩
      · have := h5.2; omega
      · have hx := h4.2.2.2
        unfold monthLength at hx
        rw [if_pos (by omega), h1, if_neg hl] at hx
        omega

end

/-! ## Examples -/

section Examples
attribute [local instance] utc

/-- Three months after 30 November 2023 is 29 February 2024; a date does not move by hours, but its midnight does. -/
example : ({ Recur.default with freq := .monthly, interval := 3 } : Recur).addDate ⟨2023, 11, 30⟩ = some ⟨2024, 2, 29⟩ ∧
    ({ Recur.default with freq := .hourly, interval := 30 } : Recur).addDate ⟨2024, 2, 29⟩ = some ⟨2024, 2, 29⟩ ∧
    ({ Recur.default with freq := .hourly, interval := 30 } : Recur).add (.date ⟨2024, 2, 28⟩) =
      some (.dateTime (.naive ⟨⟨2024, 2, 29⟩, 21600, 0⟩)) ∧
    ({ Recur.default with freq := .yearly, interval := 1 } : Recur).addDate ⟨2024, 2, 29⟩ = none := by decide +kernel

example : RealDate ⟨2023, 11, 30⟩ ∧ InRange ⟨2023, 11, 30⟩ ∧ RealTime ⟨⟨2016, 12, 31⟩, 86399, 1500000000⟩ := by
  unfold RealDate InRange RealTime RealDate InRange; decide +kernel

/-- A day after the leap second of 2016 is the last second of the next day; no days after it is itself. -/
example : ({ Recur.default with freq := .daily, interval := 1 } : Recur).addNaive ⟨⟨2016, 12, 31⟩, 86399, 1500000000⟩ =
      some ⟨⟨2017, 1, 1⟩, 86399, 500000000⟩ ∧
    ({ Recur.default with freq := .daily, interval := 0 } : Recur).addLocal ⟨⟨2016, 12, 31⟩, 86399, 1500000000⟩ =
      some ⟨⟨2016, 12, 31⟩, 86399, 1500000000⟩ := by decide +kernel

/-- No years after the last leap second chrono can show is a panic (`with_year` refuses what is after its last
instant); no months after it is itself, and so is no years after the last instant. -/
example : ({ Recur.default with freq := .yearly, interval := 0 } : Recur).addLocal ⟨⟨262142, 12, 31⟩, 86399, 1000000000⟩ = none ∧
    ({ Recur.default with freq := .monthly, interval := 0 } : Recur).addLocal ⟨⟨262142, 12, 31⟩, 86399, 1000000000⟩ =
      some ⟨⟨262142, 12, 31⟩, 86399, 1000000000⟩ ∧
    ({ Recur.default with freq := .yearly, interval := 0 } : Recur).addLocal ⟨⟨262142, 12, 31⟩, 86399, 999999999⟩ =
      some ⟨⟨262142, 12, 31⟩, 86399, 999999999⟩ := by decide +kernel

end Examples

end Ikal
