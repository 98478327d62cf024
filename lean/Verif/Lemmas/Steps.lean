import Verif.Lemmas.Recur
import Verif.Lemmas.Arith
import Verif.Props.Order

/-! # Steps of a rule on dates -/

namespace Ikal

open Spec

set_option linter.unusedSectionVars false
set_option linter.unusedSimpArgs false

section
variable [Platform]

/-! ## Fixed-length frequencies -/

/-- The number of seconds of a fixed-length frequency. -/
def unitSecs : Freq → Nat
  | .secondly => 1
  | .minutely => 60
  | .hourly => 3600
  | .daily => 86400
  | .weekly => 604800
  | .monthly => 0
  | .yearly => 0

theorem fixedStep_eq {r : Recur} (h1 : r.freq ≠ .monthly) (h2 : r.freq ≠ .yearly) (hi : r.interval ≤ 255) :
    r.fixedStep = some ⟨(r.interval * unitSecs r.freq : Nat) * 1000000000⟩ := by
  unfold Recur.fixedStep
  have key : ∀ u : Nat, u ≤ 604800 → TimeDelta.mk? (((r.interval * u : Nat) : Int) * 1000000000) =
      some ⟨((r.interval * u : Nat) : Int) * 1000000000⟩ := by
    intro u hu
    have : r.interval * u ≤ 255 * 604800 := Nat.mul_le_mul hi hu
    unfold TimeDelta.mk?
    rw [if_pos]
    unfold TimeDelta.Valid TimeDelta.maxNanos i64Max
    simp only
    omega
  cases hf : r.freq with
  | secondly => simpa [unitSecs, TimeDelta.seconds, TimeDelta.nps] using key 1 (by omega)
  | minutely => simpa [unitSecs, TimeDelta.minutes, TimeDelta.nps] using key 60 (by omega)
  | hourly => simpa [unitSecs, TimeDelta.hours, TimeDelta.nps] using key 3600 (by omega)
  | daily => simpa [unitSecs, TimeDelta.days, TimeDelta.nps] using key 86400 (by omega)
  | weekly => simpa [unitSecs, TimeDelta.weeks, TimeDelta.nps] using key 604800 (by omega)
  | monthly => exact absurd hf h1
  | yearly => exact absurd hf h2

theorem addNaive_fixed {r : Recur} (h1 : r.freq ≠ .monthly) (h2 : r.freq ≠ .yearly) (hi : r.interval ≤ 255) {t t' : NaiveDateTime}
    (ht : t.frac < 1000000000) : r.addNaive t = some t' ↔ t'.Plain ∧ t'.nanos = t.nanos + (r.interval * unitSecs r.freq : Nat) * 1000000000 := by
  have : r.addNaive t = t.add ⟨(r.interval * unitSecs r.freq : Nat) * 1000000000⟩ := by
    have hs := fixedStep_eq h1 h2 hi
    unfold Recur.addNaive
    cases hf : r.freq <;> first | exact absurd hf h1 | exact absurd hf h2 | (rw [hs, hf]; rfl)
  rw [this, NaiveDateTime.add_some ht]

theorem addLocal_fixed {r : Recur} (h1 : r.freq ≠ .monthly) (h2 : r.freq ≠ .yearly) (t : NaiveDateTime) : r.addLocal t = r.addNaive t := by
  unfold Recur.addLocal Recur.addNaive
  cases hf : r.freq <;> first | exact absurd hf h1 | exact absurd hf h2 | rfl

theorem realTime_iff (t : NaiveDateTime) : RealTime t ↔ t.Valid := by
  unfold RealTime NaiveDateTime.Valid
  rw [valid_iff]
  constructor
  · rintro ⟨a, b, c, d⟩; exact ⟨⟨b, a⟩, c, d⟩
  · rintro ⟨⟨b, a⟩, c, d⟩; exact ⟨a, b, c, d⟩

theorem NaiveDateTime.Plain.valid {t : NaiveDateTime} (h : t.Plain) : t.Valid := ⟨h.1, h.2.1, by have := h.2.2; omega⟩

theorem plain_withoutLeap {t : NaiveDateTime} (h : t.Valid) : (withoutLeapSecond t).Plain :=
  ⟨h.1, h.2.1, Nat.mod_lt _ (by omega)⟩

theorem withoutLeap_of_lt {t : NaiveDateTime} (h : t.frac < 1000000000) : withoutLeapSecond t = t := by
  unfold withoutLeapSecond
  rw [Nat.mod_eq_of_lt h]

/-- A positive number of seconds after a leap second is that many seconds after the second before it. -/
theorem NaiveDateTime.add_leap {t : NaiveDateTime} (hv : t.frac < 2000000000) {n : Int} (hn : 1 ≤ n) :
    t.add ⟨n * 1000000000⟩ = (withoutLeapSecond t).add ⟨n * 1000000000⟩ := by
  by_cases hl : t.frac < 1000000000
  · rw [withoutLeap_of_lt hl]
  · have hs : (TimeDelta.mk (n * 1000000000)).numSeconds = n := by
      unfold TimeDelta.numSeconds TimeDelta.nps
      simp only
      exact Int.mul_tdiv_cancel _ (by omega)
    have hf : (TimeDelta.mk (n * 1000000000)).subsecNanos = 0 := by
      unfold TimeDelta.subsecNanos TimeDelta.nps
      simp only
      exact Int.mul_tmod_left _ _
    unfold NaiveDateTime.add
    simp only [hs, hf]
    have hm : t.frac % 1000000000 = t.frac - 1000000000 := by omega
    have h1 : ((t.frac : Int) ≥ 1000000000) := by omega
    have h2 : ¬ (((withoutLeapSecond t).frac : Int) ≥ 1000000000) := by
      simp only [withoutLeapSecond]; omega
    rw [if_pos h1, if_pos (Or.inl (by omega)), if_neg h2]
    have h3 : ((withoutLeapSecond t).frac : Int) = t.frac - 1000000000 := by simp only [withoutLeapSecond]; omega
    rw [h3]
    rfl

theorem NaiveDateTime.add_none {t : NaiveDateTime} (hv : t.Valid) : t.add ⟨0⟩ = some t := by
  by_cases hl : t.frac < 1000000000
  · rw [NaiveDateTime.add_some hl]
    exact ⟨⟨hv.1, hv.2.1, hl⟩, by simp⟩
  · unfold NaiveDateTime.add
    have hs : (TimeDelta.mk 0).numSeconds = 0 := rfl
    have hf : (TimeDelta.mk 0).subsecNanos = 0 := rfl
    simp only [hs, hf]
    have := hv.2.2
    rw [if_pos (by omega), if_neg (by omega), if_neg (by omega)]
    simp

theorem addNaive_eq {r : Recur} (h1 : r.freq ≠ .monthly) (h2 : r.freq ≠ .yearly) (hi : r.interval ≤ 255) (t : NaiveDateTime) :
    r.addNaive t = t.add ⟨(r.interval * unitSecs r.freq : Nat) * 1000000000⟩ := by
  have hs := fixedStep_eq h1 h2 hi
  unfold Recur.addNaive
  cases hf : r.freq <;> first | exact absurd hf h1 | exact absurd hf h2 | (rw [hs, hf]; rfl)

theorem unitSecs_pos {f : Freq} (h1 : f ≠ .monthly) (h2 : f ≠ .yearly) : 1 ≤ unitSecs f := by
  cases f <;> first | exact absurd rfl h1 | exact absurd rfl h2 | (simp only [unitSecs]; omega)

theorem addNaive_leap {r : Recur} (h1 : r.freq ≠ .monthly) (h2 : r.freq ≠ .yearly) (hi : 1 ≤ r.interval) (hi2 : r.interval ≤ 255)
    {t : NaiveDateTime} (hv : t.frac < 2000000000) : r.addNaive t = r.addNaive (withoutLeapSecond t) := by
  rw [addNaive_eq h1 h2 hi2, addNaive_eq h1 h2 hi2]
  refine NaiveDateTime.add_leap hv ?_
  have := Nat.mul_le_mul hi (unitSecs_pos h1 h2)
  omega

theorem addNaive_still {r : Recur} (h1 : r.freq ≠ .monthly) (h2 : r.freq ≠ .yearly) (hi : r.interval = 0)
    {t : NaiveDateTime} (hv : t.Valid) : r.addNaive t = some t := by
  rw [addNaive_eq h1 h2 (by omega), hi, Nat.zero_mul]
  exact NaiveDateTime.add_none hv

/-- From the first step on, the progression from a leap second is that from the second before it. -/
theorem nth_leap {r : Recur} (h1 : r.freq ≠ .monthly) (h2 : r.freq ≠ .yearly) (hi : 1 ≤ r.interval) (hi2 : r.interval ≤ 255)
    {t : NaiveDateTime} (hv : t.frac < 2000000000) (k : Nat) :
    nthDate r (k + 1) (.dateTime (.naive t)) = nthDate r (k + 1) (.dateTime (.naive (withoutLeapSecond t))) ∧
    nthDate r (k + 1) (.dateTime (.loc t)) = nthDate r (k + 1) (.dateTime (.loc (withoutLeapSecond t))) := by
  have h := addNaive_leap h1 h2 hi hi2 hv
  rw [Nat.add_comm k 1]
  simp only [nthDate_add, show ∀ d, nthDate r 1 d = r.add d from fun d => rfl, Recur.add, Recur.addDateTime, addLocal_fixed h1 h2, h]
  trivial

/-- Times between two representable times are representable. -/
theorem NaiveDateTime.between {a b : NaiveDateTime} (ha : a.Plain) (hb : b.Plain) {n : Int} (h1 : a.nanos ≤ n) (h2 : n ≤ b.nanos) :
    ∃ c : NaiveDateTime, c.Plain ∧ c.nanos = n := by
  obtain ⟨a1, a2, a3⟩ := ha
  obtain ⟨b1, b2, b3⟩ := hb
  unfold NaiveDateTime.nanos NaiveDateTime.toSecs at h1 h2
  refine ⟨⟨NaiveDate.ofDays (n / 1000000000 / 86400), (n / 1000000000 % 86400).toNat, (n % 1000000000).toNat⟩, ⟨?_, ?_, ?_⟩, ?_⟩
  · show (NaiveDate.ofDays (n / 1000000000 / 86400)).Valid
    have hok := NaiveDate.ofDays_ok (n / 1000000000 / 86400)
    have hd := NaiveDate.toDays_ofDays (n / 1000000000 / 86400)
    generalize NaiveDate.ofDays (n / 1000000000 / 86400) = c at hok hd
    refine ⟨?_, ?_, hok⟩
    · refine Int.not_lt.1 fun h => ?_
      have hlt : c.year < a.date.year := by have := a1.1; omega
      have := NaiveDate.toDays_lt_of_cmp hok a1.ok (NaiveDate.cmp_lt_iff.2 (.inl hlt))
      omega
    · refine Int.not_lt.1 fun h => ?_
      have hlt : b.date.year < c.year := by have := b1.2.1; omega
      have := NaiveDate.toDays_lt_of_cmp b1.ok hok (NaiveDate.cmp_lt_iff.2 (.inl hlt))
      omega
  · simp only; omega
  · simp only; omega
  · unfold NaiveDateTime.nanos NaiveDateTime.toSecs
    simp only [NaiveDate.toDays_ofDays]
    omega

/-- `k` steps of a fixed length on a date-time, floating or local. -/
theorem nth_fixed {r : Recur} (h1 : r.freq ≠ .monthly) (h2 : r.freq ≠ .yearly) (hi : r.interval ≤ 255) {t : NaiveDateTime} (ht : t.Plain)
    (mk : NaiveDateTime → DateTime) (hmk : ∀ u v, r.addDateTime (mk u) = some v ↔ ∃ w, r.addNaive u = some w ∧ v = mk w) (k : Nat) (D : Date) :
    nthDate r k (.dateTime (mk t)) = some D ↔
      ∃ t', D = .dateTime (mk t') ∧ t'.Plain ∧ t'.nanos = t.nanos + (k * (r.interval * unitSecs r.freq) : Nat) * 1000000000 := by
  induction k generalizing D with
  | zero =>
    simp only [nthDate, Option.some.injEq, Nat.zero_mul, Int.natCast_zero, Int.zero_mul, Int.add_zero]
    constructor
    · rintro rfl; exact ⟨t, rfl, ht, rfl⟩
    · rintro ⟨t', rfl, hp, hn⟩; rw [NaiveDateTime.nanos_inj hp ht hn]
  | succ k ih =>
    simp only [nthDate, Option.bind_eq_some_iff]
    have hadd : ∀ u D, r.add (.dateTime (mk u)) = some D ↔ ∃ w, r.addNaive u = some w ∧ D = .dateTime (mk w) := by
      intro u D
      simp only [Recur.add, Option.map_eq_some_iff, hmk]
      constructor
      · rintro ⟨v, ⟨w, hw, rfl⟩, rfl⟩; exact ⟨w, hw, rfl⟩
      · rintro ⟨w, hw, rfl⟩; exact ⟨_, ⟨w, hw, rfl⟩, rfl⟩
    have hmul : ((k + 1) * (r.interval * unitSecs r.freq) : Nat) = k * (r.interval * unitSecs r.freq) + r.interval * unitSecs r.freq := Nat.succ_mul _ _
    constructor
    · rintro ⟨E, hE, hD⟩
      obtain ⟨u, rfl, hu, hun⟩ := (ih E).1 hE
      obtain ⟨w, hw, rfl⟩ := (hadd u D).1 hD
      obtain ⟨hw1, hw2⟩ := (addNaive_fixed h1 h2 hi hu.2.2).1 hw
      refine ⟨w, rfl, hw1, ?_⟩
      rw [hw2, hun, hmul]
      omega
    · rintro ⟨t', rfl, hp, hn⟩
      rw [hmul] at hn
      obtain ⟨u, hu, hun⟩ := NaiveDateTime.between ht hp (n := t.nanos + (k * (r.interval * unitSecs r.freq) : Nat) * 1000000000)
        (by omega) (by omega)
      refine ⟨_, (ih _).2 ⟨u, rfl, hu, hun⟩, (hadd u _).2 ⟨t', (addNaive_fixed h1 h2 hi hu.2.2).2 ⟨hp, ?_⟩, rfl⟩⟩
      rw [hn, hun]
      omega

theorem nth_fixed_naive {r : Recur} (h1 : r.freq ≠ .monthly) (h2 : r.freq ≠ .yearly) (hi : r.interval ≤ 255) {t : NaiveDateTime} (ht : t.Plain)
    (k : Nat) (D : Date) : nthDate r k (.dateTime (.naive t)) = some D ↔
      ∃ t', D = .dateTime (.naive t') ∧ t'.Plain ∧ t'.nanos = t.nanos + (k * (r.interval * unitSecs r.freq) : Nat) * 1000000000 := by
  refine nth_fixed h1 h2 hi ht .naive (fun u v => ?_) k D
  simp only [Recur.addDateTime, Option.map_eq_some_iff]
  exact exists_congr fun w => and_congr Iff.rfl eq_comm

theorem nth_fixed_loc {r : Recur} (h1 : r.freq ≠ .monthly) (h2 : r.freq ≠ .yearly) (hi : r.interval ≤ 255) {t : NaiveDateTime} (ht : t.Plain)
    (k : Nat) (D : Date) : nthDate r k (.dateTime (.loc t)) = some D ↔
      ∃ t', D = .dateTime (.loc t') ∧ t'.Plain ∧ t'.nanos = t.nanos + (k * (r.interval * unitSecs r.freq) : Nat) * 1000000000 := by
  refine nth_fixed h1 h2 hi ht .loc (fun u v => ?_) k D
  simp only [Recur.addDateTime, Option.map_eq_some_iff, addLocal_fixed h1 h2]
  exact exists_congr fun w => and_congr Iff.rfl eq_comm

/-! ## Steps of days -/

theorem addDays_iff {d e : NaiveDate} {n : Int} : d.addDays n = some e ↔ e.Valid ∧ e.toDays = d.toDays + n := by
  constructor
  · intro h; exact NaiveDate.addDays_some h
  · rintro ⟨h1, h2⟩; exact NaiveDate.addDays_of h1 h2

/-- The number of days of a step in days or weeks. -/
def unitDays : Freq → Nat
  | .daily => 1
  | .weekly => 7
  | _ => 0

theorem add_days {r : Recur} (hf : r.freq = .daily ∨ r.freq = .weekly) (d : NaiveDate) (D : Date) :
    r.add (.date d) = some D ↔ ∃ e : NaiveDate, D = .date e ∧ e.Valid ∧ e.toDays = d.toDays + (r.interval * unitDays r.freq : Nat) := by
  have hadd : r.add (.date d) = (d.addDays (r.interval * unitDays r.freq : Nat)).map Date.date := by
    unfold Recur.add Recur.addDate
    rcases hf with h | h
    · simp only [h, unitDays, Nat.mul_one, Nat.le_refl, if_true]
    · simp only [h, unitDays]
      rw [if_pos (by decide)]
      rfl
  rw [hadd, Option.map_eq_some_iff]
  constructor
  · rintro ⟨e, he, rfl⟩; exact ⟨e, rfl, addDays_iff.1 he⟩
  · rintro ⟨e, rfl, he⟩; exact ⟨e, addDays_iff.2 he, rfl⟩

theorem NaiveDate.between {a b : NaiveDate} (ha : a.Valid) (hb : b.Valid) {n : Int} (h1 : a.toDays ≤ n) (h2 : n ≤ b.toDays) :
    ∃ c : NaiveDate, c.Valid ∧ c.toDays = n := by
  refine ⟨NaiveDate.ofDays n, ⟨?_, ?_, NaiveDate.ofDays_ok n⟩, NaiveDate.toDays_ofDays n⟩
  · refine Int.not_lt.1 fun h => ?_
    have := NaiveDate.toDays_lt_of_cmp (NaiveDate.ofDays_ok n) ha.ok (NaiveDate.cmp_lt_iff.2 (.inl (by have := ha.1; omega)))
    rw [NaiveDate.toDays_ofDays] at this
    omega
  · refine Int.not_lt.1 fun h => ?_
    have := NaiveDate.toDays_lt_of_cmp hb.ok (NaiveDate.ofDays_ok n) (NaiveDate.cmp_lt_iff.2 (.inl (by have := hb.2.1; omega)))
    rw [NaiveDate.toDays_ofDays] at this
    omega

theorem nth_days {r : Recur} (hf : r.freq = .daily ∨ r.freq = .weekly) {d : NaiveDate} (hd : d.Valid) (k : Nat) (D : Date) :
    nthDate r k (.date d) = some D ↔
      ∃ e : NaiveDate, D = .date e ∧ e.Valid ∧ e.toDays = d.toDays + (k * (r.interval * unitDays r.freq) : Nat) := by
  induction k generalizing D with
  | zero =>
    simp only [nthDate, Option.some.injEq, Nat.zero_mul, Int.natCast_zero, Int.add_zero]
    constructor
    · rintro rfl; exact ⟨d, rfl, hd, rfl⟩
    · rintro ⟨t', rfl, hp, hn⟩; rw [NaiveDate.toDays_inj hp.ok hd.ok hn]
  | succ k ih =>
    simp only [nthDate, Option.bind_eq_some_iff]
    have hmul : ((k + 1) * (r.interval * unitDays r.freq) : Nat) = k * (r.interval * unitDays r.freq) + r.interval * unitDays r.freq := Nat.succ_mul _ _
    constructor
    · rintro ⟨E, hE, hD⟩
      obtain ⟨u, rfl, hu, hun⟩ := (ih E).1 hE
      obtain ⟨w, rfl, hw, hwn⟩ := (add_days hf u D).1 hD
      exact ⟨w, rfl, hw, by rw [hwn, hun, hmul]; omega⟩
    · rintro ⟨t', rfl, hp, hn⟩
      rw [hmul] at hn
      obtain ⟨u, hu, hun⟩ := NaiveDate.between hd hp (n := d.toDays + (k * (r.interval * unitDays r.freq) : Nat)) (by omega) (by omega)
      exact ⟨_, (ih _).2 ⟨u, rfl, hu, hun⟩, (add_days hf u _).2 ⟨t', rfl, hp, by rw [hn, hun]; omega⟩⟩

/-! ## Months -/

theorem fromYmd_some {y : Int} {m d : Nat} {e : NaiveDate} : NaiveDate.fromYmdOpt y m d = some e ↔ e = ⟨y, m, d⟩ ∧ e.Valid := by
  unfold NaiveDate.fromYmdOpt
  split
  · next h => simp only [Option.some.injEq]; exact ⟨fun he => ⟨he.symm, he ▸ h⟩, fun he => he.1.symm⟩
  · next h => simp only [reduceCtorEq, false_iff]; rintro ⟨rfl, hv⟩; exact h hv

theorem lengthOfMonth_index {d : NaiveDate} (h1 : 1 ≤ d.month) (h2 : d.month ≤ 12) : lengthOfMonth (monthIndex d) = monthLength d.year d.month := by
  unfold lengthOfMonth monthIndex
  rw [show (d.year * 12 + ((d.month : Int) - 1)) / 12 = d.year by omega,
    show ((d.year * 12 + ((d.month : Int) - 1)) % 12).toNat + 1 = d.month by omega]

theorem addMonths_iff {d e : NaiveDate} (hd : d.Valid) (n : Nat) : d.addMonths n = some e ↔ MonthsLater n d e ∧ InRange e := by
  have hr := ((valid_iff d).1 hd)
  obtain ⟨a1, a2, a3, a4⟩ := hr.2
  unfold NaiveDate.addMonths MonthsLater
  split
  · next h0 =>
    subst h0
    simp only [Option.some.injEq, Int.natCast_zero, Int.add_zero]
    constructor
    · rintro rfl
      exact ⟨⟨⟨a1, a2, a3, a4⟩, rfl, by omega⟩, hr.1⟩
    · rintro ⟨⟨⟨b1, b2, b3, b4⟩, hi, hday⟩, -⟩
      unfold monthIndex at hi
      have hy : e.year = d.year := by omega
      have hm : e.month = d.month := by omega
      rw [hy, hm] at hday
      cases d; cases e
      simp only [NaiveDate.mk.injEq] at *
      exact ⟨hy.symm, hm.symm, by omega⟩
  · next h0 =>
    simp only
    generalize ht : d.year * 12 + ((d.month : Int) - 1) + n = t
    have hm1 : 1 ≤ (t % 12).toNat + 1 := by omega
    have hm2 : (t % 12).toNat + 1 ≤ 12 := by omega
    have hg := NaiveDate.daysInMonth_ge (t / 12) hm1 hm2
    rw [fromYmd_some, valid_iff]
    constructor
    · rintro ⟨rfl, hin, hre⟩
      refine ⟨⟨hre, ?_, ?_⟩, hin⟩
      · unfold monthIndex; simp only; omega
      · simp only [daysInMonth_eq _ hm1 hm2]
    · rintro ⟨⟨hre, hi, hday⟩, hin⟩
      refine ⟨?_, hin, hre⟩
      obtain ⟨b1, b2, b3, b4⟩ := hre
      unfold monthIndex at hi
      have hy : e.year = t / 12 := by omega
      have hm : e.month = (t % 12).toNat + 1 := by omega
      rw [daysInMonth_eq _ hm1 hm2, ← hy, ← hm, ← hday]

theorem add_months {r : Recur} (hf : r.freq = .monthly) {d : NaiveDate} (hd : d.Valid) (D : Date) :
    r.add (.date d) = some D ↔ ∃ e : NaiveDate, D = .date e ∧ MonthsLater r.interval d e ∧ InRange e := by
  have hadd : r.add (.date d) = (d.addMonths r.interval).map Date.date := by
    unfold Recur.add Recur.addDate
    simp only [hf]
    rw [if_pos (by decide)]
  rw [hadd, Option.map_eq_some_iff]
  constructor
  · rintro ⟨e, he, rfl⟩; exact ⟨e, rfl, (addMonths_iff hd _).1 he⟩
  · rintro ⟨e, rfl, he⟩; exact ⟨e, (addMonths_iff hd _).2 he, rfl⟩

theorem nth_months {r : Recur} (hf : r.freq = .monthly) {d : NaiveDate} (hd : d.Valid) (k : Nat) (D : Date) :
    nthDate r k (.date d) = some D ↔
      ∃ e : NaiveDate, D = .date e ∧ e.Valid ∧ monthIndex e = monthIndex d + (k * r.interval : Nat) ∧
        e.day ≤ d.day ∧ (∀ j, 1 ≤ j → j ≤ k → e.day ≤ lengthOfMonth (monthIndex d + (j * r.interval : Nat))) ∧
        (e.day = d.day ∨ ∃ j, 1 ≤ j ∧ j ≤ k ∧ e.day = lengthOfMonth (monthIndex d + (j * r.interval : Nat))) := by
  have hdr := ((valid_iff d).1 hd).2
  induction k generalizing D with
  | zero =>
    simp only [nthDate, Option.some.injEq, Nat.zero_mul, Int.natCast_zero, Int.add_zero]
    constructor
    · rintro rfl; exact ⟨d, rfl, hd, rfl, Nat.le_refl _, by omega, .inl rfl⟩
    · rintro ⟨e, rfl, hp, hi, -, -, hday⟩
      have hday : e.day = d.day := by
        rcases hday with h | ⟨j, h1, h2, -⟩
        · exact h
        · omega
      obtain ⟨b1, b2, b3, b4⟩ := ((valid_iff e).1 hp).2
      obtain ⟨a1, a2, a3, a4⟩ := hdr
      unfold monthIndex at hi
      cases d; cases e
      simp only [Date.date.injEq, NaiveDate.mk.injEq] at *
      omega
  | succ k ih =>
    simp only [nthDate, Option.bind_eq_some_iff]
    have hmul : ((k + 1) * r.interval : Nat) = k * r.interval + r.interval := Nat.succ_mul _ _
    constructor
    · rintro ⟨E, hE, hD⟩
      obtain ⟨u, rfl, hu, hun, hle, hall, hex⟩ := (ih E).1 hE
      obtain ⟨w, rfl, ⟨hw, hwi, hwd⟩, hin⟩ := (add_months hf hu D).1 hD
      have hidx : monthIndex w = monthIndex d + ((k + 1) * r.interval : Nat) := by rw [hwi, hun, hmul]; omega
      have hlen := lengthOfMonth_index hw.1 hw.2.1
      rw [← hlen, hidx] at hwd
      refine ⟨w, rfl, (valid_iff w).2 ⟨hin, hw⟩, hidx, by omega, ?_, ?_⟩
      · intro j h1 h2
        rcases Nat.lt_or_ge k j with h | h
        · have : j = k + 1 := by omega
          subst this; omega
        · have := hall j h1 h; omega
      · rcases Nat.le_total u.day (lengthOfMonth (monthIndex d + ((k + 1) * r.interval : Nat))) with h | h
        · have he : w.day = u.day := by omega
          rcases hex with h | ⟨j, h1, h2, h3⟩
          · exact .inl (by omega)
          · exact .inr ⟨j, h1, by omega, by omega⟩
        · exact .inr ⟨k + 1, by omega, Nat.le_refl _, by omega⟩
    · rintro ⟨w, rfl, hw, hwi, hle, hall, hex⟩
      -- the month before the last step
      obtain ⟨hwr, b1, b2, b3, b4⟩ := (valid_iff w).1 hw
      generalize ht : monthIndex d + (k * r.interval : Nat) = t
      have hm1 : 1 ≤ (t % 12).toNat + 1 := by omega
      have hm2 : (t % 12).toNat + 1 ≤ 12 := by omega
      -- the smallest of the lengths so far
      have hmin : ∃ y : Nat, 1 ≤ y ∧ y ≤ d.day ∧ (∀ j, 1 ≤ j → j ≤ k → y ≤ lengthOfMonth (monthIndex d + (j * r.interval : Nat))) ∧
          (y = d.day ∨ ∃ j, 1 ≤ j ∧ j ≤ k ∧ y = lengthOfMonth (monthIndex d + (j * r.interval : Nat))) := by
        clear ih hwi hle hall hex hmul ht
        induction k with
        | zero => exact ⟨d.day, hdr.2.2.1, Nat.le_refl _, by omega, .inl rfl⟩
        | succ k ih =>
          obtain ⟨y, h0, h1, h2, h3⟩ := ih
          have hpos : 1 ≤ lengthOfMonth (monthIndex d + ((k + 1) * r.interval : Nat)) := by
            unfold lengthOfMonth
            generalize monthIndex d + ((k + 1) * r.interval : Nat) = i
            have := NaiveDate.daysInMonth_ge (i / 12) (m := (i % 12).toNat + 1) (by omega) (by omega)
            rw [daysInMonth_eq _ (by omega) (by omega)] at this
            omega
          refine ⟨min y (lengthOfMonth (monthIndex d + ((k + 1) * r.interval : Nat))), by omega, by omega, ?_, ?_⟩
          · intro j h4 h5
            rcases Nat.lt_or_ge k j with h | h
            · have : j = k + 1 := by omega
              subst this; omega
            · have := h2 j h4 h; omega
          · rcases Nat.le_total y (lengthOfMonth (monthIndex d + ((k + 1) * r.interval : Nat))) with h | h
            · rcases h3 with h3 | ⟨j, h4, h5, h6⟩
              · exact .inl (by omega)
              · exact .inr ⟨j, h4, by omega, by omega⟩
            · exact .inr ⟨k + 1, by omega, Nat.le_refl _, by omega⟩
      obtain ⟨y, hy0, hy1, hy2, hy3⟩ := hmin
      have hylen : y ≤ monthLength (t / 12) ((t % 12).toNat + 1) := by
        cases k with
        | zero =>
          simp only [Nat.zero_mul, Int.natCast_zero, Int.add_zero] at ht
          have := lengthOfMonth_index hdr.1 hdr.2.1
          rw [ht] at this
          unfold lengthOfMonth at this
          rw [this]
          have := hdr.2.2.2
          omega
        | succ k =>
          have := hy2 (k + 1) (by omega) (Nat.le_refl _)
          rw [ht] at this
          exact this
      have hu : NaiveDate.Valid ⟨t / 12, (t % 12).toNat + 1, y⟩ := by
        rw [valid_iff]
        refine ⟨?_, hm1, hm2, hy0, hylen⟩
        have h1 := ((valid_iff d).1 hd).1
        unfold InRange at *
        unfold monthIndex at ht hwi
        have h3 := hdr.1
        have h4 := hdr.2.1
        simp only
        omega
      have hidx : monthIndex ⟨t / 12, (t % 12).toNat + 1, y⟩ = t := by
        clear hy3 hex
        unfold monthIndex
        simp only
        omega
      refine ⟨.date ⟨t / 12, (t % 12).toNat + 1, y⟩, (ih _).2 ⟨_, rfl, hu, by rw [hidx, ht], hy1, hy2, hy3⟩, ?_⟩
      refine (add_months hf hu _).2 ⟨w, rfl, ⟨⟨b1, b2, b3, b4⟩, ?_, ?_⟩, hwr⟩
      · rw [hidx, hwi, hmul, ← ht]; omega
      · rw [← lengthOfMonth_index b1 b2, hwi]
        simp only
        have hlast := hall (k + 1) (by omega) (Nat.le_refl _)
        have hwy : w.day ≤ y := by
          rcases hy3 with h | ⟨j, h4, h5, h6⟩
          · omega
          · have := hall j h4 (by omega); omega
        rcases hex with h | ⟨j, h4, h5, h6⟩
        · omega
        · rcases Nat.lt_or_ge k j with h | h
          · have : j = k + 1 := by omega
            subst this; omega
          · have := hy2 j h4 h; omega

/-! ## Years -/

theorem withYear_iff {d e : NaiveDate} {y : Int} : d.withYear y = some e ↔ e = ⟨y, d.month, d.day⟩ ∧ InRange e ∧ RealDate e := by
  unfold NaiveDate.withYear
  rw [fromYmd_some, valid_iff]

theorem add_years {r : Recur} (hf : r.freq = .yearly) (d : NaiveDate) (D : Date) :
    r.add (.date d) = some D ↔ ∃ e : NaiveDate, D = .date e ∧ e = ⟨d.year + r.interval, d.month, d.day⟩ ∧ InRange e ∧ RealDate e := by
  have hadd : r.add (.date d) = (d.withYear (d.year + r.interval)).map Date.date := by
    unfold Recur.add Recur.addDate
    simp only [hf]
    rw [if_pos (by decide)]
  rw [hadd, Option.map_eq_some_iff]
  constructor
  · rintro ⟨e, he, rfl⟩; exact ⟨e, rfl, withYear_iff.1 he⟩
  · rintro ⟨e, rfl, he⟩; exact ⟨e, withYear_iff.2 he, rfl⟩

theorem nth_years {r : Recur} (hf : r.freq = .yearly) (d : NaiveDate) (k : Nat) (D : Date) :
    nthDate r k (.date d) = some D ↔ D = .date ⟨d.year + (k * r.interval : Nat), d.month, d.day⟩ ∧
      ∀ j, 1 ≤ j → j ≤ k → InRange ⟨d.year + (j * r.interval : Nat), d.month, d.day⟩ ∧ RealDate ⟨d.year + (j * r.interval : Nat), d.month, d.day⟩ := by
  induction k generalizing D with
  | zero =>
    simp only [nthDate, Option.some.injEq, Nat.zero_mul, Int.natCast_zero, Int.add_zero]
    constructor
    · rintro rfl; exact ⟨rfl, by omega⟩
    · rintro ⟨rfl, -⟩; rfl
  | succ k ih =>
    simp only [nthDate, Option.bind_eq_some_iff]
    have hmul : ((k + 1) * r.interval : Nat) = k * r.interval + r.interval := Nat.succ_mul _ _
    have hy : d.year + (k * r.interval : Nat) + r.interval = d.year + ((k + 1) * r.interval : Nat) := by rw [hmul]; omega
    constructor
    · rintro ⟨E, hE, hD⟩
      obtain ⟨rfl, hall⟩ := (ih E).1 hE
      obtain ⟨w, rfl, rfl, h1, h2⟩ := (add_years hf _ D).1 hD
      simp only [hy] at h1 h2
      refine ⟨by simp only [hy], fun j h3 h4 => ?_⟩
      rcases Nat.lt_or_ge k j with h | h
      · have : j = k + 1 := by omega
        subst this; exact ⟨h1, h2⟩
      · exact hall j h3 h
    · rintro ⟨rfl, hall⟩
      refine ⟨_, (ih _).2 ⟨rfl, fun j h1 h2 => hall j h1 (by omega)⟩, (add_years hf _ _).2 ⟨_, rfl, ?_, hall (k + 1) (by omega) (Nat.le_refl _)⟩⟩
      simp only [hy]

/-! ## Months and years on date-times -/

theorem addNaive_calendar {r : Recur} (hf : r.freq = .monthly ∨ r.freq = .yearly) (t : NaiveDateTime) (t' : NaiveDateTime) :
    r.addNaive t = some t' ↔ ∃ e, r.add (.date t.date) = some (.date e) ∧ t' = { t with date := e } := by
  unfold Recur.addNaive Recur.add Recur.addDate
  rcases hf with h | h
  · simp only [h]
    rw [if_pos (by decide)]
    unfold NaiveDateTime.addMonths
    cases hm : t.date.addMonths r.interval with
    | none => simp
    | some e => simp [eq_comm]
  · simp only [h]
    rw [if_pos (by decide)]
    unfold NaiveDateTime.withYear
    cases hm : t.date.withYear (t.date.year + r.interval) with
    | none => simp
    | some e => simp [eq_comm]

theorem add_date_kind {r : Recur} (hf : Freq.daily.rank ≤ r.freq.rank) {d : NaiveDate} {D : Date} (h : r.add (.date d) = some D) :
    ∃ e, D = .date e := by
  simp only [Recur.add, hf, if_true] at h
  obtain ⟨e, -, rfl⟩ := Option.map_eq_some_iff.1 h
  exact ⟨e, rfl⟩

theorem nth_date_kind {r : Recur} (hf : Freq.daily.rank ≤ r.freq.rank) {d : NaiveDate} {k : Nat} {D : Date} (h : nthDate r k (.date d) = some D) :
    ∃ e, D = .date e := by
  induction k generalizing D with
  | zero => cases h; exact ⟨d, rfl⟩
  | succ k ih =>
    simp only [nthDate, Option.bind_eq_some_iff] at h
    obtain ⟨E, hE, h⟩ := h
    obtain ⟨e, rfl⟩ := ih hE
    exact add_date_kind hf h

theorem nth_calendar {r : Recur} (hf : r.freq = .monthly ∨ r.freq = .yearly) (t : NaiveDateTime) (k : Nat) (D : Date) :
    nthDate r k (.dateTime (.naive t)) = some D ↔
      ∃ e, nthDate r k (.date t.date) = some (.date e) ∧ D = .dateTime (.naive { t with date := e }) := by
  have hrank : Freq.daily.rank ≤ r.freq.rank := by rcases hf with h | h <;> rw [h] <;> decide
  induction k generalizing D with
  | zero => simp [nthDate, eq_comm]
  | succ k ih =>
    simp only [nthDate, Option.bind_eq_some_iff]
    constructor
    · rintro ⟨E, hE, hD⟩
      obtain ⟨e, he, rfl⟩ := (ih E).1 hE
      simp only [Recur.add, Recur.addDateTime, Option.map_eq_some_iff] at hD
      obtain ⟨v, ⟨w, hw, rfl⟩, rfl⟩ := hD
      obtain ⟨e', he', rfl⟩ := (addNaive_calendar hf _ _).1 hw
      exact ⟨e', ⟨_, he, he'⟩, rfl⟩
    · rintro ⟨e', ⟨E, hE, he'⟩, rfl⟩
      obtain ⟨e, rfl⟩ := nth_date_kind hrank hE
      refine ⟨_, (ih _).2 ⟨e, hE, rfl⟩, ?_⟩
      simp only [Recur.add, Recur.addDateTime, Option.map_eq_some_iff]
      exact ⟨_, ⟨_, (addNaive_calendar hf _ _).2 ⟨e', he', rfl⟩, rfl⟩, rfl⟩

end

end Ikal
