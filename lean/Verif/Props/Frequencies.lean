import Verif.Orders
import Verif.Props.Operators

/-!
# Frequencies compared (C90)
-/

namespace Ikal

open Spec

set_option linter.unusedSectionVars false

section
variable [Platform]

/-! ## Lengths of months -/

/-- The day number of the first day of a month. -/
def firstOf (i : Int) : Int := NaiveDate.toDays ⟨i / 12, (i % 12).toNat + 1, 1⟩

theorem firstOf_succ (i : Int) : firstOf (i + 1) = firstOf i + lengthOfMonth i := by
  unfold firstOf lengthOfMonth
  rw [← daysInMonth_eq _ (by omega) (by omega)]
  unfold NaiveDate.toDays
  simp only
  have hs := NaiveDate.daysBeforeMonth_succ (i / 12) (m := (i % 12).toNat + 1) (by omega) (by omega)
  by_cases h : i % 12 = 11
  · have h1 : (i + 1) / 12 = i / 12 + 1 := by omega
    have h2 : ((i + 1) % 12).toNat = 0 := by omega
    have h3 : (i % 12).toNat = 11 := by omega
    rw [h1, h2]
    rw [h3] at hs ⊢
    rw [NaiveDate.daysBeforeYear_succ]
    have e13 := NaiveDate.daysBeforeMonth_13 (i / 12)
    have e1 := NaiveDate.daysBeforeMonth_1 (i / 12 + 1)
    rw [show 11 + 1 + 1 = 13 from rfl] at hs
    rw [show 0 + 1 = 1 from rfl, e1]
    omega
  · have h1 : (i + 1) / 12 = i / 12 := by omega
    have h2 : ((i + 1) % 12).toNat = (i % 12).toNat + 1 := by omega
    rw [h1, h2]
    omega

theorem lengthOfMonth_ge (i : Int) : 28 ≤ lengthOfMonth i := by
  unfold lengthOfMonth
  rw [← daysInMonth_eq _ (by omega) (by omega)]
  exact NaiveDate.daysInMonth_ge _ (by omega) (by omega)

theorem firstOf_add (i : Int) (n : Nat) : firstOf i + 28 * n ≤ firstOf (i + n) := by
  induction n with
  | zero => simp
  | succ n ih =>
    have h := firstOf_succ (i + n)
    have := lengthOfMonth_ge (i + n)
    rw [show i + ((n + 1 : Nat) : Int) = i + n + 1 by omega]
    omega

theorem toDays_first {d : NaiveDate} (h1 : 1 ≤ d.month) (h2 : d.month ≤ 12) : d.toDays = firstOf (monthIndex d) + d.day - 1 := by
  unfold firstOf monthIndex
  rw [show (d.year * 12 + ((d.month : Int) - 1)) / 12 = d.year by omega,
    show ((d.year * 12 + ((d.month : Int) - 1)) % 12).toNat + 1 = d.month by omega]
  unfold NaiveDate.toDays
  simp only
  omega

/-- A month is at least four weeks, also after clipping. -/
theorem monthsLater_days {n : Nat} {d e : NaiveDate} (hd : RealDate d) (h : MonthsLater n d e) : d.toDays + 28 * n ≤ e.toDays := by
  obtain ⟨he, hi, hday⟩ := h
  rw [toDays_first hd.1 hd.2.1, toDays_first he.1 he.2.1, hi]
  have hl := lengthOfMonth_index he.1 he.2.1
  have hl' := lengthOfMonth_index hd.1 hd.2.1
  have hdl := hd.2.2.2
  rw [← hl, hi] at hday
  rw [← hl'] at hdl
  rcases Nat.le_total d.day (lengthOfMonth (monthIndex d + n)) with h | h
  · have := firstOf_add (monthIndex d) n
    omega
  · have h1 := firstOf_add (monthIndex d + 1) n
    have h2 := firstOf_succ (monthIndex d)
    have h3 := firstOf_succ (monthIndex d + n)
    rw [show monthIndex d + 1 + (n : Int) = monthIndex d + n + 1 by omega] at h1
    omega

theorem yearsLater_months {n : Nat} {d e : NaiveDate} (h : YearsLater n d e) : MonthsLater (12 * n) d e := by
  obtain ⟨h1, h2, h3, h4⟩ := h
  refine ⟨h4, ?_, ?_⟩
  · unfold monthIndex; rw [h1, h2]; omega
  · have := h4.2.2.2; omega

/-! ## Calendar steps -/

/-- The number of months of a calendar frequency. -/
def unitMonths : Freq → Nat
  | .yearly => 12
  | _ => 1

theorem step_months {r : Recur} (hf : r.freq = .monthly ∨ r.freq = .yearly) {d : NaiveDate} (hd : RealDate d) (hr : InRange d) {e : NaiveDate}
    (h : r.add (.date d) = some (.date e)) : MonthsLater (r.interval * unitMonths r.freq) d e ∧ InRange e := by
  rcases hf with hf | hf
  · obtain ⟨x, hx, h1, h2⟩ := (C57_step hf hd hr _).1 h
    cases hx
    rw [hf]; simp only [unitMonths, Nat.mul_one]
    exact ⟨h1, h2⟩
  · obtain ⟨x, hx, h1, h2, h3, h4, h5⟩ := (C58_step hf d _).1 h
    cases hx
    rw [hf]; simp only [unitMonths]
    rw [Nat.mul_comm]
    exact ⟨yearsLater_months ⟨h1, h2, h3, h5⟩, h4⟩

/-- The month and the least number of days after `k` steps. -/
theorem nth_months_days {r : Recur} (hf : r.freq = .monthly ∨ r.freq = .yearly) {d : NaiveDate} (hd : RealDate d) (hr : InRange d) {k : Nat}
    {e : NaiveDate} (h : nthDate r k (.date d) = some (.date e)) :
    RealDate e ∧ InRange e ∧ monthIndex e = monthIndex d + (k * (r.interval * unitMonths r.freq) : Nat) ∧
      d.toDays + 28 * (k * (r.interval * unitMonths r.freq) : Nat) ≤ e.toDays := by
  have hrank : Freq.daily.rank ≤ r.freq.rank := by rcases hf with h | h <;> rw [h] <;> decide
  induction k generalizing e with
  | zero => cases h; refine ⟨hd, hr, ?_, ?_⟩ <;> simp
  | succ k ih =>
    simp only [nthDate, Option.bind_eq_some_iff] at h
    obtain ⟨E, hE, h⟩ := h
    obtain ⟨x, rfl⟩ := nth_date_kind hrank hE
    obtain ⟨i1, i2, i3, i4⟩ := ih hE
    obtain ⟨s1, s2⟩ := step_months hf i1 i2 h
    have s3 := monthsLater_days i1 s1
    refine ⟨s1.1, s2, ?_, ?_⟩
    · rw [s1.2.1, i3, Nat.succ_mul]; omega
    · rw [Nat.succ_mul]; omega

/-! ## Fixed steps -/

theorem nth_fixed_secs {r : Recur} {u : Nat} (hf : secondsOf r.freq = some u) (hi : 1 ≤ r.interval) (hi2 : r.interval ≤ 255) {t t' : NaiveDateTime}
    (ht : RealTime t) {k : Nat} (h : nthDate r k (.dateTime (.naive t)) = some (.dateTime (.naive t'))) :
    RealTime t' ∧ t'.toSecs = t.toSecs + (k * (r.interval * u) : Nat) := by
  cases k with
  | zero => cases h; refine ⟨ht, ?_⟩; simp
  | succ k =>
    obtain ⟨h1, -, h3⟩ := (C56_leap_second hf hi2 ht k).1 hi
    rw [h1, C56_floating hf hi2 h3] at h
    obtain ⟨x, hx, h4, h5, h6⟩ := h
    cases hx
    refine ⟨⟨h4.1, h4.2.1, h4.2.2.1, by have := h4.2.2.2; omega⟩, ?_⟩
    rw [h5, show (withoutLeapSecond t).toSecs = t.toSecs from rfl]
    simp only [Int.natCast_mul]

/-! ## Order -/

theorem earlierDay_of_days {a b : NaiveDate} (ha : RealDate a) (hra : InRange a) (hb : RealDate b) (hrb : InRange b) (h : a.toDays < b.toDays) :
    EarlierDay a b := by
  rw [← earlierDay_iff, NaiveDate.cmp_eq_compare ((valid_iff a).2 ⟨hra, ha⟩).ok ((valid_iff b).2 ⟨hrb, hb⟩).ok]
  exact Int.compare_eq_lt.2 h

theorem earlier_of_day {a b : NaiveDateTime} (h : EarlierDay a.date b.date) : Earlier a b := by
  rcases h with h | ⟨h, h' | ⟨h', h''⟩⟩
  · exact .inl h
  · exact .inr ⟨h, .inl h'⟩
  · exact .inr ⟨h, .inr ⟨h', .inl h''⟩⟩

theorem earlier_of_secs {a b : NaiveDateTime} (ha : RealTime a) (hb : RealTime b) (h : a.toSecs < b.toSecs) : Earlier a b := by
  unfold NaiveDateTime.toSecs at h
  have h1 := ha.2.2.1
  have h2 := hb.2.2.1
  rcases Int.lt_trichotomy a.date.toDays b.date.toDays with h3 | h3 | h3
  · exact earlier_of_day (earlierDay_of_days ha.1 ha.2.1 hb.1 hb.2.1 h3)
  · have he := NaiveDate.toDays_inj ((valid_iff _).2 ⟨ha.2.1, ha.1⟩).ok ((valid_iff _).2 ⟨hb.2.1, hb.1⟩).ok h3
    rw [h3] at h
    exact .inr ⟨by rw [he], .inr ⟨by rw [he], .inr ⟨by rw [he], .inl (by omega)⟩⟩⟩
  · omega

theorem earlierDay_of_month {a b : NaiveDate} (ha : RealDate a) (hb : RealDate b) (h : monthIndex a < monthIndex b) : EarlierDay a b := by
  obtain ⟨a1, a2, -⟩ := ha
  obtain ⟨b1, b2, -⟩ := hb
  unfold monthIndex at h
  unfold EarlierDay
  omega

end

/-- A rule with longer steps: the same or a longer frequency and the same or a longer interval, not both the same. -/
def Spec.LongerSteps (r r' : Recur) : Prop :=
  r.freq.cmp r'.freq = .lt ∧ r.interval ≤ r'.interval ∨ r.freq = r'.freq ∧ r.interval < r'.interval

section
variable [Platform]

theorem freq_kind (f : Freq) : (f = .monthly ∨ f = .yearly) ∨ ∃ u, secondsOf f = some u ∧ 1 ≤ u ∧ u ≤ 604800 := by
  cases f
  case monthly => exact .inl (.inl rfl)
  case yearly => exact .inl (.inr rfl)
  all_goals exact .inr ⟨_, rfl, by decide, by decide⟩

theorem longer_months {r r' : Recur} (h : LongerSteps r r') (hf : r.freq = .monthly ∨ r.freq = .yearly) (hi : 1 ≤ r.interval) :
    (r'.freq = .monthly ∨ r'.freq = .yearly) ∧ r.interval * unitMonths r.freq < r'.interval * unitMonths r'.freq := by
  rcases h with ⟨h1, h2⟩ | ⟨h1, h2⟩
  · rcases hf with hf | hf <;> rw [hf] at h1 ⊢
    · cases hf' : r'.freq <;> rw [hf'] at h1 <;> first | cases h1 | skip
      exact ⟨.inr rfl, by simp only [unitMonths]; omega⟩
    · cases hf' : r'.freq <;> rw [hf'] at h1 <;> cases h1
  · rw [← h1]
    refine ⟨hf, Nat.mul_lt_mul_of_pos_right h2 ?_⟩
    cases r.freq <;> simp [unitMonths]

theorem longer_fixed {r r' : Recur} (h : LongerSteps r r') {u u' : Nat} (hf : secondsOf r.freq = some u) (hf' : secondsOf r'.freq = some u')
    (hi : 1 ≤ r.interval) : r.interval * u < r'.interval * u' := by
  rcases h with ⟨h1, h2⟩ | ⟨h1, h2⟩
  · have hu : u < u' := by
      have key : ∀ f g : Freq, ∀ u u', secondsOf f = some u → secondsOf g = some u' → f.cmp g = .lt → u < u' := by
        intro f g u u' a b c
        cases f <;> cases g <;> first
          | exact absurd c (by decide)
          | (cases a <;> cases b <;> decide)
      exact key _ _ _ _ hf hf' h1
    exact Nat.lt_of_le_of_lt (Nat.mul_le_mul_right u h2) (Nat.mul_lt_mul_of_pos_left hu (by omega))
  · rw [h1, hf'] at hf
    cases hf
    refine Nat.mul_lt_mul_of_pos_right h2 ?_
    rcases freq_kind r'.freq with h | ⟨x, h3, h4, -⟩
    · rcases h with h | h <;> rw [h] at hf' <;> cases hf'
    · rw [h3] at hf'; cases hf'; exact h4

theorem longer_interval {r r' : Recur} (h : LongerSteps r r') : r.interval ≤ r'.interval := by
  rcases h with ⟨-, h⟩ | ⟨-, h⟩ <;> omega

theorem fixed_below_month {n n' u q k : Nat} (h1 : 1 ≤ n) (h2 : n ≤ n') (hu : u ≤ 604800) (hq : 1 ≤ q) (hk : 1 ≤ k) :
    k * (n * u) < 28 * 86400 * (k * (n' * q)) := by
  have a1 : n * u ≤ n' * 604800 := Nat.mul_le_mul h2 hu
  have a2 : n' * 1 ≤ n' * q := Nat.mul_le_mul_left n' hq
  have a3 : k * (n * u) ≤ k * (n' * 604800) := Nat.mul_le_mul_left k a1
  have a4 : k * n' ≤ k * (n' * q) := Nat.mul_le_mul_left k (by omega)
  have a5 : 1 * 1 ≤ k * n' := Nat.mul_le_mul hk (by omega)
  have a6 : k * (n' * 604800) = 604800 * (k * n') := by rw [← Nat.mul_assoc, Nat.mul_comm]
  omega

/-- **C90**: of two rules with the same floating start, every later step of the one with the longer steps is later. -/
theorem C90_floating {r r' : Recur} (h : LongerSteps r r') (hi : 1 ≤ r.interval) (hi' : r'.interval ≤ 255) {t : NaiveDateTime} (ht : RealTime t)
    {k : Nat} (hk : 1 ≤ k) {a b : NaiveDateTime} (ha : nthDate r k (.dateTime (.naive t)) = some (.dateTime (.naive a)))
    (hb : nthDate r' k (.dateTime (.naive t)) = some (.dateTime (.naive b))) : Earlier a b := by
  have hle := longer_interval h
  rcases freq_kind r.freq with hc | ⟨u, hu, hu1, hu2⟩
  · obtain ⟨hc', hlt⟩ := longer_months h hc hi
    obtain ⟨x, hx, hx'⟩ := (nth_calendar hc t k _).1 ha
    obtain ⟨y, hy, hy'⟩ := (nth_calendar hc' t k _).1 hb
    cases hx'; cases hy'
    obtain ⟨a1, a2, a3, a4⟩ := nth_months_days hc ht.1 ht.2.1 hx
    obtain ⟨b1, b2, b3, b4⟩ := nth_months_days hc' ht.1 ht.2.1 hy
    refine earlier_of_day (earlierDay_of_month a1 b1 ?_)
    have := Nat.mul_lt_mul_of_pos_left hlt (show 0 < k by omega)
    rw [a3, b3]; omega
  · obtain ⟨ra, sa⟩ := nth_fixed_secs hu hi (by omega) ht ha
    rcases freq_kind r'.freq with hc' | ⟨u', hu', -⟩
    · obtain ⟨y, hy, hy'⟩ := (nth_calendar hc' t k _).1 hb
      cases hy'
      obtain ⟨b1, b2, b3, b4⟩ := nth_months_days hc' ht.1 ht.2.1 hy
      refine earlier_of_secs ra ⟨b1, b2, ht.2.2⟩ ?_
      have hq : 1 ≤ unitMonths r'.freq := by cases r'.freq <;> simp [unitMonths]
      have := fixed_below_month hi hle hu2 hq hk
      rw [sa]
      unfold NaiveDateTime.toSecs
      simp only
      omega
    · obtain ⟨rb, sb⟩ := nth_fixed_secs hu' (by omega) hi' ht hb
      refine earlier_of_secs ra rb ?_
      have := Nat.mul_lt_mul_of_pos_left (longer_fixed h hu hu' hi) (show 0 < k by omega)
      rw [sa, sb]; omega

/-- **C90**: the same on dates, for rules not finer than daily. -/
theorem C90_dates {r r' : Recur} (h : LongerSteps r r') (hi : 1 ≤ r.interval) (hf : r.freq.cmp .daily ≠ .lt) {d : NaiveDate} (hd : RealDate d)
    (hr : InRange d) {k : Nat} (hk : 1 ≤ k) {a b : NaiveDate} (ha : nthDate r k (.date d) = some (.date a))
    (hb : nthDate r' k (.date d) = some (.date b)) : EarlierDay a b := by
  have hle := longer_interval h
  have days : ∀ (r : Recur) (f : Nat), (r.freq = .daily ∧ f = 1 ∨ r.freq = .weekly ∧ f = 7) → ∀ a, nthDate r k (.date d) = some (.date a) →
      RealDate a ∧ InRange a ∧ a.toDays = d.toDays + (k * (r.interval * f) : Nat) := by
    intro r f hf a h
    have hok := ((valid_iff d).2 ⟨hr, hd⟩).ok
    rcases hf with ⟨hf, rfl⟩ | ⟨hf, rfl⟩
    · obtain ⟨h1, h2⟩ := (C56_daily hf hd hr k _).1 h
      cases h1
      obtain ⟨h3, h4⟩ := NaiveDate.daysLater_spec (k * r.interval) d hok
      have h5 : (daysLater (k * r.interval) d).Valid := ⟨h2.1, h2.2, h3⟩
      exact ⟨((valid_iff _).1 h5).2, h2, by rw [h4, Nat.mul_one]⟩
    · obtain ⟨h1, h2⟩ := (C56_weekly hf hd hr k _).1 h
      cases h1
      obtain ⟨h3, h4⟩ := NaiveDate.daysLater_spec (k * r.interval * 7) d hok
      have h5 : (daysLater (k * r.interval * 7) d).Valid := ⟨h2.1, h2.2, h3⟩
      exact ⟨((valid_iff _).1 h5).2, h2, by rw [h4, Nat.mul_assoc]⟩
  have kind : ∀ f : Freq, f.cmp .daily ≠ .lt → (f = .monthly ∨ f = .yearly) ∨ ∃ n, (f = .daily ∧ n = 1 ∨ f = .weekly ∧ n = 7) ∧ n * 86400 ≤ 604800 := by
    intro f hf
    cases f <;> first | exact absurd rfl hf | skip
    · exact .inr ⟨1, .inl ⟨rfl, rfl⟩, by decide⟩
    · exact .inr ⟨7, .inr ⟨rfl, rfl⟩, by decide⟩
    · exact .inl (.inl rfl)
    · exact .inl (.inr rfl)
  have hf' : r'.freq.cmp .daily ≠ .lt := by
    rcases h with ⟨h, -⟩ | ⟨h, -⟩
    · revert h hf; cases r.freq <;> cases r'.freq <;> decide
    · rw [← h]; exact hf
  rcases kind _ hf with hc | ⟨n, hn, hn2⟩
  · obtain ⟨hc', hlt⟩ := longer_months h hc hi
    obtain ⟨a1, a2, a3, a4⟩ := nth_months_days hc hd hr ha
    obtain ⟨b1, b2, b3, b4⟩ := nth_months_days hc' hd hr hb
    refine earlierDay_of_month a1 b1 ?_
    have := Nat.mul_lt_mul_of_pos_left hlt (show 0 < k by omega)
    rw [a3, b3]; omega
  · obtain ⟨a1, a2, a3⟩ := days r n hn a ha
    rcases kind _ hf' with hc' | ⟨n', hn', -⟩
    · obtain ⟨b1, b2, b3, b4⟩ := nth_months_days hc' hd hr hb
      refine earlierDay_of_days a1 a2 b1 b2 ?_
      have hq : 1 ≤ unitMonths r'.freq := by cases r'.freq <;> simp [unitMonths]
      have := fixed_below_month hi hle hn2 hq hk
      have he : k * (r.interval * (n * 86400)) = 86400 * (k * (r.interval * n)) := by
        rw [Nat.mul_comm n, ← Nat.mul_assoc, ← Nat.mul_assoc, ← Nat.mul_assoc, ← Nat.mul_assoc, Nat.mul_comm (k * r.interval)]; simp only [Nat.mul_assoc]
      omega
    · obtain ⟨b1, b2, b3⟩ := days r' n' hn' b hb
      refine earlierDay_of_days a1 a2 b1 b2 ?_
      have key : r.interval * n < r'.interval * n' := by
        rcases h with ⟨h1, h2⟩ | ⟨h1, h2⟩
        · rcases hn with ⟨e1, rfl⟩ | ⟨e1, rfl⟩ <;> rcases hn' with ⟨e2, rfl⟩ | ⟨e2, rfl⟩ <;> rw [e1, e2] at h1 <;> first | exact absurd h1 (by decide) | omega
        · rcases hn with ⟨e1, rfl⟩ | ⟨e1, rfl⟩ <;> rcases hn' with ⟨e2, rfl⟩ | ⟨e2, rfl⟩ <;> rw [e1, e2] at h1 <;> first | cases h1; done | omega
      have := Nat.mul_lt_mul_of_pos_left key (show 0 < k by omega)
      rw [a3, b3]; omega

/-! ## The steps of a longer frequency are among those of a shorter one -/

/-- **C90**: among the frequencies of a fixed length: with the same interval, the `k`th step of the longer one is the `q*k`th step of the shorter
one, if it is `q` times as long; on floating and on local times, and one panics if the other does. -/
theorem C90_every {r r' : Recur} {u u' q : Nat} (hf : secondsOf r.freq = some u) (hf' : secondsOf r'.freq = some u') (hq : u' = q * u)
    (hi : r'.interval = r.interval) (hi2 : r.interval ≤ 255) {t : NaiveDateTime} (ht : RealTime t) (k : Nat) :
    nthDate r' k (.dateTime (.naive t)) = nthDate r (q * k) (.dateTime (.naive t)) ∧
    nthDate r' k (.dateTime (.loc t)) = nthDate r (q * k) (.dateTime (.loc t)) := by
  have hqpos : 1 ≤ q := by
    rcases Nat.eq_zero_or_pos q with h | h
    · rw [h, Nat.zero_mul] at hq
      rcases freq_kind r'.freq with h | ⟨x, h3, h4, -⟩
      · rcases h with h | h <;> rw [h] at hf' <;> cases hf'
      · rw [h3] at hf'; cases hf'; omega
    · exact h
  rcases Nat.eq_zero_or_pos r.interval with h0 | h0
  · obtain ⟨a1, a2⟩ := (C56_leap_second hf' (by omega) ht k).2 (by omega)
    obtain ⟨b1, b2⟩ := (C56_leap_second hf hi2 ht (q * k)).2 h0
    rw [a1, a2, b1, b2]
    exact ⟨rfl, rfl⟩
  · cases k with
    | zero => exact ⟨rfl, rfl⟩
    | succ k =>
      obtain ⟨a1, a2, a3⟩ := (C56_leap_second hf' (by omega) ht k).1 (by omega)
      have hsucc : q * (k + 1) = (q * (k + 1) - 1) + 1 := by
        have := Nat.mul_le_mul hqpos (show 1 ≤ k + 1 by omega)
        omega
      obtain ⟨b1, b2, -⟩ := (C56_leap_second hf hi2 ht (q * (k + 1) - 1)).1 (by omega)
      rw [← hsucc] at b1 b2
      rw [a1, a2, b1, b2]
      have he : (((k + 1 : Nat) : Int) * ((r'.interval : Int) * (u' : Int))) = ((q * (k + 1) : Nat) : Int) * ((r.interval : Int) * (u : Int)) := by
        rw [hi, hq]
        simp only [Int.natCast_mul]
        rw [Int.mul_comm (q : Int) ((k + 1 : Nat) : Int), Int.mul_assoc, Int.mul_left_comm (q : Int) (r.interval : Int)]
      constructor
      · apply Option.ext; intro D
        rw [C56_floating hf' (by omega) a3, C56_floating hf hi2 a3, he]
      · apply Option.ext; intro D
        rw [C56_local hf' (by omega) a3, C56_local hf hi2 a3, he]

/-- **C90**: on dates, every step of a weekly rule is every seventh of the daily rule with the same interval. -/
theorem C90_every_week {r r' : Recur} (hf : r.freq = .daily) (hf' : r'.freq = .weekly) (hi : r'.interval = r.interval) {d : NaiveDate}
    (hd : RealDate d) (hr : InRange d) (k : Nat) : nthDate r' k (.date d) = nthDate r (7 * k) (.date d) := by
  apply Option.ext; intro D
  rw [C56_weekly hf' hd hr, C56_daily hf hd hr, hi, show k * r.interval * 7 = 7 * k * r.interval by rw [Nat.mul_comm _ 7, Nat.mul_assoc]]

/-- **C90**: on dates up to the 28th, the steps of a yearly rule are every twelfth of the monthly rule with the same interval. -/
theorem C90_every_year {r r' : Recur} (hf : r.freq = .monthly) (hf' : r'.freq = .yearly) (hi : r'.interval = r.interval) {d : NaiveDate}
    (hd : RealDate d) (hr : InRange d) (hday : d.day ≤ 28) (k : Nat) : nthDate r' k (.date d) = nthDate r (12 * k) (.date d) := by
  have hlen := lengthOfMonth_ge
  apply Option.ext; intro D
  rw [C58_progression hf', C57_clamped hf hd hr, hi]
  have hmul : ((12 * k * r.interval : Nat) : Int) = 12 * (k * r.interval : Nat) := by rw [Nat.mul_assoc, Int.natCast_mul]; rfl
  have hreal : ∀ j : Nat, RealDate ⟨d.year + (j * r.interval : Nat), d.month, d.day⟩ := by
    intro j
    refine ⟨hd.1, hd.2.1, hd.2.2.1, ?_⟩
    have := NaiveDate.daysInMonth_ge (d.year + (j * r.interval : Nat)) hd.1 hd.2.1
    rw [daysInMonth_eq _ hd.1 hd.2.1] at this
    simp only; omega
  constructor
  · rintro ⟨rfl, hall⟩
    refine ⟨_, rfl, hreal k, ?_, ?_, Nat.le_refl _, fun j _ _ => ?_, .inl rfl⟩
    · rcases Nat.eq_zero_or_pos k with rfl | hk
      · unfold InRange at *; simpa using hr
      · exact (hall k hk (Nat.le_refl _)).1
    · rw [hmul]; unfold monthIndex; simp only; omega
    · have := hlen (monthIndex d + (j * r.interval : Nat)); simp only; omega
  · rintro ⟨e, rfl, he, hin, hidx, hle, hall, hex⟩
    have hday' : e.day = d.day := by
      rcases hex with h | ⟨j, -, -, h⟩
      · exact h
      · have := hlen (monthIndex d + (j * r.interval : Nat)); omega
    have hy : e.year = d.year + (k * r.interval : Nat) ∧ e.month = d.month := by
      rw [hmul] at hidx
      unfold monthIndex at hidx
      have h1 := hd.1; have h2 := hd.2.1; have h3 := he.1; have h4 := he.2.1
      omega
    refine ⟨?_, fun j h1 h2 => ⟨?_, hreal j⟩⟩
    · cases e; simp only at hday' hy; rw [hday', hy.1, hy.2]
    · have h3 := Nat.mul_le_mul_right r.interval h2
      have h4 := hin.2
      have h5 := hr.1
      unfold InRange
      simp only
      rw [hy.1] at h4
      omega

/-- **C90**: the order of the days of the week: from Sunday to Saturday. -/
theorem C90_weekdays (a b : Weekday) :
    (a.cmp b = .lt ↔ ∃ i j : Nat, i < j ∧ [Weekday.sunday, .monday, .tuesday, .wednesday, .thursday, .friday, .saturday][i]? = some a ∧
      [Weekday.sunday, .monday, .tuesday, .wednesday, .thursday, .friday, .saturday][j]? = some b) ∧
    (a.cmp b = .eq ↔ a = b) ∧ b.cmp a = (a.cmp b).swap := by
  have key : ∀ (w : Weekday) (i : Nat), [Weekday.sunday, .monday, .tuesday, .wednesday, .thursday, .friday, .saturday][i]? = some w ↔ i = w.rank := by
    intro w i
    constructor
    · intro h
      match i, h with
      | 0, h | 1, h | 2, h | 3, h | 4, h | 5, h | 6, h => cases h; rfl
      | n + 7, h => simp at h
    · rintro rfl; cases w <;> rfl
  refine ⟨?_, ?_, ?_⟩
  · simp only [key]
    unfold Weekday.cmp
    rw [Nat.compare_eq_lt]
    exact ⟨fun h => ⟨_, _, h, rfl, rfl⟩, by rintro ⟨_, _, h, rfl, rfl⟩; exact h⟩
  · cases a <;> cases b <;> decide
  · cases a <;> cases b <;> decide

/-- **C90**: the order of the frequencies: from `SECONDLY` to `YEARLY`. -/
theorem C90_frequencies (a b : Freq) :
    (a.cmp b = .lt ↔ ∃ i j : Nat, i < j ∧ [Freq.secondly, .minutely, .hourly, .daily, .weekly, .monthly, .yearly][i]? = some a ∧
      [Freq.secondly, .minutely, .hourly, .daily, .weekly, .monthly, .yearly][j]? = some b) ∧
    (a.cmp b = .eq ↔ a = b) ∧ b.cmp a = (a.cmp b).swap := by
  have key : ∀ (w : Freq) (i : Nat), [Freq.secondly, .minutely, .hourly, .daily, .weekly, .monthly, .yearly][i]? = some w ↔ i = w.rank := by
    intro w i
    constructor
    · intro h
      match i, h with
      | 0, h | 1, h | 2, h | 3, h | 4, h | 5, h | 6, h => cases h; rfl
      | n + 7, h => simp at h
    · rintro rfl; cases w <;> rfl
  refine ⟨?_, ?_, ?_⟩
  · simp only [key]
    unfold Freq.cmp
    rw [Nat.compare_eq_lt]
    exact ⟨fun h => ⟨_, _, h, rfl, rfl⟩, by rintro ⟨_, _, h, rfl, rfl⟩; exact h⟩
  · cases a <;> cases b <;> decide
  · cases a <;> cases b <;> decide

end

section Examples
attribute [local instance] utc

/-- **C90**, the limit: the twelfth month after 31 January 2023 is 28 January 2024, the first year is 31 January. -/
theorem C90_end_of_month :
    nthDate (everyMonths 1) 12 (.date ⟨2023, 1, 31⟩) = some (.date ⟨2024, 1, 28⟩) ∧
    nthDate (everyYears 1) 1 (.date ⟨2023, 1, 31⟩) = some (.date ⟨2024, 1, 31⟩) := by decide +kernel

example : LongerSteps (everyDays 1) (everyMonths 1) ∧ LongerSteps (everyDays 1) (everyDays 2) := by
  unfold LongerSteps; decide +kernel

/-- The third day and the third month after 31 January, from a leap second. -/
example : nthDate (everyDays 1) 3 (.dateTime (.naive ⟨⟨2023, 1, 31⟩, 86399, 1000000000⟩)) = some (.dateTime (.naive ⟨⟨2023, 2, 3⟩, 86399, 0⟩)) ∧
    nthDate (everyMonths 1) 3 (.dateTime (.naive ⟨⟨2023, 1, 31⟩, 86399, 1000000000⟩)) =
      some (.dateTime (.naive ⟨⟨2023, 4, 28⟩, 86399, 1000000000⟩)) ∧
    RealTime ⟨⟨2023, 1, 31⟩, 86399, 1000000000⟩ := by
  refine ⟨by decide +kernel, by decide +kernel, ?_⟩
  unfold RealTime RealDate InRange
  decide +kernel

/-- The second week and the fourteenth day. -/
example : nthDate { everyDays 1 with freq := .weekly } 2 (.date ⟨2024, 2, 20⟩) = nthDate (everyDays 1) 14 (.date ⟨2024, 2, 20⟩) ∧
    nthDate (everyDays 1) 14 (.date ⟨2024, 2, 20⟩) = some (.date ⟨2024, 3, 5⟩) := by decide +kernel

end Examples

end Ikal
