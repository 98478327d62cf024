import Verif.Spec.Rfc
import Verif.Props.Frequencies
import Verif.Props.Windows

/-! # The recurrence set of RFC 5545 (C93) -/

namespace Ikal
open Spec

set_option linter.unusedSectionVars false

section
variable [Platform]

/-! ## The members of the set in order -/

theorem earlierDay_of_toDays {a b : NaiveDate} (ha : RealDate a) (hb : RealDate b) (h : a.toDays < b.toDays) : EarlierDay a b := by
  rw [← earlierDay_iff, NaiveDate.cmp_eq_compare ((NaiveDate.ok_iff a).2 ha) ((NaiveDate.ok_iff b).2 hb)]
  exact Int.compare_eq_lt.2 h

theorem daysLater_lt {d : NaiveDate} (hd : RealDate d) {m n : Nat} (h : m < n) : EarlierDay (daysLater m d) (daysLater n d) := by
  obtain ⟨h1, h2⟩ := (daysLater_iff hd m).1 rfl
  obtain ⟨h3, h4⟩ := (daysLater_iff hd n).1 rfl
  exact earlierDay_of_toDays h1 h3 (by omega)

/-- The day of the month with the given number. -/
def ofMonth (i : Int) (day : Nat) : NaiveDate := ⟨i / 12, (i % 12).toNat + 1, day⟩

theorem monthIndex_ofMonth (i : Int) (day : Nat) : monthIndex (ofMonth i day) = i := by
  simp only [monthIndex, ofMonth]
  omega

theorem real_ofMonth (i : Int) (day : Nat) (h1 : 1 ≤ day) (h2 : day ≤ lengthOfMonth i) : RealDate (ofMonth i day) := by
  refine ⟨?_, ?_, h1, h2⟩ <;> simp only [ofMonth] <;> omega

theorem eq_ofMonth {e : NaiveDate} (h : RealDate e) {i : Int} (hi : monthIndex e = i) : e = ofMonth i e.day := by
  obtain ⟨y, m, d⟩ := e
  obtain ⟨h1, h2, -⟩ := h
  simp only [monthIndex, ofMonth, NaiveDate.mk.injEq, and_true] at *
  constructor <;> omega

/-- The dates of the set, in order, and the steps of the rule. -/
structure SetSeq (r : Recur) (D : Date) (seq : Nat → Date) : Prop where
  nth : ∀ k X, nthDate r k D = some X ↔ X = seq k ∧ InRange (utcDay (seq k))
  mem : ∀ X, InSet r D X ↔ ∃ k, X = seq k
  lt : ∀ i j, i < j → SetBefore (seq i) (seq j)

/-- The days of the set, in order. -/
structure DaySeq (r : Recur) (d : NaiveDate) (seq : Nat → NaiveDate) : Prop where
  nth : InRange d → ∀ k X, nthDate r k (.date d) = some X ↔ X = .date (seq k) ∧ InRange (seq k)
  mem : ∀ e, RfcDay r.freq r.interval d e ↔ ∃ k, e = seq k
  lt : ∀ i j, i < j → EarlierDay (seq i) (seq j)

theorem day_seq {r : Recur} {d : NaiveDate} (hd : RealDate d) (hi : 1 ≤ r.interval) (hf : r.freq ∈ [Freq.daily, .weekly, .monthly, .yearly]) (hm : MonthsFit r d) :
    ∃ seq, DaySeq r d seq := by
  simp only [List.mem_cons, List.not_mem_nil, or_false] at hf
  rcases hf with hf | hf | hf | hf
  · refine ⟨fun k => daysLater (k * r.interval) d, fun hr k X => C56_daily hf hd hr k X, fun e => ?_, fun i j hij => daysLater_lt hd (Nat.mul_lt_mul_of_pos_right hij hi)⟩
    simp only [RfcDay, hf]
  · refine ⟨fun k => daysLater (k * r.interval * 7) d, fun hr k X => C56_weekly hf hd hr k X, fun e => ?_,
      fun i j hij => daysLater_lt hd (Nat.mul_lt_mul_of_pos_right (Nat.mul_lt_mul_of_pos_right hij hi) (by decide))⟩
    simp only [RfcDay, hf]
  · have hfit := hm.1 hf
    refine ⟨fun k => ofMonth (monthIndex d + (k * r.interval : Nat)) d.day, fun hr k X => ?_, fun e => ?_, fun i j hij => ?_⟩
    · rw [C57_clamped hf hd hr]
      constructor
      · rintro ⟨e, rfl, h1, h2, h3, h4, h5, h6⟩
        have hday : e.day = d.day := by
          rcases h6 with h6 | ⟨j, -, -, h6⟩
          · exact h6
          · have := hfit j; omega
        have := eq_ofMonth h1 h3
        rw [hday] at this
        exact ⟨by rw [← this], this ▸ h2⟩
      · rintro ⟨rfl, h⟩
        exact ⟨_, rfl, real_ofMonth _ _ hd.2.2.1 (hfit k), h, monthIndex_ofMonth .., Nat.le_refl _, fun j _ _ => hfit j, .inl rfl⟩
    · simp only [RfcDay, hf]
      constructor
      · rintro ⟨h1, h2, k, h3⟩
        exact ⟨k, by rw [← h2]; exact eq_ofMonth h1 h3⟩
      · rintro ⟨k, rfl⟩
        exact ⟨real_ofMonth _ _ hd.2.2.1 (hfit k), rfl, k, monthIndex_ofMonth ..⟩
    · refine earlierDay_of_month (real_ofMonth _ _ hd.2.2.1 (hfit i)) (real_ofMonth _ _ hd.2.2.1 (hfit j)) ?_
      rw [monthIndex_ofMonth, monthIndex_ofMonth]
      have := Nat.mul_lt_mul_of_pos_right hij hi
      omega
  · have hfit := hm.2 hf
    have hreal : ∀ k : Nat, RealDate ⟨d.year + (k * r.interval : Nat), d.month, d.day⟩ := fun k => ⟨hd.1, hd.2.1, hd.2.2.1, hfit k⟩
    refine ⟨fun k => ⟨d.year + (k * r.interval : Nat), d.month, d.day⟩, fun hr k X => ?_, fun e => ?_, fun i j hij => ?_⟩
    · rw [C58_progression hf]
      refine and_congr Iff.rfl ?_
      constructor
      · intro h
        rcases Nat.eq_zero_or_pos k with rfl | hk
        · simpa using hr
        · exact (h k hk (Nat.le_refl k)).1
      · intro h j _ hj
        refine ⟨?_, hreal j⟩
        have := Nat.mul_le_mul_right r.interval hj
        unfold InRange at *
        simp only at *
        omega
    · simp only [RfcDay, hf]
      constructor
      · rintro ⟨h1, h2, h3, k, h4⟩
        exact ⟨k, by cases e; simp_all⟩
      · rintro ⟨k, rfl⟩
        exact ⟨hreal k, rfl, rfl, k, rfl⟩
    · have := Nat.mul_lt_mul_of_pos_right hij hi
      exact .inl (by simp only; omega)

/-! ## Floating times -/

/-- The time `n` seconds later. -/
def secondsAfter (t : NaiveDateTime) (n : Nat) : NaiveDateTime := ⟨daysLater ((t.secs + n) / 86400) t.date, (t.secs + n) % 86400, t.frac⟩

theorem secondsAfter_toSecs {t : NaiveDateTime} (ht : RealDate t.date) (n : Nat) : (secondsAfter t n).toSecs = t.toSecs + n := by
  obtain ⟨-, h⟩ := (daysLater_iff ht ((t.secs + n) / 86400)).1 rfl
  simp only [secondsAfter, NaiveDateTime.toSecs, h]
  omega

theorem eq_secondsAfter {t u : NaiveDateTime} (ht : RealDate t.date) (hu : RealDate u.date) (hs : u.secs < 86400) (hfr : u.frac = t.frac) {n : Nat}
    (h : u.toSecs = t.toSecs + n) : u = secondsAfter t n := by
  have hsec : u.secs = (t.secs + n) % 86400 := by
    simp only [NaiveDateTime.toSecs] at h
    omega
  have hday : u.date = daysLater ((t.secs + n) / 86400) t.date := by
    refine (daysLater_iff ht _).2 ⟨hu, ?_⟩
    simp only [NaiveDateTime.toSecs] at h
    omega
  cases u
  simp only at hsec hday hfr
  simp only [secondsAfter, hsec, hday, hfr]

theorem secondsAfter_lt {t : NaiveDateTime} (ht : RealDate t.date) {m n : Nat} (h : m < n) : Earlier (secondsAfter t m) (secondsAfter t n) := by
  rcases Nat.lt_or_ge ((t.secs + m) / 86400) ((t.secs + n) / 86400) with h1 | h1
  · exact earlier_of_day (daysLater_lt ht h1)
  · have h2 : (t.secs + m) / 86400 = (t.secs + n) / 86400 := by omega
    refine .inr ⟨by simp only [secondsAfter, h2], .inr ⟨by simp only [secondsAfter, h2], .inr ⟨by simp only [secondsAfter, h2], .inl ?_⟩⟩⟩
    simp only [secondsAfter]
    omega

theorem seconds_nth {r : Recur} {u : Nat} (hf : secondsOf r.freq = some u) (hi : r.interval ≤ 255) {t : NaiveDateTime} (ht : NoLeapSecond t) (k : Nat) (X : Date) :
    nthDate r k (.dateTime (.naive t)) = some X ↔
      X = .dateTime (.naive (secondsAfter t (k * (r.interval * u)))) ∧ InRange (secondsAfter t (k * (r.interval * u))).date := by
  rw [C56_floating hf hi ht]
  constructor
  · rintro ⟨t', rfl, h1, h2, h3⟩
    have := eq_secondsAfter ht.1 h1.1 h1.2.2.1 h3 (n := k * (r.interval * u)) (by rw [h2]; simp only [Int.natCast_mul])
    rw [← this]
    exact ⟨rfl, h1.2.1⟩
  · rintro ⟨rfl, h⟩
    refine ⟨_, rfl, ⟨daysLater_real ht.1 _, h, Nat.mod_lt _ (by decide), ht.2.2.2⟩, ?_, rfl⟩
    rw [secondsAfter_toSecs ht.1]
    simp only [Int.natCast_mul]

theorem seconds_nth_local {r : Recur} {u : Nat} (hf : secondsOf r.freq = some u) (hi : r.interval ≤ 255) {t : NaiveDateTime} (ht : NoLeapSecond t) (k : Nat) (X : Date) :
    nthDate r k (.dateTime (.loc t)) = some X ↔
      X = .dateTime (.loc (secondsAfter t (k * (r.interval * u)))) ∧ InRange (secondsAfter t (k * (r.interval * u))).date := by
  rw [C56_local hf hi ht]
  constructor
  · rintro ⟨t', rfl, h1, h2, h3⟩
    have := eq_secondsAfter ht.1 h1.1 h1.2.2.1 h3 (n := k * (r.interval * u)) (by rw [h2]; simp only [Int.natCast_mul])
    rw [← this]
    exact ⟨rfl, h1.2.1⟩
  · rintro ⟨rfl, h⟩
    refine ⟨_, rfl, ⟨daysLater_real ht.1 _, h, Nat.mod_lt _ (by decide), ht.2.2.2⟩, ?_, rfl⟩
    rw [secondsAfter_toSecs ht.1]
    simp only [Int.natCast_mul]

theorem later_iff {t u : NaiveDateTime} (n : Nat) : ManySecondsLater n t u ↔ ∃ k, u = secondsAfter t (k * n) := by
  unfold ManySecondsLater
  constructor
  · rintro ⟨h1, h2, k, days, h3, h4⟩
    refine ⟨k, ?_⟩
    have h5 : (t.secs + k * n) / 86400 = days := by omega
    have h6 : (t.secs + k * n) % 86400 = u.secs := by omega
    cases u
    simp only at h1 h2 h3 h4 h6
    simp only [secondsAfter, h5, h6, h2, h4]
  · rintro ⟨k, rfl⟩
    refine ⟨Nat.mod_lt _ (by decide), rfl, k, (t.secs + k * n) / 86400, ?_, rfl⟩
    simp only [secondsAfter]
    omega

theorem secondsAfter_days {t : NaiveDateTime} (hs : t.secs < 86400) (n : Nat) : secondsAfter t (n * 86400) = { t with date := daysLater n t.date } := by
  have h1 : (t.secs + n * 86400) / 86400 = n := by omega
  have h2 : (t.secs + n * 86400) % 86400 = t.secs := by omega
  simp only [secondsAfter, h1, h2]

/-- The times of the set of a rule of a fixed number of seconds. -/
theorem time_set {r : Recur} {u : Nat} (hu : secondsOf r.freq = some u) {t : NaiveDateTime} (ht : t.secs < 86400) (v : NaiveDateTime) :
    RfcTime r.freq r.interval t v ↔ ∃ k, v = secondsAfter t (k * (r.interval * u)) := by
  have days : ∀ n, (∀ v : NaiveDateTime, RfcDay r.freq r.interval t.date v.date ↔ ∃ k, v.date = daysLater (k * r.interval * n) t.date) →
      (∀ v, RfcTime r.freq r.interval t v ↔ RfcDay r.freq r.interval t.date v.date ∧ v.secs = t.secs ∧ v.frac = t.frac) →
      ∀ v, RfcTime r.freq r.interval t v ↔ ∃ k, v = secondsAfter t (k * (r.interval * (n * 86400))) := by
    intro n h1 h2 v
    rw [h2, h1]
    have e : ∀ k, secondsAfter t (k * (r.interval * (n * 86400))) = { t with date := daysLater (k * r.interval * n) t.date } := by
      intro k
      rw [← secondsAfter_days ht]
      congr 1
      simp only [Nat.mul_assoc]
    simp only [e]
    constructor
    · rintro ⟨⟨k, h3⟩, h4, h5⟩
      exact ⟨k, by cases v; simp_all⟩
    · rintro ⟨k, rfl⟩
      exact ⟨⟨k, rfl⟩, rfl, rfl⟩
  cases hf : r.freq <;> rw [hf] at hu
  case secondly => cases hu; simp only [RfcTime, later_iff, Nat.mul_one]
  case minutely => cases hu; simp only [RfcTime, later_iff]
  case hourly => cases hu; simp only [RfcTime, later_iff]
  case daily => cases hu; rw [← hf]; exact days 1 (fun v => by simp only [hf, RfcDay, Nat.mul_one]) (fun v => by simp only [hf, RfcTime]) v
  case weekly => cases hu; rw [← hf]; exact days 7 (fun v => by simp only [hf, RfcDay]) (fun v => by simp only [hf, RfcTime]) v
  case monthly => cases hu
  case yearly => cases hu

/-- **The members of the set are the steps of the rule**, as long as they are in the range of years. -/
theorem set_seq {r : Recur} {D : Date} (hi : 1 ≤ r.interval) (hi2 : r.interval ≤ 255) (hD : PlainStart r D) (hm : MonthsFit r (utcDay D)) :
    ∃ seq, SetSeq r D seq := by
  match D, hD with
  | .date d, hD =>
    obtain ⟨h1, h2, h3⟩ := hD
    obtain ⟨seq, hs⟩ := day_seq h1 hi h3 hm
    refine ⟨fun k => .date (seq k), fun k X => ?_, fun X => ?_, fun i j hij => hs.lt i j hij⟩
    · rw [hs.nth h2]
      simp [utcDay]
    · match X with
      | .date e =>
        simp only [InSet, hs.mem, Date.date.injEq]
      | .dateTime t => simp [InSet]
  | .dateTime (.naive t), ht =>
    have ht : NoLeapSecond t := ht
    have fixed : ∀ u, secondsOf r.freq = some u → 1 ≤ u → ∃ seq, SetSeq r (.dateTime (.naive t)) seq := by
      intro u hu hpos
      refine ⟨fun k => .dateTime (.naive (secondsAfter t (k * (r.interval * u)))), fun k X => ?_, fun X => ?_, fun i j hij => ?_⟩
      · rw [seconds_nth hu hi2 ht]
        simp [utcDay]
      · match X with
        | .date e => simp [InSet]
        | .dateTime (.naive v) => simp only [InSet, time_set hu ht.2.2.1, Date.dateTime.injEq, DateTime.naive.injEq]
        | .dateTime (.loc v) => simp [InSet]
      · exact secondsAfter_lt ht.1 (Nat.mul_lt_mul_of_pos_right hij (Nat.mul_pos hi hpos))
    have calendar : r.freq = .monthly ∨ r.freq = .yearly → ∃ seq, SetSeq r (.dateTime (.naive t)) seq := by
      intro hf
      obtain ⟨seq, hs⟩ := day_seq ht.1 hi (by rcases hf with h | h <;> rw [h] <;> decide) hm
      refine ⟨fun k => .dateTime (.naive { t with date := seq k }), fun k X => ?_, fun X => ?_, fun i j hij => earlier_of_day (hs.lt i j hij)⟩
      · rw [C57_time hf]
        simp only [hs.nth ht.2.1, Date.date.injEq, utcDay]
        constructor
        · rintro ⟨e, ⟨rfl, h⟩, rfl⟩; exact ⟨rfl, h⟩
        · rintro ⟨rfl, h⟩; exact ⟨_, ⟨rfl, h⟩, rfl⟩
      · match X with
        | .date e => simp [InSet]
        | .dateTime (.naive v) =>
          have : InSet r (.dateTime (.naive t)) (.dateTime (.naive v)) ↔ RfcDay r.freq r.interval t.date v.date ∧ v.secs = t.secs ∧ v.frac = t.frac := by
            rcases hf with h | h <;> simp only [InSet, h, RfcTime]
          rw [this, hs.mem]
          simp only [Date.dateTime.injEq, DateTime.naive.injEq]
          constructor
          · rintro ⟨⟨k, h1⟩, h2, h3⟩
            exact ⟨k, by cases v; simp_all⟩
          · rintro ⟨k, rfl⟩
            exact ⟨⟨k, rfl⟩, rfl, rfl⟩
        | .dateTime (.loc v) => simp [InSet]
    cases hf : r.freq with
    | secondly => exact fixed 1 (by rw [hf]; rfl) (by decide)
    | minutely => exact fixed 60 (by rw [hf]; rfl) (by decide)
    | hourly => exact fixed 3600 (by rw [hf]; rfl) (by decide)
    | daily => exact fixed 86400 (by rw [hf]; rfl) (by decide)
    | weekly => exact fixed (7 * 86400) (by rw [hf]; rfl) (by decide)
    | monthly => exact calendar (.inl hf)
    | yearly => exact calendar (.inr hf)
  | .dateTime (.loc t), ht =>
    obtain ⟨ht, hfreq⟩ := ht
    obtain ⟨u, hu, hpos⟩ : ∃ u, secondsOf r.freq = some u ∧ 1 ≤ u := by
      simp only [List.mem_cons, List.not_mem_nil, or_false] at hfreq
      rcases hfreq with h | h | h | h | h <;> rw [h] <;> exact ⟨_, rfl, by decide⟩
    refine ⟨fun k => .dateTime (.loc (secondsAfter t (k * (r.interval * u)))), fun k X => ?_, fun X => ?_, fun i j hij => ?_⟩
    · rw [seconds_nth_local hu hi2 ht]
      simp [utcDay]
    · match X with
      | .date e => simp [InSet]
      | .dateTime (.naive v) => simp [InSet]
      | .dateTime (.loc v) => simp only [InSet, time_set hu ht.2.2.1, Date.dateTime.injEq, DateTime.loc.injEq]
    · exact secondsAfter_lt ht.1 (Nat.mul_lt_mul_of_pos_right hij (Nat.mul_pos hi hpos))

/-! ## The iterator -/

theorem setBefore_irrefl (X : Date) : ¬ SetBefore X X := by
  match X with
  | .date d => simp only [SetBefore, EarlierDay]; omega
  | .dateTime (.naive t) => simp only [SetBefore, Earlier]; omega
  | .dateTime (.loc t) => simp only [SetBefore, Earlier]; omega

theorem setBefore_asymm {X Y : Date} (h : SetBefore X Y) : ¬ SetBefore Y X := by
  match X, Y with
  | .date a, .date b => simp only [SetBefore, EarlierDay] at *; omega
  | .dateTime (.naive a), .dateTime (.naive b) => simp only [SetBefore, Earlier] at *; omega
  | .dateTime (.loc a), .dateTime (.loc b) => simp only [SetBefore, Earlier] at *; omega
  | .date _, .dateTime _ => simp [SetBefore]
  | .dateTime _, .date _ => simp [SetBefore]
  | .dateTime (.loc _), .dateTime (.naive _) => simp [SetBefore]
  | .dateTime (.naive _), .dateTime (.loc _) => simp [SetBefore]

theorem SetSeq.before {r : Recur} {D : Date} {seq : Nat → Date} (h : SetSeq r D seq) {i j : Nat} : SetBefore (seq i) (seq j) ↔ i < j := by
  refine ⟨fun hb => ?_, h.lt i j⟩
  rcases Nat.lt_trichotomy i j with hij | rfl | hij
  · exact hij
  · exact absurd hb (setBefore_irrefl _)
  · exact absurd hb (setBefore_asymm (h.lt j i hij))

theorem SetSeq.inj {r : Recur} {D : Date} {seq : Nat → Date} (h : SetSeq r D seq) {i j : Nat} (e : seq i = seq j) : i = j := by
  rcases Nat.lt_trichotomy i j with hij | rfl | hij
  · have := h.lt i j hij; rw [e] at this; exact absurd this (setBefore_irrefl _)
  · rfl
  · have := h.lt j i hij; rw [e] at this; exact absurd this (setBefore_irrefl _)

theorem SetSeq.zero {r : Recur} {D : Date} {seq : Nat → Date} (h : SetSeq r D seq) : D = seq 0 := ((h.nth 0 D).1 rfl).1

theorem nthDate_earlier {r : Recur} {D X : Date} {m : Nat} (h : nthDate r m D = some X) {k : Nat} (hk : k ≤ m) : ∃ Y, nthDate r k D = some Y := by
  induction m generalizing X with
  | zero => exact ⟨X, by rw [Nat.le_zero.1 hk]; exact h⟩
  | succ m ih =>
    rcases Nat.lt_or_ge m k with h1 | h1
    · exact ⟨X, by rw [show k = m + 1 by omega]; exact h⟩
    · simp only [nthDate, Option.bind_eq_some_iff] at h
      obtain ⟨Y, hY, -⟩ := h
      exact ih hY h1

theorem fewerThan_iff {seq : Nat → Date} (hinj : ∀ i j, seq i = seq j → i = j) {L : List Nat} (hL : L.Nodup) {P : Date → Prop} (hP : ∀ X, P X ↔ ∃ i ∈ L, X = seq i) (c : Nat) :
    FewerThan c P ↔ L.length < c := by
  unfold FewerThan
  constructor
  · intro h
    refine Classical.byContradiction fun hc => h ⟨(L.map seq).take c, ?_, ?_, ?_⟩
    · refine List.Nodup.sublist (List.take_sublist _ _) ?_
      rw [List.nodup_iff_pairwise_ne, List.pairwise_map]
      exact hL.imp fun hne e => hne (hinj _ _ e)
    · rw [List.length_take, List.length_map]; omega
    · intro X hX
      obtain ⟨i, hi, rfl⟩ := List.mem_map.1 (List.mem_of_mem_take hX)
      exact (hP _).2 ⟨i, hi, rfl⟩
  · rintro h ⟨l, h1, h2, h3⟩
    have hsub : l ⊆ L.map seq := fun X hX => by
      obtain ⟨i, hi, rfl⟩ := (hP X).1 (h3 X hX)
      exact List.mem_map_of_mem hi
    have := h1.length_le_of_subset hsub
    rw [List.length_map] at this
    omega

theorem least {P : Nat → Prop} {n : Nat} (h : P n) : ∃ m, m ≤ n ∧ P m ∧ ∀ j, j < m → ¬ P j := by
  induction n using Nat.strongRecOn with
  | ind n ih =>
    by_cases hex : ∃ j, j < n ∧ P j
    · obtain ⟨j, hj, hp⟩ := hex
      obtain ⟨m, h1, h2⟩ := ih j hj hp
      exact ⟨m, by omega, h2⟩
    · exact ⟨n, Nat.le_refl n, h, fun j hj hp => hex ⟨j, hj, hp⟩⟩

variable {α : Type} [Recurring α] [LawfulRecurring α]

/-- **C93**: an occurrence starts at a date exactly if the date is in the recurrence set of RFC 5545, is the start or not excluded, has fewer than `COUNT` such dates before it, and is
followed, in the range of years, by another one that is not excluded, all dates of the set before which are not after `UNTIL`. -/
theorem C93_set {s : α} {D : Date} {r : Recur} (hd : Recurring.dtstart s = some D) (hr : Recurring.rrule s = some r) (hi : 1 ≤ r.interval) (hi2 : r.interval ≤ 255)
    (hD : PlainStart r D) (hm : MonthsFit r (utcDay D)) (X : Date) :
    (∃ xs s', Run s xs s' ∧ some X ∈ starts xs) ↔
      InSet r D X ∧ Kept (Recurring.exdate s) D X ∧
      (∀ c, r.count = some c → FewerThan c fun Y => InSet r D Y ∧ Kept (Recurring.exdate s) D Y ∧ SetBefore Y X) ∧
      ∃ Z, InSet r D Z ∧ SetBefore X Z ∧ InRange (utcDay Z) ∧ EndReaches r (Recurring.dtend s) D Z ∧ Z ∉ Recurring.exdate s ∧ ∀ Y, InSet r D Y → SetBefore Y Z → WithinUntil r Y := by
  obtain ⟨seq, hs⟩ := set_seq hi hi2 hD hm
  have hinj : ∀ i j, seq i = seq j → i = j := fun i j => hs.inj
  have hkept : ∀ k, Kept (Recurring.exdate s) D (seq k) ↔ k = 0 ∨ seq k ∉ Recurring.exdate s := by
    intro k
    unfold Kept
    refine or_congr ⟨fun e => hs.inj (e.trans hs.zero), fun e => by rw [e]; exact hs.zero.symm⟩ Iff.rfl
  have hsome : ∀ {m X}, nthDate r m D = some X → ∀ k, k ≤ m → nthDate r k D = some (seq k) := by
    intro m X h k hk
    obtain ⟨Y, hY⟩ := nthDate_earlier h hk
    rw [hY, ((hs.nth k Y).1 hY).1]
  have hmemk : ∀ {m X}, nthDate r m D = some X → ∀ k, k ∈ keptSteps r (Recurring.exdate s) D m ↔ k < m ∧ Kept (Recurring.exdate s) D (seq k) := by
    intro m X h k
    simp only [keptSteps, List.mem_filter, List.mem_range, decide_eq_true_eq, hkept]
    refine and_congr_right fun hk => or_congr Iff.rfl ?_
    rw [hsome h k (Nat.le_of_lt hk)]
    exact ⟨fun h1 h2 => h1 _ h2 rfl, fun h1 e he h2 => h1 (by cases h2; exact he)⟩
  have hnodup : ∀ m, (keptSteps r (Recurring.exdate s) D m).Nodup := fun m => List.Nodup.sublist List.filter_sublist List.nodup_range
  have hfew : ∀ {m Y}, nthDate r m D = some Y → ∀ c, (FewerThan c fun Y => InSet r D Y ∧ Kept (Recurring.exdate s) D Y ∧ SetBefore Y (seq m)) ↔
      (keptSteps r (Recurring.exdate s) D m).length < c := by
    intro m Y h c
    refine fewerThan_iff hinj (hnodup m) (fun X => ?_) c
    constructor
    · rintro ⟨h1, h2, h3⟩
      obtain ⟨i, rfl⟩ := (hs.mem X).1 h1
      exact ⟨i, (hmemk h i).2 ⟨hs.before.1 h3, h2⟩, rfl⟩
    · rintro ⟨i, h1, rfl⟩
      obtain ⟨h2, h3⟩ := (hmemk h i).1 h1
      exact ⟨(hs.mem _).2 ⟨i, rfl⟩, h3, hs.before.2 h2⟩
  have hle : ∀ {k m}, k < m → k ∈ keptSteps r (Recurring.exdate s) D m →
      keptSteps r (Recurring.exdate s) D (k + 1) = keptSteps r (Recurring.exdate s) D k ++ [k] := by
    intro k m _ hk
    have : decide (k = 0 ∨ ∀ e ∈ Recurring.exdate s, nthDate r k D ≠ some e) = true := (List.mem_filter.1 hk).2
    simp only [keptSteps, List.range_succ, List.filter_append, List.filter_cons, this, if_true, List.filter_nil]
  have hmono : ∀ {k m}, k ≤ m → (keptSteps r (Recurring.exdate s) D k).length ≤ (keptSteps r (Recurring.exdate s) D m).length := by
    intro k m hkm
    obtain ⟨j, rfl⟩ := Nat.exists_eq_add_of_le hkm
    simp only [keptSteps, List.range_add, List.filter_append, List.length_append]
    omega
  constructor
  · rintro ⟨xs, s', hrun, hX⟩
    obtain ⟨m, h1, ⟨a, h2, h3⟩, h4, h5, h6⟩ := (C54_progression hd hr (starts xs)).1 ⟨xs, s', hrun, rfl⟩
    rw [h1] at hX
    obtain ⟨k, hk, hkX⟩ := List.mem_map.1 hX
    obtain ⟨hkm, hkk⟩ := (hmemk h2 k).1 hk
    have := ((hs.nth k X).1 hkX).1
    subst this
    obtain ⟨ha, hrange⟩ := (hs.nth m a).1 h2
    subst ha
    refine ⟨(hs.mem _).2 ⟨k, rfl⟩, hkk, ?_, seq m, (hs.mem _).2 ⟨m, rfl⟩, hs.before.2 hkm, hrange, fun e he => (h4 e he).elim fun y hy => ⟨m, y, h2, hy⟩, h3 (by omega), ?_⟩
    · intro c hc
      rw [hfew hkX]
      have h7 := h6 c hc
      rw [h1, List.length_map] at h7
      have h8 := hmono (Nat.succ_le_of_lt hkm)
      rw [hle hkm hk, List.length_append, List.length_singleton] at h8
      omega
    · intro Y hY hb
      obtain ⟨i, rfl⟩ := (hs.mem Y).1 hY
      have := hs.before.1 hb
      exact h5 i this _ (hsome h2 i (Nat.le_of_lt this))
  · rintro ⟨h1, h2, h3, Z, h4, h5, h6, hend, h7, h8⟩
    obtain ⟨k, rfl⟩ := (hs.mem X).1 h1
    obtain ⟨n, rfl⟩ := (hs.mem Z).1 h4
    have hkn := hs.before.1 h5
    obtain ⟨m, hmn, ⟨hkm, hmx⟩, hleast⟩ := least (P := fun m => k < m ∧ seq m ∉ Recurring.exdate s) ⟨hkn, h7⟩
    have hn : nthDate r n D = some (seq n) := (hs.nth n _).2 ⟨rfl, h6⟩
    have hmD := hsome hn m hmn
    have hkD := hsome hn k (by omega)
    have hk : k ∈ keptSteps r (Recurring.exdate s) D m := (hmemk hmD k).2 ⟨hkm, h2⟩
    have hlen : (keptSteps r (Recurring.exdate s) D m).length = (keptSteps r (Recurring.exdate s) D k).length + 1 := by
      have h9 : (keptSteps r (Recurring.exdate s) D m).length ≤ (keptSteps r (Recurring.exdate s) D (k + 1)).length := by
        refine (hnodup m).length_le_of_subset fun j hj => ?_
        obtain ⟨hj1, hj2⟩ := (hmemk hmD j).1 hj
        rw [hmemk (hsome hn (k + 1) (by omega)) j]
        refine ⟨?_, hj2⟩
        refine Classical.byContradiction fun hc => hleast j hj1 ⟨by omega, ?_⟩
        rcases (hkept j).1 hj2 with h | h
        · omega
        · exact h
      have h10 := hmono (Nat.succ_le_of_lt hkm)
      rw [hle hkm hk, List.length_append, List.length_singleton] at h9 h10
      omega
    have hex := (C54_progression hd hr ((keptSteps r (Recurring.exdate s) D m).map fun k => nthDate r k D)).2
    obtain ⟨xs, s', hrun, hst⟩ := hex (by
      refine ⟨m, rfl, ⟨_, hmD, fun _ => hmx⟩, ?_, ?_, ?_⟩
      · intro e he
        obtain ⟨k', y, hk1, hk2⟩ := hend e he
        have : k' = n := hs.inj ((hs.nth k' _).1 hk1).1.symm
        rw [this] at hk2
        exact nthDate_earlier hk2 hmn
      · intro i him a ha
        rw [((hs.nth i a).1 ha).1]
        exact h8 _ ((hs.mem _).2 ⟨i, rfl⟩) (hs.before.2 (by omega))
      · intro c hc
        rw [List.length_map, hlen]
        exact (hfew hkD c).1 (h3 c hc))
    exact ⟨xs, s', hrun, by rw [hst]; exact List.mem_map.2 ⟨k, hk, hkD⟩⟩

/-- What is before a date that is not after `UNTIL` is not after it either. -/
theorem within_before {r : Recur} {Y X : Date} (h : SetBefore Y X) (hl : ∀ t, X ≠ .dateTime (.loc t)) (hX : WithinUntil r X) : WithinUntil r Y := by
  intro u hu
  obtain ⟨-, h2, h3⟩ := hX u hu
  match Y, X, h with
  | .date a, .date b, h =>
    refine ⟨trivial, h2, ?_⟩
    simp only [SetBefore, Date.dateNaive, EarlierDay] at *
    omega
  | .dateTime (.naive a), .dateTime (.naive b), h =>
    refine ⟨trivial, h2, ?_⟩
    simp only [SetBefore, Earlier, Date.dateNaive, DateTime.dateNaive, DateTime.toNaive, EarlierDay] at *
    omega
  | .dateTime (.loc a), .dateTime (.loc b), h => exact absurd rfl (hl b)

theorem inSet_plain {r : Recur} {D X : Date} (h : InSet r D X) (hl : ∀ t, D ≠ .dateTime (.loc t)) : ∀ t, X ≠ .dateTime (.loc t) := by
  rintro t rfl
  match D, h with
  | .dateTime (.loc a), _ => exact hl a rfl

/-- **C93**: with no excluded dates and a start that is a day or a floating time: an occurrence starts at a date exactly if the date is in the recurrence set of RFC 5545, is not after the
day of `UNTIL`, has fewer than `COUNT` dates of the set before it, and is not the last date of the set in the range of years. -/
theorem C93_plain {s : α} {D : Date} {r : Recur} (hd : Recurring.dtstart s = some D) (hr : Recurring.rrule s = some r) (hi : 1 ≤ r.interval) (hi2 : r.interval ≤ 255)
    (hD : PlainStart r D) (hl : ∀ t, D ≠ .dateTime (.loc t)) (hm : MonthsFit r (utcDay D)) (hx : Recurring.exdate s = []) (X : Date) :
    (∃ xs s', Run s xs s' ∧ some X ∈ starts xs) ↔
      InSet r D X ∧ WithinUntil r X ∧ (∀ c, r.count = some c → FewerThan c fun Y => InSet r D Y ∧ SetBefore Y X) ∧
      ∃ Z, InSet r D Z ∧ SetBefore X Z ∧ InRange (utcDay Z) ∧ EndReaches r (Recurring.dtend s) D Z := by
  rw [C93_set hd hr hi hi2 hD hm]
  obtain ⟨seq, hs⟩ := set_seq hi hi2 hD hm
  simp only [hx, Kept, List.not_mem_nil, not_false_eq_true, or_true, true_and]
  constructor
  · rintro ⟨h1, h2, Z, h3, h4, h5, hend, h6⟩
    exact ⟨h1, h6 X h1 h4, h2, Z, h3, h4, h5, hend⟩
  · rintro ⟨h1, h2, h3, Z, h4, h5, h6, hend⟩
    obtain ⟨k, rfl⟩ := (hs.mem X).1 h1
    obtain ⟨n, rfl⟩ := (hs.mem Z).1 h4
    have hkn := hs.before.1 h5
    have hn : nthDate r n D = some (seq n) := (hs.nth n _).2 ⟨rfl, h6⟩
    obtain ⟨Y, hY⟩ := nthDate_earlier hn (show k + 1 ≤ n by omega)
    obtain ⟨rfl, h7⟩ := (hs.nth _ _).1 hY
    refine ⟨h1, h3, seq (k + 1), (hs.mem _).2 ⟨_, rfl⟩, hs.before.2 (by omega), h7, ?_, ?_⟩
    · intro x hx
      obtain ⟨k', y, hk1, hk2⟩ := hend x hx
      have : k' = n := hs.inj ((hs.nth k' _).1 hk1).1.symm
      rw [this] at hk2
      obtain ⟨y', hy'⟩ := nthDate_earlier hk2 (show k + 1 ≤ n by omega)
      exact ⟨k + 1, y', hY, hy'⟩
    intro Y hY hb
    obtain ⟨i, rfl⟩ := (hs.mem Y).1 hY
    have hik := hs.before.1 hb
    rcases Nat.lt_or_ge i k with h | h
    · exact within_before (hs.before.2 h) (inSet_plain h1 hl) h2
    · rw [show i = k by omega]; exact h2

/-! ## Months that fit -/

theorem month_has_28 (y : Int) (m : Nat) : 28 ≤ monthLength y m := by
  unfold monthLength
  repeat' split
  all_goals omega

/-- All months have the days up to the 28th, so that monthly rules on them are within C93; yearly rules are, but for 29 February. -/
theorem C93_fit {r : Recur} {d : NaiveDate} (hd : RealDate d) (h1 : r.freq = .monthly → d.day ≤ 28) (h2 : r.freq = .yearly → ¬ (d.month = 2 ∧ d.day = 29)) : MonthsFit r d := by
  constructor
  · intro hf k
    exact Nat.le_trans (h1 hf) (month_has_28 _ _)
  · intro hf k
    have h := hd.2.2.2
    have h2 := h2 hf
    by_cases hm : d.month = 2
    · have := month_has_28 (d.year + (k * r.interval : Nat)) d.month
      have h3 : monthLength d.year d.month ≤ 29 := by
        unfold monthLength
        rw [if_pos hm]
        split <;> omega
      omega
    · unfold monthLength at *
      rw [if_neg hm] at *
      exact h

/-- **C93**, the limit: a step of a monthly rule is in the recurrence set exactly as long as no month since the start was shorter than the day of the start: from the first short month on,
none is. -/
theorem C93_short_month {r : Recur} (hf : r.freq = .monthly) {d : NaiveDate} (hd : RealDate d) (hr : InRange d) {k : Nat} {X : Date} (h : nthDate r k (.date d) = some X) :
    InSet r (.date d) X ↔ ∀ j, 1 ≤ j → j ≤ k → d.day ≤ lengthOfMonth (monthIndex d + (j * r.interval : Nat)) := by
  obtain ⟨e, rfl, h1, h2, h3, h4, h5, h6⟩ := (C57_clamped hf hd hr k X).1 h
  simp only [InSet, RfcDay, hf]
  constructor
  · rintro ⟨-, h7, -⟩ j hj hk
    rw [← h7]; exact h5 j hj hk
  · intro h7
    refine ⟨h1, ?_, k, h3⟩
    rcases h6 with h6 | ⟨j, hj, hk, h6⟩
    · exact h6
    · have := h7 j hj hk; omega

/-- **C93**, the limit: a date of the recurrence set of a monthly rule is a step of the rule exactly if no visited month from the start on is shorter than the day of the start: after a
short month the dates of the set are missed for good. -/
theorem C93_missed {r : Recur} (hf : r.freq = .monthly) (hi : 1 ≤ r.interval) {d e : NaiveDate} (hd : RealDate d) (hr : InRange d) (h : InSet r (.date d) (.date e)) (he : InRange e) :
    (∃ k, nthDate r k (.date d) = some (.date e)) ↔
      ∀ j : Nat, 1 ≤ j → monthIndex d + (j * r.interval : Nat) ≤ monthIndex e → d.day ≤ lengthOfMonth (monthIndex d + (j * r.interval : Nat)) := by
  have hin := h
  simp only [InSet, RfcDay, hf] at h
  obtain ⟨h1, h2, n, h3⟩ := h
  constructor
  · rintro ⟨k, hk⟩ j hj hje
    obtain ⟨x, hx, -, -, h4, -⟩ := (C57_clamped hf hd hr k _).1 hk
    cases hx
    refine (C93_short_month hf hd hr hk).1 hin j hj ?_
    refine Nat.le_of_mul_le_mul_right (c := r.interval) ?_ hi
    omega
  · intro h4
    refine ⟨n, (C57_clamped hf hd hr n _).2 ⟨e, rfl, h1, he, h3, by omega, fun j hj hk => ?_, .inl h2⟩⟩
    rw [h2]
    refine h4 j hj ?_
    have := Nat.mul_le_mul_right r.interval hk
    omega

end

section
attribute [local instance] utc

theorem plain_jan {r : Recur} (d : Nat) (h1 : 1 ≤ d) (h2 : d ≤ 31) (hf : r.freq ∈ [Freq.daily, .weekly, .monthly, .yearly]) : PlainStart r (jan d) :=
  ⟨⟨(by omega : 1 ≤ 1), (by omega : 1 ≤ 12), h1, h2⟩, ⟨(by omega : (-262143 : Int) ≤ 2024), (by omega : (2024 : Int) ≤ 262142)⟩, hf⟩

/-- C93: every second day from 1 January: 5 January is one of them. -/
example : ∃ xs s', Run (sampleEvent (jan 1) none (everyDays 2) []) xs s' ∧ some (jan 5) ∈ starts xs := by
  have hD : PlainStart (everyDays 2) (jan 1) := plain_jan 1 (by decide) (by decide) (by decide)
  refine (C93_plain (D := jan 1) rfl rfl (by decide) (by decide) hD (by intro t h; cases h) (C93_fit hD.1 (by intro h; cases h) (by intro h; cases h)) rfl _).2 ?_
  refine ⟨⟨2, by decide +kernel⟩, ?_, ?_, jan 7, ⟨3, by decide +kernel⟩, ?_, ⟨by decide, by decide⟩, ?_⟩
  · intro u h; cases h
  · intro c h; cases h
  · exact .inr ⟨rfl, .inr ⟨rfl, (by decide : 5 < 7)⟩⟩
  · intro x h; cases h

/-- C93: every second day from 1 January, three times, without 3 January: 7 January is one of them, with fewer than three before it. -/
example : FewerThan 3 fun Y => InSet { everyDays 2 with count := some 3 } (jan 1) Y ∧ Kept [jan 3] (jan 1) Y ∧ SetBefore Y (jan 7) := by
  have hD : PlainStart { everyDays 2 with count := some 3 } (jan 1) := plain_jan 1 (by decide) (by decide) (by decide)
  exact ((C93_set (s := threeTimes 1 3) (D := jan 1) rfl rfl (by decide) (by decide) hD (C93_fit hD.1 (by intro h; cases h) (by intro h; cases h)) (jan 7)).1
    ⟨_, _, threeTimes_run, by decide +kernel⟩).2.2.1 3 rfl

/-- C93, the limit: 31 March is in the recurrence set of "every month from 31 January", and never comes. -/
example : InSet (everyMonths 1) (jan 31) (.date ⟨2024, 3, 31⟩) ∧ ¬ ∃ k, nthDate (everyMonths 1) k (jan 31) = some (.date ⟨2024, 3, 31⟩) := by
  have hin : InSet (everyMonths 1) (jan 31) (.date ⟨2024, 3, 31⟩) := ⟨⟨by decide, by decide, by decide, by decide⟩, rfl, 2, by decide⟩
  refine ⟨hin, fun h => ?_⟩
  have := (C93_missed (d := ⟨2024, 1, 31⟩) rfl (by decide) ⟨by decide, by decide, by decide, by decide⟩ ⟨by decide, by decide⟩ hin ⟨by decide, by decide⟩).1 h 1 (by decide) (by decide)
  revert this
  decide

end

end Ikal
