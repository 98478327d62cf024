import Verif.Chrono
import Verif.Spec.Calendar

/-! # Calendar arithmetic -/

namespace Ikal

open Spec

theorem isLeap_iff (y : Int) : isLeap y = true ↔ Leap y := by
  unfold isLeap Leap
  simp only [Bool.and_eq_true, decide_eq_true_eq, Bool.or_eq_true, ne_eq]
  omega

theorem isLeap_eq (y : Int) : isLeap y = decide (Leap y) := by
  rw [Bool.eq_iff_iff, isLeap_iff]; simp

theorem daysInMonth_eq (y : Int) {m : Nat} (h1 : 1 ≤ m) (h2 : m ≤ 12) : daysInMonth y m = monthLength y m := by
  unfold daysInMonth monthLength
  match m, h1, h2 with
  | 1, _, _ | 3, _, _ | 4, _, _ | 5, _, _ | 6, _, _ | 7, _, _ | 8, _, _ | 9, _, _ | 10, _, _ | 11, _, _ | 12, _, _ => simp
  | 2, _, _ => simp [isLeap_eq]
  | n + 13, _, h => omega

theorem valid_iff (d : NaiveDate) : d.Valid ↔ InRange d ∧ RealDate d := by
  unfold NaiveDate.Valid InRange RealDate minYear maxYear
  constructor
  · rintro ⟨h1, h2, h3, h4, h5, h6⟩
    rw [daysInMonth_eq _ h3 h4] at h6
    exact ⟨⟨h1, h2⟩, h3, h4, h5, h6⟩
  · rintro ⟨⟨h1, h2⟩, h3, h4, h5, h6⟩
    rw [← daysInMonth_eq _ h3 h4] at h6
    exact ⟨h1, h2, h3, h4, h5, h6⟩

namespace NaiveDate

/-- The leap day of a year, as a number. -/
def leapNat (y : Int) : Nat := if isLeap y then 1 else 0

theorem daysBeforeYear_succ (y : Int) : daysBeforeYear (y + 1) = daysBeforeYear y + 365 + leapNat y := by
  unfold daysBeforeYear leapNat
  have : isLeap y = true ↔ y % 4 = 0 ∧ (y % 100 ≠ 0 ∨ y % 400 = 0) := by simp [isLeap]
  by_cases h : isLeap y = true
  · rw [if_pos h]; rw [this] at h; omega
  · rw [if_neg h]; rw [this] at h; omega

theorem daysBeforeYear_cycle (k y : Int) : daysBeforeYear (k * 400 + y) = 146097 * k + daysBeforeYear y := by
  unfold daysBeforeYear; omega

theorem daysBeforeYear_mono {a b : Int} (h : a ≤ b) : daysBeforeYear a + 365 * (b - a) ≤ daysBeforeYear b := by
  obtain ⟨n, rfl⟩ : ∃ n : Nat, b = a + n := ⟨(b - a).toNat, by omega⟩
  clear h
  induction n with
  | zero => simp
  | succ n ih =>
    rw [show a + ((n + 1 : Nat) : Int) = (a + n) + 1 by omega, daysBeforeYear_succ]
    omega

theorem yearOfDays_spec (n : Int) : daysBeforeYear (yearOfDays n) ≤ n ∧ n < daysBeforeYear (yearOfDays n + 1) := by
  unfold yearOfDays
  simp only []
  generalize hc : n / 146097 = cyc
  generalize hd : n % 146097 = doc
  have hn : n = 146097 * cyc + doc := by omega
  have hb : 0 ≤ doc ∧ doc < 146097 := by omega
  generalize hy : doc / 365 = y0
  have hy1 : 365 * y0 ≤ doc ∧ doc < 365 * y0 + 365 := by omega
  rw [Int.add_assoc, daysBeforeYear_cycle, daysBeforeYear_cycle, hn]
  split
  · next h => 
    constructor
    · omega
    · have : doc < daysBeforeYear (y0 + 1) := by unfold daysBeforeYear; omega
      omega
  · next h =>
    rw [show y0 - 1 + 1 = y0 by omega]
    have : daysBeforeYear (y0 - 1) ≤ doc := by unfold daysBeforeYear; omega
    omega

theorem yearOfDays_eq {n y : Int} (h1 : daysBeforeYear y ≤ n) (h2 : n < daysBeforeYear (y + 1)) : yearOfDays n = y := by
  obtain ⟨h3, h4⟩ := yearOfDays_spec n
  rcases Int.lt_trichotomy (yearOfDays n) y with h | h | h
  · have := daysBeforeYear_mono (show yearOfDays n + 1 ≤ y by omega); omega
  · exact h
  · have := daysBeforeYear_mono (show y + 1 ≤ yearOfDays n by omega); omega

theorem daysBeforeMonth_succ (y : Int) {m : Nat} (h1 : 1 ≤ m) (h2 : m ≤ 12) :
    daysBeforeMonth y (m + 1) = daysBeforeMonth y m + daysInMonth y m := by
  unfold daysBeforeMonth daysInMonth
  match m, h1, h2 with
  | 1, _, _ | 2, _, _ | 3, _, _ | 4, _, _ | 5, _, _ | 6, _, _ | 7, _, _ | 8, _, _ | 9, _, _ | 10, _, _ | 11, _, _ | 12, _, _ =>
    cases isLeap y <;> simp
  | n + 13, _, h => omega

theorem daysInMonth_le (y : Int) (m : Nat) : daysInMonth y m ≤ 31 := by
  unfold daysInMonth; split <;> try omega
  split <;> omega

theorem daysInMonth_ge (y : Int) {m : Nat} (h1 : 1 ≤ m) (h2 : m ≤ 12) : 28 ≤ daysInMonth y m := by
  match m, h1, h2 with
  | 1, _, _ | 2, _, _ | 3, _, _ | 4, _, _ | 5, _, _ | 6, _, _ | 7, _, _ | 8, _, _ | 9, _, _ | 10, _, _ | 11, _, _ | 12, _, _ =>
    unfold daysInMonth; cases isLeap y <;> simp
  | n + 13, _, h => omega

theorem daysBeforeMonth_13 (y : Int) : daysBeforeMonth y 13 = 365 + leapNat y := rfl
theorem daysBeforeMonth_1 (y : Int) : daysBeforeMonth y 1 = 0 := rfl

theorem daysBeforeMonth_mono (y : Int) {a b : Nat} (h : a ≤ b) (h1 : 1 ≤ a) (h2 : b ≤ 13) : daysBeforeMonth y a ≤ daysBeforeMonth y b := by
  obtain ⟨n, rfl⟩ : ∃ n : Nat, b = a + n := ⟨b - a, by omega⟩
  clear h
  induction n with
  | zero => simp
  | succ n ih =>
    rw [show a + (n + 1) = (a + n) + 1 by omega, daysBeforeMonth_succ y (by omega) (by omega)]
    have := ih (by omega)
    omega

theorem monthOfOrdinal_spec (y : Int) {o : Nat} (h : o < 365 + leapNat y) :
    1 ≤ monthOfOrdinal y o ∧ monthOfOrdinal y o ≤ 12 ∧ daysBeforeMonth y (monthOfOrdinal y o) ≤ o ∧
    o < daysBeforeMonth y (monthOfOrdinal y o + 1) := by
  unfold monthOfOrdinal
  repeat' split
  all_goals refine ⟨by omega, by omega, ?_, ?_⟩
  all_goals first
    | exact Nat.zero_le _
    | assumption
    | (rw [daysBeforeMonth_13]; exact h)
    | (apply Nat.le_of_not_lt; assumption)

theorem monthOfOrdinal_eq (y : Int) {o m : Nat} (h1 : 1 ≤ m) (h2 : m ≤ 12) (h3 : daysBeforeMonth y m ≤ o)
    (h4 : o < daysBeforeMonth y (m + 1)) : monthOfOrdinal y o = m := by
  have ho : o < 365 + leapNat y := by
    have := daysBeforeMonth_mono y (show m + 1 ≤ 13 by omega) (by omega) (by omega)
    rw [daysBeforeMonth_13] at this; omega
  obtain ⟨a, b, c, d⟩ := monthOfOrdinal_spec y ho
  rcases Nat.lt_trichotomy (monthOfOrdinal y o) m with h | h | h
  · have := daysBeforeMonth_mono y (show monthOfOrdinal y o + 1 ≤ m by omega) (by omega) (by omega); omega
  · exact h
  · have := daysBeforeMonth_mono y (show m + 1 ≤ monthOfOrdinal y o by omega) (by omega) (by omega); omega

/-- The dates that exist, in terms of the model. -/
def Ok (d : NaiveDate) : Prop := 1 ≤ d.month ∧ d.month ≤ 12 ∧ 1 ≤ d.day ∧ d.day ≤ daysInMonth d.year d.month

theorem Valid.ok {d : NaiveDate} (h : d.Valid) : d.Ok := h.2.2

theorem ok_iff (d : NaiveDate) : d.Ok ↔ RealDate d := by
  unfold Ok RealDate
  constructor
  · rintro ⟨h1, h2, h3, h4⟩; rw [daysInMonth_eq _ h1 h2] at h4; exact ⟨h1, h2, h3, h4⟩
  · rintro ⟨h1, h2, h3, h4⟩; rw [← daysInMonth_eq _ h1 h2] at h4; exact ⟨h1, h2, h3, h4⟩

theorem Ok.ordinal {d : NaiveDate} (h : d.Ok) : daysBeforeMonth d.year d.month + d.day ≤ 365 + leapNat d.year := by
  obtain ⟨h1, h2, h3, h4⟩ := h
  have := daysBeforeMonth_mono d.year (show d.month + 1 ≤ 13 by omega) (by omega) (by omega)
  rw [daysBeforeMonth_13, daysBeforeMonth_succ _ h1 h2] at this
  omega

theorem ofDays_toDays {d : NaiveDate} (h : d.Ok) : ofDays d.toDays = d := by
  have ho := h.ordinal
  obtain ⟨h1, h2, h3, h4⟩ := h
  have hy : yearOfDays d.toDays = d.year := by
    refine yearOfDays_eq ?_ ?_
    · unfold toDays; omega
    · rw [daysBeforeYear_succ]; unfold toDays; omega
  unfold ofDays
  simp only [hy]
  have ho : (d.toDays - daysBeforeYear d.year).toNat = daysBeforeMonth d.year d.month + (d.day - 1) := by unfold toDays; omega
  rw [ho]
  have hm : monthOfOrdinal d.year (daysBeforeMonth d.year d.month + (d.day - 1)) = d.month := by
    refine monthOfOrdinal_eq _ h1 h2 (by omega) ?_
    rw [daysBeforeMonth_succ _ h1 h2]; omega
  rw [hm]
  cases d
  simp; simp at h3; omega

theorem ofDays_ok (n : Int) : (ofDays n).Ok := by
  obtain ⟨h1, h2⟩ := yearOfDays_spec n
  rw [daysBeforeYear_succ] at h2
  obtain ⟨a, b, c, d⟩ := monthOfOrdinal_spec (yearOfDays n) (o := (n - daysBeforeYear (yearOfDays n)).toNat) (by omega)
  unfold ofDays Ok
  simp only []
  rw [daysBeforeMonth_succ _ a b] at d
  exact ⟨a, b, by omega, by omega⟩

theorem toDays_ofDays (n : Int) : (ofDays n).toDays = n := by
  obtain ⟨h1, h2⟩ := yearOfDays_spec n
  rw [daysBeforeYear_succ] at h2
  obtain ⟨a, b, c, d⟩ := monthOfOrdinal_spec (yearOfDays n) (o := (n - daysBeforeYear (yearOfDays n)).toNat) (by omega)
  unfold ofDays toDays
  simp only []
  omega

theorem toDays_inj {a b : NaiveDate} (ha : a.Ok) (hb : b.Ok) (h : a.toDays = b.toDays) : a = b := by
  rw [← ofDays_toDays ha, ← ofDays_toDays hb, h]

/-! ## Comparison -/

theorem cmp_lt_iff {a b : NaiveDate} : cmp a b = .lt ↔
    a.year < b.year ∨ a.year = b.year ∧ (a.month < b.month ∨ a.month = b.month ∧ a.day < b.day) := by
  unfold cmp
  simp only [Ordering.then_eq_lt, Ordering.then_eq_eq, Int.compare_eq_lt, Int.compare_eq_eq, Nat.compare_eq_lt, Nat.compare_eq_eq]
  omega

theorem cmp_eq_iff {a b : NaiveDate} : cmp a b = .eq ↔ a = b := by
  unfold cmp
  simp only [Ordering.then_eq_eq, Int.compare_eq_eq, Nat.compare_eq_eq]
  cases a; cases b; simp [and_assoc]

theorem cmp_gt_iff {a b : NaiveDate} : cmp a b = .gt ↔
    b.year < a.year ∨ a.year = b.year ∧ (b.month < a.month ∨ a.month = b.month ∧ b.day < a.day) := by
  unfold cmp
  simp only [Ordering.then_eq_gt, Ordering.then_eq_eq, Int.compare_eq_gt, Int.compare_eq_eq, Nat.compare_eq_gt, Nat.compare_eq_eq]
  omega

theorem toDays_lt_of_cmp {a b : NaiveDate} (ha : a.Ok) (hb : b.Ok) (h : cmp a b = .lt) : a.toDays < b.toDays := by
  have hoa := ha.ordinal
  have hob := hb.ordinal
  obtain ⟨a1, a2, a3, a4⟩ := ha
  obtain ⟨b1, b2, b3, b4⟩ := hb
  rcases cmp_lt_iff.1 h with h | ⟨h, h'⟩
  · have h1 := daysBeforeYear_mono (show a.year + 1 ≤ b.year by omega)
    rw [daysBeforeYear_succ] at h1
    unfold toDays; omega
  · rcases h' with h' | ⟨h', h''⟩
    · have h1 := daysBeforeMonth_mono b.year (show a.month + 1 ≤ b.month by omega) (by omega) (by omega)
      rw [daysBeforeMonth_succ _ a1 a2] at h1
      unfold toDays; rw [h] at a4 ⊢; omega
    · unfold toDays; rw [h, h']; omega

theorem cmp_swap (a b : NaiveDate) : cmp b a = (cmp a b).swap := by
  cases h : cmp a b with
  | lt => rw [cmp_lt_iff] at h; simp only [Ordering.swap]; rw [cmp_gt_iff]; omega
  | eq => rw [cmp_eq_iff] at h; subst h; simp only [Ordering.swap]; rw [cmp_eq_iff]
  | gt => rw [cmp_gt_iff] at h; simp only [Ordering.swap]; rw [cmp_lt_iff]; omega

/-- Dates compare as their day numbers. -/
theorem cmp_eq_compare {a b : NaiveDate} (ha : a.Ok) (hb : b.Ok) : cmp a b = compare a.toDays b.toDays := by
  cases h : cmp a b with
  | lt => exact (Int.compare_eq_lt.2 (toDays_lt_of_cmp ha hb h)).symm
  | eq => rw [cmp_eq_iff] at h; subst h; exact (Int.compare_eq_eq.2 rfl).symm
  | gt =>
    have : cmp b a = .lt := by rw [cmp_swap, h]; rfl
    exact (Int.compare_eq_gt.2 (toDays_lt_of_cmp hb ha this)).symm

/-! ## Tomorrow -/

theorem tomorrow_ok {d : NaiveDate} (h : d.Ok) : (tomorrow d).Ok := by
  obtain ⟨h1, h2, h3, h4⟩ := h
  unfold tomorrow
  rw [← daysInMonth_eq _ h1 h2]
  split
  · next h => exact ⟨h1, h2, Nat.succ_le_succ (Nat.zero_le _), Nat.succ_le_of_lt h⟩
  split
  · exact ⟨by simp, by simp; omega, by simp, by have := daysInMonth_ge d.year (m := d.month + 1) (by omega) (by omega); simp; omega⟩
  · refine ⟨by simp, by simp, by simp, ?_⟩
    have := daysInMonth_ge (d.year + 1) (m := 1) (by omega) (by omega); simp; omega

theorem toDays_tomorrow {d : NaiveDate} (h : d.Ok) : (tomorrow d).toDays = d.toDays + 1 := by
  obtain ⟨h1, h2, h3, h4⟩ := h
  unfold tomorrow
  rw [← daysInMonth_eq _ h1 h2]
  split
  · unfold toDays; simp; omega
  split
  · next h5 h6 =>
    unfold toDays; simp only []
    rw [daysBeforeMonth_succ _ h1 h2]; omega
  · next h5 h6 =>
    have hm : d.month = 12 := by omega
    have := daysBeforeMonth_succ d.year (m := 12) (by omega) (by omega)
    rw [daysBeforeMonth_13] at this
    unfold toDays; simp only [daysBeforeYear_succ, daysBeforeMonth_1, hm]
    rw [hm] at h4 h5
    omega

theorem daysLater_spec (n : Nat) (d : NaiveDate) (h : d.Ok) : (daysLater n d).Ok ∧ (daysLater n d).toDays = d.toDays + n := by
  induction n generalizing d with
  | zero => exact ⟨h, by simp [daysLater]⟩
  | succ n ih =>
    obtain ⟨h1, h2⟩ := ih (tomorrow d) (tomorrow_ok h)
    refine ⟨h1, ?_⟩
    rw [daysLater, h2, toDays_tomorrow h]; omega

theorem ofDays_add (n : Nat) (d : NaiveDate) (h : d.Ok) : ofDays (d.toDays + n) = daysLater n d := by
  obtain ⟨h1, h2⟩ := daysLater_spec n d h
  rw [← h2, ofDays_toDays h1]

theorem addDays_some {d r : NaiveDate} {n : Int} (h : d.addDays n = some r) : r.Valid ∧ r.toDays = d.toDays + n := by
  unfold addDays at h
  simp only [] at h
  split at h
  · next hr =>
    cases h
    have := ofDays_ok (d.toDays + n)
    exact ⟨⟨hr.1, hr.2, this⟩, toDays_ofDays _⟩
  · cases h

theorem addDays_of {d r : NaiveDate} {n : Int} (hr : r.Valid) (h : r.toDays = d.toDays + n) : d.addDays n = some r := by
  unfold addDays
  simp only []
  rw [← h, ofDays_toDays hr.ok, if_pos ⟨hr.1, hr.2.1⟩]

end NaiveDate
end Ikal
