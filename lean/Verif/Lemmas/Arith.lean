import Verif.Lemmas.DateTime

/-! # Arithmetic of date-times that are not in a leap second -/

namespace Ikal

open Spec

set_option linter.unusedSimpArgs false

namespace NaiveDateTime

/-- Nanoseconds since 0000-01-01T00:00:00. -/
def nanos (t : NaiveDateTime) : Int := t.toSecs * 1000000000 + t.frac

/-- A valid time outside leap seconds. -/
def Plain (t : NaiveDateTime) : Prop := t.date.Valid ∧ t.secs < 86400 ∧ t.frac < 1000000000

theorem nanos_inj {a b : NaiveDateTime} (ha : a.Plain) (hb : b.Plain) (h : a.nanos = b.nanos) : a = b := by
  obtain ⟨a1, a2, a3⟩ := ha
  obtain ⟨b1, b2, b3⟩ := hb
  unfold nanos at h
  have hs : a.toSecs = b.toSecs := by omega
  have hf : a.frac = b.frac := by omega
  exact eq_of_toSecs a1.ok b1.ok a2 b2 hs hf

/-- The time at a number of nanoseconds, if its year is in range. -/
def ofNanos (n : Int) : Option NaiveDateTime := ofSecs (n / 1000000000) (n % 1000000000).toNat

theorem ofSecs_some {n : Int} {f : Nat} {r : NaiveDateTime} (h : ofSecs n f = some r) :
    r.date.Valid ∧ r.secs < 86400 ∧ r.frac = f ∧ r.toSecs = n := by
  unfold ofSecs at h
  simp only at h
  split at h
  · next hr =>
    simp only [Option.some.injEq] at h
    subst h
    refine ⟨?_, ?_, rfl, ?_⟩
    · rw [valid_iff, ← NaiveDate.ok_iff]
      exact ⟨hr, NaiveDate.ofDays_ok _⟩
    · simp only []; omega
    · simp only [toSecs, NaiveDate.toDays_ofDays]; omega
  · exact absurd h (by simp)

theorem ofSecs_toSecs {t : NaiveDateTime} (hd : t.date.Valid) (hs : t.secs < 86400) : ofSecs t.toSecs t.frac = some t := by
  have hq : t.toSecs / 86400 = t.date.toDays := by unfold toSecs; omega
  have hm : t.toSecs % 86400 = t.secs := by unfold toSecs; omega
  unfold ofSecs
  simp only [hq, hm, NaiveDate.ofDays_toDays hd.ok]
  rw [if_pos (show minYear ≤ t.date.year ∧ t.date.year ≤ maxYear from ((valid_iff _).1 hd).1)]
  simp

theorem ofNanos_some {n : Int} {r : NaiveDateTime} : ofNanos n = some r ↔ r.Plain ∧ r.nanos = n := by
  unfold ofNanos
  constructor
  · intro h
    obtain ⟨h1, h2, h3, h4⟩ := ofSecs_some h
    refine ⟨⟨h1, h2, by omega⟩, ?_⟩
    unfold nanos; rw [h3, h4]; omega
  · rintro ⟨⟨h1, h2, h3⟩, h4⟩
    unfold nanos at h4
    have e1 : n / 1000000000 = r.toSecs := by omega
    have e2 : (n % 1000000000).toNat = r.frac := by omega
    rw [e1, e2]
    exact ofSecs_toSecs h1 h2

theorem add_eq {t : NaiveDateTime} (h : t.frac < 1000000000) (d : TimeDelta) : t.add d = ofNanos (t.nanos + d.nanos) := by
  obtain ⟨n⟩ := d
  unfold add TimeDelta.numSeconds TimeDelta.subsecNanos TimeDelta.nps ofNanos
  simp only
  have h1 : ¬ ((t.frac : Int) ≥ 1000000000) := by omega
  rw [if_neg h1]
  have hq := Int.mul_tdiv_add_tmod n 1000000000
  have hm1 : n.tmod 1000000000 < 1000000000 := by
    have := Int.tmod_lt_of_pos n (show (0 : Int) < 1000000000 by decide); exact this
  have hm2 : -1000000000 < n.tmod 1000000000 := by
    have := Int.lt_tmod_of_pos n (show (0 : Int) < 1000000000 by decide); exact this
  generalize n.tdiv 1000000000 = q at *
  generalize n.tmod 1000000000 = m at *
  subst hq
  unfold nanos
  have key : ∀ s f : Int, 0 ≤ f → f < 1000000000 → (t.secs + s) * 1000000000 + f = (t.secs : Int) * 1000000000 + t.frac + (1000000000 * q + m) →
      ofSecs (t.date.toDays * 86400 + (t.secs + s)) f.toNat =
      ofSecs ((t.toSecs * 1000000000 + t.frac + (1000000000 * q + m)) / 1000000000) ((t.toSecs * 1000000000 + t.frac + (1000000000 * q + m)) % 1000000000).toNat := by
    intro s f h1 h2 h3
    have e1 : (t.toSecs * 1000000000 + t.frac + (1000000000 * q + m)) / 1000000000 = t.date.toDays * 86400 + (t.secs + s) := by
      unfold toSecs; omega
    have e2 : (t.toSecs * 1000000000 + t.frac + (1000000000 * q + m)) % 1000000000 = f := by
      unfold toSecs; omega
    rw [e1, e2]
  split
  · rw [show (t.secs : Int) + q - 1 = t.secs + (q - 1) by omega]; exact key _ _ (by omega) (by omega) (by omega)
  · split
    · rw [show (t.secs : Int) + q + 1 = t.secs + (q + 1) by omega]; exact key _ _ (by omega) (by omega) (by omega)
    · exact key _ _ (by omega) (by omega) (by omega)

theorem add_some {t r : NaiveDateTime} (h : t.frac < 1000000000) {d : TimeDelta} :
    t.add d = some r ↔ r.Plain ∧ r.nanos = t.nanos + d.nanos := by
  rw [add_eq h, ofNanos_some]

theorem since_nanos {a b : NaiveDateTime} (ha : a.frac < 1000000000) (hb : b.frac < 1000000000) :
    (a.since b).nanos = a.nanos - b.nanos := by
  unfold since nanos toSecs
  simp only
  rw [if_neg (by omega), if_neg (by omega)]
  omega

/-- Comparison by date, second and fraction. -/
theorem cmp_lt_iff {a b : NaiveDateTime} : cmp a b = .lt ↔
    a.date.cmp b.date = .lt ∨ a.date = b.date ∧ (a.secs < b.secs ∨ a.secs = b.secs ∧ a.frac < b.frac) := by
  unfold cmp
  simp only [Ordering.then_eq_lt, Ordering.then_eq_eq, Nat.compare_eq_lt, Nat.compare_eq_eq, NaiveDate.cmp_eq_iff]
  constructor
  · rintro ((h | ⟨h, h'⟩) | ⟨⟨h, h'⟩, h''⟩)
    · exact .inl h
    · exact .inr ⟨h, .inl h'⟩
    · exact .inr ⟨h, .inr ⟨h', h''⟩⟩
  · rintro (h | ⟨h, h' | ⟨h', h''⟩⟩)
    · exact .inl (.inl h)
    · exact .inl (.inr ⟨h, h'⟩)
    · exact .inr ⟨⟨h, h'⟩, h''⟩

theorem cmp_eq_iff {a b : NaiveDateTime} : cmp a b = .eq ↔ a = b := by
  unfold cmp
  simp only [Ordering.then_eq_eq, Nat.compare_eq_eq, NaiveDate.cmp_eq_iff]
  cases a; cases b; simp [and_assoc]

theorem cmp_swap (a b : NaiveDateTime) : cmp b a = (cmp a b).swap := by
  unfold cmp
  rw [Ordering.swap_then, Ordering.swap_then, ← NaiveDate.cmp_swap, Nat.compare_swap, Nat.compare_swap]

theorem cmp_gt_iff {a b : NaiveDateTime} : cmp a b = .gt ↔ cmp b a = .lt := by
  rw [cmp_swap a b]; cases cmp a b <;> simp

theorem cmp_plain {a b : NaiveDateTime} (ha : a.Plain) (hb : b.Plain) : cmp a b = compare a.nanos b.nanos := by
  have key : ∀ {a b : NaiveDateTime}, a.Plain → b.Plain → cmp a b = .lt → a.nanos < b.nanos := by
    intro a b ⟨a1, a2, a3⟩ ⟨b1, b2, b3⟩ h
    unfold nanos toSecs
    rcases cmp_lt_iff.1 h with h | ⟨h, h' | ⟨h', h''⟩⟩
    · have := NaiveDate.toDays_lt_of_cmp a1.ok b1.ok h; omega
    · rw [h]; omega
    · rw [h, h']; omega
  cases h : cmp a b with
  | lt => exact (Int.compare_eq_lt.2 (key ha hb h)).symm
  | eq => rw [cmp_eq_iff] at h; subst h; exact (Int.compare_eq_eq.2 rfl).symm
  | gt => exact (Int.compare_eq_gt.2 (key hb ha (cmp_gt_iff.1 h))).symm

theorem cmp_le_trans {a b c : NaiveDateTime} (h1 : cmp a b ≠ .gt) (h2 : cmp b c ≠ .gt) : cmp a c ≠ .gt := by
  rw [Ne, cmp_gt_iff, cmp_lt_iff, NaiveDate.cmp_lt_iff] at *
  intro h
  rcases h with h | ⟨h, h'⟩
  · have hn : ¬ (b.date = a.date) ∨ ¬ (c.date = b.date) := by
      by_cases hba : b.date = a.date
      · right; intro hcb; rw [hcb, hba] at h; omega
      · left; exact hba
    simp only [not_or, not_and] at h1 h2
    cases ha : a.date; cases hb : b.date; cases hc : c.date
    simp only [ha, hb, hc, NaiveDate.mk.injEq, not_or, not_and] at *
    omega
  · simp only [not_or, not_and] at h1 h2
    cases ha : a.date; cases hb : b.date; cases hc : c.date
    simp only [ha, hb, hc, NaiveDate.mk.injEq, not_or, not_and] at *
    omega

end NaiveDateTime

end Ikal
