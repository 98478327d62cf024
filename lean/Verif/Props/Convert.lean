import Verif.Props.Order
import Verif.Spec.Zone

/-! # C68: conversions between dates and date-times, and their arithmetic -/

set_option linter.unusedSectionVars false

namespace Ikal

open Spec

section
variable [Platform]

/-! ## Dates as date-times -/

/-- **C68**: a date becomes the floating midnight that starts it, a date-time stays as it is; either way the day is the same and
the two compare equal (unless the wall-clock time is out of range: then both panic). -/
theorem C68_from_date (x : Date) :
    (∀ d, x = .date d → x.toDateTime = .naive ⟨d, 0, 0⟩) ∧ (∀ t, x = .dateTime t → x.toDateTime = t) ∧
    x.toDateTime.dateNaive? = x.dateNaive? ∧ (OnCalendar x → x.cmp? (.dateTime x.toDateTime) = some .eq) := by
  cases x with
  | date d =>
    refine ⟨fun e h => (by cases h; rfl), fun t h => (by cases h), rfl, fun _ => ?_⟩
    exact Date.cmp?_iff.2 ⟨trivial, trivial, (NaiveDate.cmp_eq_iff.2 rfl).symm⟩
  | dateTime t =>
    refine ⟨fun e h => (by cases h), fun s h => (by cases h; rfl), rfl, fun h => ?_⟩
    exact Date.cmp?_iff.2 ⟨h, h, (NaiveDateTime.cmp_eq_iff.2 rfl).symm⟩

/-- **C68**: no time of the day is earlier than the midnight a date becomes. -/
theorem C68_midnight_first (d : NaiveDate) (t : DateTime) (h : t.dateNaive? = some d) : t.cmp? (Date.date d).toDateTime ≠ some .lt := by
  obtain ⟨-, rfl⟩ := DateTime.dateNaive?_iff.1 h
  intro h
  have := ((C40_wall_clock _ _).1.1 h).2.2
  unfold Earlier at this
  simp only [Date.toDateTime, DateTime.toNaive, NaiveDateTime.midnight, DateTime.dateNaive] at this
  omega

/-- **C68**: `has_time` tells whether the text has a time part. -/
theorem C68_has_time (x : Date) : x.hasTime = true ↔ 'T' ∈ x.toStr := by
  have hy : ∀ y, 'T' ∉ yearStr y := by
    intro y
    unfold yearStr
    have h4 : ∀ n, 'T' ∉ pad4 n := fun n h => by have := pad4_digits n _ h; revert this; decide
    split
    · exact h4 _
    · simp only [List.mem_cons, not_or]
      refine ⟨by split <;> decide, ?_⟩
      split
      · exact h4 _
      · intro h; have := natStr_digits _ _ h; revert this; decide
  have hd : ∀ d : NaiveDate, 'T' ∉ d.toStr := by
    intro d
    have h2 : ∀ n, 'T' ∉ pad2 n := fun n h => by have := pad2_digits n _ h; revert this; decide
    unfold NaiveDate.toStr
    simp only [List.mem_append, not_or]
    exact ⟨⟨hy _, h2 _⟩, h2 _⟩
  cases x with
  | date d => simp [Date.hasTime, Date.toStr, hd]
  | dateTime t => cases t <;> simp [Date.hasTime, Date.toStr, DateTime.toStr, NaiveDateTime.toStr]

/-! ## Floating date-times as local ones -/

theorem clock_ok {t : NaiveDateTime} (h : ClockTime t) : t.date.Ok := (NaiveDate.ok_iff _).2 h.1

/-- The clocks show `t` at the instant `v` exactly when the seconds say so. -/
theorem localOf_eq_iff {t v : NaiveDateTime} (ht : ClockTime t) : localOf v = t ↔
    v.toSecs + Platform.tzOffset v.toSecs = t.toSecs ∧ v.frac = t.frac := by
  constructor
  · rintro rfl
    exact ⟨(NaiveDateTime.toSecs_shift _ _).symm, rfl⟩
  · rintro ⟨h1, h2⟩
    refine NaiveDateTime.eq_of_toSecs (NaiveDateTime.shift_ok _ _).1 (clock_ok ht) (NaiveDateTime.shift_ok _ _).2 ht.2 ?_ h2
    rw [← h1]; exact NaiveDateTime.toSecs_shift _ _

theorem clock_shift (t : NaiveDateTime) (o : Int) : ClockTime (t.shift o) :=
  ⟨(NaiveDate.ok_iff _).1 (NaiveDateTime.shift_ok t o).1, (NaiveDateTime.shift_ok t o).2⟩

theorem earlier_toSecs {a b : NaiveDateTime} (ha : ClockTime a) (hb : ClockTime b) (hf : a.frac = b.frac) :
    Earlier a b ↔ a.toSecs < b.toSecs := by
  rw [← earlier_iff]
  have key : ∀ {a b : NaiveDateTime}, ClockTime a → ClockTime b → a.frac = b.frac → a.cmp b = .lt → a.toSecs < b.toSecs := by
    intro a b ha hb hf h
    have := ha.2; have := hb.2
    unfold NaiveDateTime.toSecs
    rcases NaiveDateTime.cmp_lt_iff.1 h with h | ⟨h, h' | ⟨h', h''⟩⟩
    · have := NaiveDate.toDays_lt_of_cmp (clock_ok ha) (clock_ok hb) h; omega
    · rw [h]; omega
    · omega
  refine ⟨key ha hb hf, fun h => ?_⟩
  cases hc : a.cmp b with
  | lt => rfl
  | eq => rw [NaiveDateTime.cmp_eq_iff] at hc; subst hc; omega
  | gt => have := key hb ha hf.symm (NaiveDateTime.cmp_gt_iff.1 hc); omega

/-- The instant that is `o` seconds before the seconds of a time. -/
theorem shift_of_secs {t v : NaiveDateTime} {o : Int} (hv : ClockTime v) (h : v.toSecs = t.toSecs - o) (hf : v.frac = t.frac) :
    v = t.shift (-o) :=
  NaiveDateTime.eq_of_toSecs (clock_ok hv) (NaiveDateTime.shift_ok _ _).1 hv.2 (NaiveDateTime.shift_ok _ _).2
    (by rw [NaiveDateTime.toSecs_shift]; omega) hf

/-- **C68**: a floating date-time becomes the earliest instant at which the local clocks show it, provided that all instants at which they do are
in range. -/
theorem C68_to_local (hz : FaithfulZone) (t u : NaiveDateTime) (ht : ClockTime t) :
    (DateTime.naive t).toLocal = .ok u ↔
      ClockTime u ∧ localOf u = t ∧ ∀ v, ClockTime v → localOf v = t → InRange v.date ∧ ¬ Earlier v u := by
  have hz' := hz t.toSecs
  have es : ∀ o, (t.shift (-o)).toSecs = t.toSecs - o := fun o => by rw [NaiveDateTime.toSecs_shift]; omega
  have shows : ∀ o, (t.toSecs - o) + Platform.tzOffset (t.toSecs - o) = t.toSecs → localOf (t.shift (-o)) = t :=
    fun o h => (localOf_eq_iff ht).2 ⟨by rw [es]; exact h, rfl⟩
  unfold DateTime.toLocal localEarliest
  simp only []
  cases hc : Platform.tzLocal t.toSecs with
  | none =>
    rw [hc] at hz'
    simp only [Res.ofOption, reduceCtorEq, false_iff]
    rintro ⟨_, hl, _⟩
    exact hz' _ ((localOf_eq_iff ht).1 hl).1
  | single o =>
    rw [hc] at hz'
    have he : Res.ofOption Error.localTime (utcOf t o) = .ok u ↔ utcOf t o = some u := by cases utcOf t o <;> simp [Res.ofOption]
    refine he.trans ?_
    rw [utcOf_iff]
    constructor
    · rintro ⟨hr, rfl⟩
      refine ⟨clock_shift _ _, shows o ((hz' _).2 rfl), fun v hv hl => ?_⟩
      obtain ⟨p, q⟩ := (localOf_eq_iff ht).1 hl
      obtain rfl := shift_of_secs hv ((hz' _).1 p) q
      exact ⟨hr, fun h => by rw [earlier_toSecs hv hv rfl] at h; omega⟩
    · rintro ⟨hu, hl, h⟩
      obtain ⟨p, q⟩ := (localOf_eq_iff ht).1 hl
      obtain rfl := shift_of_secs hu ((hz' _).1 p) q
      exact ⟨(h _ hu hl).1, rfl⟩
  | ambiguous a b =>
    rw [hc] at hz'
    have he : Res.ofOption Error.localTime (do let u ← utcOf t a; let _ ← utcOf t b; pure u) = .ok u ↔
        utcOf t a = some u ∧ InRange (t.shift (-b)).date := by
      cases h1 : utcOf t a with
      | none => simp [Res.ofOption]
      | some x => cases h2 : utcOf t b with
        | none =>
          have := utcOf_none.1 h2
          simp [Res.ofOption, this]
        | some y =>
          have := (utcOf_iff.1 h2).1
          simp [Res.ofOption, this]
    refine he.trans ?_
    rw [utcOf_iff]
    constructor
    · rintro ⟨⟨hr, rfl⟩, hr2⟩
      refine ⟨clock_shift _ _, shows a ((hz'.2 _).2 (.inl rfl)), fun v hv hl => ?_⟩
      obtain ⟨p, q⟩ := (localOf_eq_iff ht).1 hl
      have h0 := hz'.1
      rcases (hz'.2 _).1 p with h1 | h1
      · obtain rfl := shift_of_secs hv h1 q
        exact ⟨hr, fun h => by rw [earlier_toSecs hv hv rfl] at h; omega⟩
      · obtain rfl := shift_of_secs hv h1 q
        exact ⟨hr2, fun h => by rw [earlier_toSecs (clock_shift t (-b)) (clock_shift t (-a)) rfl, es, es] at h; omega⟩
    · rintro ⟨hu, hl, h⟩
      have ha := h _ (clock_shift t (-a)) (shows a ((hz'.2 _).2 (.inl rfl)))
      have hb := h _ (clock_shift t (-b)) (shows b ((hz'.2 _).2 (.inr rfl)))
      obtain ⟨p, q⟩ := (localOf_eq_iff ht).1 hl
      have h0 := hz'.1
      have h2 := ha.2
      rw [earlier_toSecs (clock_shift _ _) hu q.symm, es] at h2
      have h3 : u.toSecs = t.toSecs - a := by rcases (hz'.2 _).1 p with h1 | h1 <;> omega
      exact ⟨⟨ha.1, shift_of_secs hu h3 q⟩, hb.1⟩

/-- **C68**: the conversion fails exactly for the times the local clocks skip, or show at an instant out of range, and then with the error for
local times. -/
theorem C68_to_local_fails (hz : FaithfulZone) (t : NaiveDateTime) (ht : ClockTime t) :
    ((∀ v, ClockTime v → localOf v ≠ t) ∨ (∃ v, ClockTime v ∧ localOf v = t ∧ ¬ InRange v.date) → (DateTime.naive t).toLocal = .err .localTime) ∧
    ((∃ v, ClockTime v ∧ localOf v = t) → (∀ v, ClockTime v → localOf v = t → InRange v.date) → ∃ u, (DateTime.naive t).toLocal = .ok u) := by
  have hk : (DateTime.naive t).toLocal = .err .localTime ∨ ∃ u, (DateTime.naive t).toLocal = .ok u := by
    show Res.ofOption Error.localTime (localEarliest t) = _ ∨ ∃ u, Res.ofOption Error.localTime (localEarliest t) = .ok u
    cases localEarliest t with
    | none => exact .inl rfl
    | some u => exact .inr ⟨u, rfl⟩
  constructor
  · intro h
    rcases hk with hk | ⟨u, hk⟩
    · exact hk
    · obtain ⟨h1, h2, h3⟩ := (C68_to_local hz t u ht).1 hk
      rcases h with h | ⟨v, hv, hl, hr⟩
      · exact absurd h2 (h u h1)
      · exact absurd (h3 v hv hl).1 hr
  · rintro ⟨v, hv, hl⟩ hr
    have hz' := hz t.toSecs
    obtain ⟨p, q⟩ := (localOf_eq_iff ht).1 hl
    have shows : ∀ o, (t.toSecs - o) + Platform.tzOffset (t.toSecs - o) = t.toSecs → InRange (t.shift (-o)).date := by
      intro o h
      refine hr _ (clock_shift _ _) ((localOf_eq_iff ht).2 ⟨?_, rfl⟩)
      rw [NaiveDateTime.toSecs_shift, show t.toSecs + -o = t.toSecs - o by omega]; exact h
    show ∃ u, Res.ofOption Error.localTime (localEarliest t) = .ok u
    unfold localEarliest
    cases hc : Platform.tzLocal t.toSecs with
    | none => rw [hc] at hz'; exact absurd p (hz' _)
    | single o =>
      rw [hc] at hz'
      exact ⟨_, by simp only [utcOf_iff.2 ⟨shows o ((hz' _).2 rfl), rfl⟩]; rfl⟩
    | ambiguous a b =>
      rw [hc] at hz'
      exact ⟨_, by
        simp only [utcOf_iff.2 ⟨shows a ((hz'.2 _).2 (.inl rfl)), rfl⟩, utcOf_iff.2 ⟨shows b ((hz'.2 _).2 (.inr rfl)), rfl⟩]; rfl⟩

/-- **C68**: a local date-time stays the same instant, and becomes the floating time its clocks show; it panics if that is out of range. -/
theorem C68_local_stays (u t : NaiveDateTime) : (DateTime.loc u).toLocal = .ok u ∧
    ((DateTime.loc u).naive? = some t ↔ InRange (localOf u).date ∧ t = localOf u) := ⟨rfl, naive?_iff⟩

/-- **C68**: made floating and local again, a local date-time is an instant at which the clocks show the same time, and not a
later one; it is the same unless its time is shown twice. -/
theorem C68_there_and_back (hz : FaithfulZone) {u t : NaiveDateTime} (hu : ClockTime u) (ht : (DateTime.loc u).naive? = some t)
    (hr : ∀ v, ClockTime v → localOf v = localOf u → InRange v.date) :
    ∃ v, (DateTime.naive t).toLocal = .ok v ∧ localOf v = localOf u ∧ ¬ Earlier u v ∧
      ((∀ w, ClockTime w → localOf w = localOf u → w = u) → v = u) := by
  obtain ⟨-, rfl⟩ := naive?_iff.1 ht
  have ht : ClockTime (localOf u) := clock_shift _ _
  obtain ⟨v, hv⟩ := (C68_to_local_fails hz _ ht).2 ⟨u, hu, rfl⟩ hr
  obtain ⟨h1, h2, h3⟩ := (C68_to_local hz _ _ ht).1 hv
  exact ⟨v, hv, h2, (h3 u hu rfl).2, fun h => h v h1 h2⟩

/-! ## Arithmetic -/

theorem delta_eq {a b : TimeDelta} (h : a.nanos = b.nanos) : a = b := by cases a; cases b; simp_all

/-- **C68**: `a + d` of a floating date-time is the floating date-time `b` with `b - a = d`; it panics when there is none. -/
theorem C68_add_floating (t : NaiveDateTime) (ht : NoLeapSecond t) (d : TimeDelta) (x : DateTime) :
    (DateTime.naive t).addDur d = some x ↔ ∃ t', x = .naive t' ∧ NoLeapSecond t' ∧ x.since? (.naive t) = some d := by
  have hp := (plain_iff t).1 ht
  unfold DateTime.addDur
  simp only [Option.map_eq_some_iff, NaiveDateTime.add_some hp.2.2]
  constructor
  · rintro ⟨t', ⟨h1, h2⟩, rfl⟩
    refine ⟨t', rfl, (plain_iff _).2 h1, since?_iff.2 ⟨trivial, trivial, delta_eq ?_⟩⟩
    show _ = (t'.since t).nanos
    rw [NaiveDateTime.since_nanos h1.2.2 hp.2.2]; omega
  · rintro ⟨t', rfl, h1, h2⟩
    have h1' := (plain_iff _).1 h1
    refine ⟨t', ⟨h1', ?_⟩, rfl⟩
    have : (t'.since t).nanos = d.nanos := by rw [(since?_iff.1 h2).2.2]; rfl
    rw [NaiveDateTime.since_nanos h1'.2.2 hp.2.2] at this; omega

/-- **C68**: `a + d` of a local date-time is the instant `d` later. -/
theorem C68_add_local (u : NaiveDateTime) (hu : NoLeapSecond u) (d : TimeDelta) (x : DateTime) :
    (DateTime.loc u).addDur d = some x ↔
      ∃ v, x = .loc v ∧ NoLeapSecond v ∧ (DateTime.naive v).since? (.naive u) = some d := by
  have h := fun v => C68_add_floating u hu d (.naive v)
  unfold DateTime.addDur at h ⊢
  simp only [Option.map_eq_some_iff] at h ⊢
  constructor
  · rintro ⟨v, hv, rfl⟩
    obtain ⟨t', e, h1, h2⟩ := (h v).1 ⟨v, hv, rfl⟩
    cases e
    exact ⟨v, rfl, h1, h2⟩
  · rintro ⟨v, rfl, h1, h2⟩
    obtain ⟨w, hw, e⟩ := (h v).2 ⟨v, rfl, h1, h2⟩
    cases e
    exact ⟨v, hw, rfl⟩

/-- **C68**, the limit: subtraction works on wall-clock times, so for local date-times `(a + d) - a` differs from `d` by the
change of the offset of the zone. -/
theorem C68_local_difference (u : NaiveDateTime) (hu : NoLeapSecond u) (d : TimeDelta) (v : NaiveDateTime)
    (h : (DateTime.loc u).addDur d = some (.loc v)) (x : TimeDelta) :
    (DateTime.loc v).since? (.loc u) = some x ↔ OnClock (.loc v) ∧ OnClock (.loc u) ∧
      x.nanos = d.nanos + (Platform.tzOffset v.toSecs - Platform.tzOffset u.toSecs) * 1000000000 := by
  rw [since?_iff]
  refine and_congr_right fun _ => and_congr_right fun _ => ?_
  refine (show x = _ ↔ x.nanos = ((localOf v).since (localOf u)).nanos from ⟨fun h => h ▸ rfl, delta_eq⟩).trans ?_
  suffices h' : ((localOf v).since (localOf u)).nanos =
      d.nanos + (Platform.tzOffset v.toSecs - Platform.tzOffset u.toSecs) * 1000000000 by rw [h']
  obtain ⟨v', e, h1, h2⟩ := (C68_add_local u hu d _).1 h
  cases e
  have a := ((plain_iff _).1 hu).2.2
  have b := ((plain_iff _).1 h1).2.2
  have e1 : ((localOf v).since (localOf u)).nanos = (localOf v).nanos - (localOf u).nanos :=
    NaiveDateTime.since_nanos (show v.frac < _ from b) (show u.frac < _ from a)
  have e2 : (v.since u).nanos = d.nanos := by rw [(since?_iff.1 h2).2.2]; rfl
  rw [NaiveDateTime.since_nanos b a] at e2
  rw [e1]
  unfold NaiveDateTime.nanos at e2 ⊢
  have f1 : (localOf v).toSecs = v.toSecs + Platform.tzOffset v.toSecs := NaiveDateTime.toSecs_shift _ _
  have f2 : (localOf u).toSecs = u.toSecs + Platform.tzOffset u.toSecs := NaiveDateTime.toSecs_shift _ _
  have g1 : (localOf v).frac = v.frac := rfl
  have g2 : (localOf u).frac = u.frac := rfl
  rw [f1, f2, g1, g2]
  omega

/-- **C68**: `a - d` is the floating time `t` with `a - t = d`, whether `a` is floating or local; it panics when there is none. -/
theorem C68_sub (a : DateTime) (ha : NoLeapSecond a.toNaive) (d : TimeDelta) (t : NaiveDateTime) :
    a.subDur d = some t ↔ NoLeapSecond t ∧ a.since? (.naive t) = some d := by
  have hp := (plain_iff _).1 ha
  have ho := onClock_of_range ha.2.1
  unfold DateTime.subDur NaiveDateTime.sub
  rw [naive?_iff.2 ⟨ho, rfl⟩]
  show a.toNaive.add d.neg = some t ↔ _
  rw [NaiveDateTime.add_some hp.2.2, plain_iff]
  refine and_congr_right fun ht => ?_
  rw [since?_iff]
  refine Iff.trans ?_ (show d = a.toNaive.since t ↔ _ from ⟨fun h => ⟨ho, trivial, h⟩, fun h => h.2.2⟩)
  have e : (a.toNaive.since t).nanos = a.toNaive.nanos - t.nanos := NaiveDateTime.since_nanos hp.2.2 ht.2.2
  have e' : d.neg.nanos = -d.nanos := rfl
  constructor
  · intro h; apply delta_eq; omega
  · rintro rfl; omega

/-- **C68**: subtracting a duration undoes adding it to a floating date-time. -/
theorem C68_add_then_sub (t : NaiveDateTime) (ht : NoLeapSecond t) (d : TimeDelta) (x : DateTime)
    (h : (DateTime.naive t).addDur d = some x) : x.subDur d = some t := by
  obtain ⟨t', rfl, h1, h2⟩ := (C68_add_floating t ht d x).1 h
  exact (C68_sub (.naive t') h1 d t).2 ⟨ht, h2⟩

theorem earlier_secs {a b : NaiveDateTime} (ha : ClockTime a) (hb : ClockTime b) :
    Earlier a b ↔ a.toSecs < b.toSecs ∨ a.toSecs = b.toSecs ∧ a.frac < b.frac := by
  have h2 := ha.2; have h3 := hb.2
  rw [← earlier_iff, NaiveDateTime.cmp_lt_iff, NaiveDate.cmp_eq_compare (clock_ok ha) (clock_ok hb), Int.compare_eq_lt]
  have e : a.date = b.date ↔ a.date.toDays = b.date.toDays :=
    ⟨fun h => by rw [h], fun h => NaiveDate.toDays_inj (clock_ok ha) (clock_ok hb) h⟩
  rw [e]
  unfold NaiveDateTime.toSecs
  omega

theorem leap_add {t : NaiveDateTime} (ht : RealTime t) (hl : 1000000000 ≤ t.frac) (d : TimeDelta) :
    t.add d = if d.nanos < -(t.frac : Int) then NaiveDateTime.ofNanos (t.nanos + d.nanos)
      else if (t.frac : Int) + d.nanos < 2000000000 then some ⟨t.date, t.secs, (t.frac + d.nanos).toNat⟩
      else NaiveDateTime.ofNanos (t.nanos - 1000000000 + d.nanos) := by
  have hf := ht.2.2.2
  have hsame : ∀ n : Int, -(t.frac : Int) ≤ n → t.frac + n < 1000000000 →
      NaiveDateTime.ofNanos (t.nanos + n) = some ⟨t.date, t.secs, (t.frac + n).toNat⟩ := by
    intro n h1 h2
    rw [NaiveDateTime.ofNanos_some]
    refine ⟨⟨(valid_iff _).2 ⟨ht.2.1, ht.1⟩, ht.2.2.1, by show (_ : Int).toNat < _; omega⟩, ?_⟩
    show t.toSecs * 1000000000 + (((t.frac + n).toNat : Nat) : Int) = t.toSecs * 1000000000 + t.frac + n
    omega
  obtain ⟨n⟩ := d
  unfold NaiveDateTime.add TimeDelta.numSeconds TimeDelta.subsecNanos TimeDelta.nps
  simp only
  rw [if_pos (show (t.frac : Int) ≥ 1000000000 by omega)]
  have hq := Int.mul_tdiv_add_tmod n 1000000000
  have hm1 : n.tmod 1000000000 < 1000000000 := Int.tmod_lt_of_pos n (by decide)
  have hm2 : -1000000000 < n.tmod 1000000000 := Int.lt_tmod_of_pos n (by decide)
  have hs1 : 0 < n.tdiv 1000000000 → 0 ≤ n.tmod 1000000000 := fun h =>
    Int.tmod_nonneg _ (by
      refine Classical.byContradiction fun hn => ?_
      have : n.tdiv 1000000000 ≤ 0 := by
        have := Int.tdiv_nonneg (a := -n) (b := 1000000000) (by omega) (by decide)
        rw [Int.neg_tdiv] at this; omega
      omega)
  have hs2 : n.tdiv 1000000000 < 0 → n.tmod 1000000000 ≤ 0 := fun h => by
    refine Classical.byContradiction fun hn => ?_
    rcases Int.lt_or_le n 0 with h0 | h0
    · have := Int.tmod_nonneg (a := -n) 1000000000 (by omega)
      rw [Int.neg_tmod] at this; omega
    · have := Int.tdiv_nonneg (a := n) (b := 1000000000) h0 (by decide); omega
  generalize n.tdiv 1000000000 = q at *
  generalize n.tmod 1000000000 = m at *
  subst hq
  unfold NaiveDateTime.ofNanos NaiveDateTime.nanos
  have key : ∀ s f : Int, 0 ≤ f → f < 1000000000 → ∀ x : Int, (t.date.toDays * 86400 + s) * 1000000000 + f = x →
      NaiveDateTime.ofSecs (t.date.toDays * 86400 + s) f.toNat =
      NaiveDateTime.ofSecs (x / 1000000000) (x % 1000000000).toNat := by
    intro s f h1 h2 x h3
    have e1 : x / 1000000000 = t.date.toDays * 86400 + s := by omega
    have e2 : x % 1000000000 = f := by omega
    rw [e1, e2]
  have hts : t.toSecs = t.date.toDays * 86400 + t.secs := rfl
  by_cases h1 : q > 0 ∨ m > 0 ∧ (t.frac : Int) ≥ 2000000000 - m
  · rw [if_pos h1]
    refine Eq.trans ?_ (Eq.symm (Eq.trans (if_neg (by omega)) (if_neg (by omega))))
    split
    · exact key _ _ (by omega) (by omega) _ (by omega)
    · split
      · exact key _ _ (by omega) (by omega) _ (by omega)
      · exact key _ _ (by omega) (by omega) _ (by omega)
  rw [if_neg h1]
  by_cases h2 : q < 0
  · rw [if_pos h2]
    refine Eq.trans (b := NaiveDateTime.ofNanos (t.nanos + (1000000000 * q + m))) ?_ ?_
    · unfold NaiveDateTime.ofNanos NaiveDateTime.nanos
      split
      · exact key _ _ (by omega) (by omega) _ (by omega)
      · split
        · exact key _ _ (by omega) (by omega) _ (by omega)
        · exact key _ _ (by omega) (by omega) _ (by omega)
    · by_cases h3 : 1000000000 * q + m < -(t.frac : Int)
      · rw [if_pos h3]; rfl
      · rw [if_neg h3, if_pos (by omega)]
        exact hsame _ (by omega) (by omega)
  · have : q = 0 := by omega
    subst this
    rw [if_neg h2, if_neg (by omega), if_pos (by omega)]
    simp

theorem leap_since {t y : NaiveDateTime} (hl : 1000000000 ≤ t.frac) (hf : t.frac < 2000000000) (hy : y.frac < 1000000000) :
    (y.since ⟨t.date, t.secs, t.frac - 1000000000⟩).nanos = y.nanos - t.nanos + 1000000000 := by
  rw [NaiveDateTime.since_nanos hy (by show t.frac - 1000000000 < _; omega)]
  unfold NaiveDateTime.nanos NaiveDateTime.toSecs
  simp only
  omega

theorem leap_add_iff {t : NaiveDateTime} (ht : RealTime t) (hl : 1000000000 ≤ t.frac) (d : TimeDelta) (y : NaiveDateTime) :
    t.add d = some y ↔ AfterLeap t d.nanos y := by
  have hf := ht.2.2.2
  have hts : t.nanos = t.toSecs * 1000000000 + t.frac := rfl
  have hc : ∀ f, ClockTime ⟨t.date, t.secs, f⟩ := fun f => ⟨ht.1, ht.2.2.1⟩
  have he : ∀ f, NaiveDateTime.toSecs ⟨t.date, t.secs, f⟩ = t.toSecs := fun _ => rfl
  have hys : y.nanos = y.toSecs * 1000000000 + y.frac := rfl
  rw [leap_add ht hl d]
  have h1 : NoLeapSecond y → (Earlier ⟨t.date, t.secs, 1999999999⟩ y ↔ t.toSecs < y.toSecs) := fun hy => by
    rw [earlier_secs (hc _) ⟨hy.1, hy.2.2.1⟩, he]; have := hy.2.2.2; show _ ∨ _ ∧ 1999999999 < y.frac ↔ _; omega
  have h2 : NoLeapSecond y → (Earlier y ⟨t.date, t.secs, 0⟩ ↔ y.toSecs < t.toSecs) := fun hy => by
    rw [earlier_secs ⟨hy.1, hy.2.2.1⟩ (hc _), he]; show _ ∨ _ ∧ y.frac < 0 ↔ _; omega
  have h3 : NoLeapSecond y → _ := fun hy => leap_since (t := t) hl hf hy.2.2.2
  have h4 : y.date = t.date ∧ y.secs = t.secs → y.toSecs = t.toSecs := fun h => by unfold NaiveDateTime.toSecs; rw [h.1, h.2]
  unfold AfterLeap
  split
  · next hd =>
    rw [NaiveDateTime.ofNanos_some, ← plain_iff]
    constructor
    · rintro ⟨hy, hn⟩
      have := hy.2.2.2
      exact .inr (.inr ⟨hy, (h2 hy).2 (by omega), by rw [h3 hy]; omega⟩)
    · rintro (⟨ha, hb, hc, hd⟩ | ⟨hy, ha, hb⟩ | ⟨hy, ha, hb⟩)
      · omega
      · have := hy.2.2.2
        rw [h1 hy] at ha; rw [h3 hy] at hb; omega
      · rw [h3 hy] at hb; exact ⟨hy, by omega⟩
  · split
    · next hd hd' =>
      rw [Option.some.injEq]
      constructor
      · rintro rfl
        exact .inl ⟨rfl, rfl, by show (_ : Int).toNat < _; omega, by show (((_ : Int).toNat : Nat) : Int) = _; omega⟩
      · rintro (⟨ha, hb, hc, hd⟩ | ⟨hy, ha, hb⟩ | ⟨hy, ha, hb⟩)
        · obtain ⟨yd, ys, yf⟩ := y
          simp only at ha hb hc hd ⊢
          subst ha; subst hb
          congr 1
          omega
        · have := hy.2.2.2
          rw [h1 hy] at ha; rw [h3 hy] at hb; omega
        · have := hy.2.2.2
          rw [h2 hy] at ha; rw [h3 hy] at hb; omega
    · next hd hd' =>
      rw [NaiveDateTime.ofNanos_some, ← plain_iff]
      constructor
      · rintro ⟨hy, hn⟩
        have := hy.2.2.2
        exact .inr (.inl ⟨hy, (h1 hy).2 (by omega), by rw [h3 hy]; omega⟩)
      · rintro (⟨ha, hb, hc, hd⟩ | ⟨hy, ha, hb⟩ | ⟨hy, ha, hb⟩)
        · omega
        · rw [h3 hy] at hb; exact ⟨hy, by omega⟩
        · have := hy.2.2.2
          rw [h2 hy] at ha; rw [h3 hy] at hb; omega

/-- **C68**, in a leap second: `a + d` of a floating date-time moves the wall clock by exactly the duration, counting this leap second; it panics
when there is no such time. -/
theorem C68_add_leap_second {t : NaiveDateTime} (ht : RealTime t) (hl : 1000000000 ≤ t.frac) (d : TimeDelta) (x : DateTime) :
    ((DateTime.naive t).addDur d = some x ↔ ∃ y, x = .naive y ∧ AfterLeap t d.nanos y) ∧
    ((DateTime.loc t).addDur d = some x ↔ ∃ y, x = .loc y ∧ AfterLeap t d.nanos y) := by
  constructor <;>
  · unfold DateTime.addDur
    simp only [Option.map_eq_some_iff, leap_add_iff ht hl]
    constructor
    · rintro ⟨y, h, rfl⟩; exact ⟨y, rfl, h⟩
    · rintro ⟨y, rfl, h⟩; exact ⟨y, h, rfl⟩

/-- **C68**, in a leap second: `a - d` moves the wall clock back by exactly the duration, counting this leap second. -/
theorem C68_sub_leap_second {a : DateTime} (ha : RealTime a.toNaive) (hl : 1000000000 ≤ a.toNaive.frac) (d : TimeDelta) (t : NaiveDateTime) :
    a.subDur d = some t ↔ AfterLeap a.toNaive (-d.nanos) t := by
  unfold DateTime.subDur NaiveDateTime.sub
  rw [naive?_iff.2 ⟨onClock_of_range ha.2.1, rfl⟩]
  exact leap_add_iff ha hl d.neg t

/-- **C68**, with leap seconds: the difference of two date-times is that of their midnights and that of their times of day; from an earlier time of day
to a later one it is the rest of its second (which lasts two if it is in a leap second), the seconds between and the part of the second that has passed. It
is the opposite from the later to the earlier. -/
theorem C68_difference_leap_second (a b : DateTime) (ha : OnClock a) (hb : OnClock b) :
    ∃ d r days, b.since? a = some d ∧ a.since? b = some r ∧ r.nanos = -d.nanos ∧
      (DateTime.naive ⟨b.toNaive.date, 0, 0⟩).since? (.naive ⟨a.toNaive.date, 0, 0⟩) = some days ∧
      (a.toNaive.secs < b.toNaive.secs → d.nanos = days.nanos + restOfSecond a.toNaive
        + (b.toNaive.secs - a.toNaive.secs - 1) * 1000000000 + b.toNaive.frac) ∧
      (a.toNaive.secs = b.toNaive.secs → d.nanos = days.nanos + (b.toNaive.frac - a.toNaive.frac)) := by
  refine ⟨_, _, _, since?_iff.2 ⟨hb, ha, rfl⟩, since?_iff.2 ⟨ha, hb, rfl⟩, ?_, since?_iff.2 ⟨trivial, trivial, rfl⟩, ?_, ?_⟩
  · generalize a.toNaive = a, b.toNaive = b
    unfold NaiveDateTime.since
    simp only
    repeat' split
    all_goals omega
  · generalize a.toNaive = a, b.toNaive = b
    intro h
    show (b.since a).nanos = (NaiveDateTime.since ⟨b.date, 0, 0⟩ ⟨a.date, 0, 0⟩).nanos + _ + _ + _
    unfold NaiveDateTime.since restOfSecond
    simp only
    repeat' split
    all_goals omega
  · generalize a.toNaive = a, b.toNaive = b
    intro h
    show (b.since a).nanos = (NaiveDateTime.since ⟨b.date, 0, 0⟩ ⟨a.date, 0, 0⟩).nanos + _
    unfold NaiveDateTime.since
    simp only
    repeat' split
    all_goals omega

/-- **C68**: subtracting two date-times, and subtracting a duration from one, panics if a wall-clock time is out of range. -/
theorem C68_out_of_range (a b : DateTime) (d : TimeDelta) :
    (a.since? b = none ↔ ¬ (OnClock a ∧ OnClock b)) ∧ (¬ OnClock a → a.subDur d = none) := by
  refine ⟨none_iff_of (v := a.toNaive.since b.toNaive) fun x => since?_iff.trans and_assoc.symm, fun h => ?_⟩
  have : a.naive? = none := (none_iff_of fun _ => naive?_iff).2 h
  simp [DateTime.subDur, this]

/-- **C68**: differences are signed lengths: they are antisymmetric, add up, and are negative, zero or positive as the
comparison says. -/
theorem C68_difference (a b c : DateTime) (ha : NoLeapSecond a.toNaive) (hb : NoLeapSecond b.toNaive) (hc : NoLeapSecond c.toNaive) :
    ∃ ab ba bc ac, a.since? b = some ab ∧ b.since? a = some ba ∧ b.since? c = some bc ∧ a.since? c = some ac ∧
      ba.nanos = -ab.nanos ∧ ac.nanos = ab.nanos + bc.nanos ∧
      (a.cmp? b = some .lt ↔ ab.nanos < 0) ∧ (a.cmp? b = some .eq ↔ ab.nanos = 0) ∧ (a.cmp? b = some .gt ↔ 0 < ab.nanos) := by
  have oa := onClock_of_range ha.2.1
  have ob := onClock_of_range hb.2.1
  have oc := onClock_of_range hc.2.1
  refine ⟨_, _, _, _, since?_iff.2 ⟨oa, ob, rfl⟩, since?_iff.2 ⟨ob, oa, rfl⟩, since?_iff.2 ⟨ob, oc, rfl⟩, since?_iff.2 ⟨oa, oc, rfl⟩, ?_⟩
  rw [plain_iff] at ha hb hc
  have e : ∀ {x y : NaiveDateTime}, x.Plain → y.Plain → (x.since y).nanos = x.nanos - y.nanos :=
    fun hx hy => NaiveDateTime.since_nanos hx.2.2 hy.2.2
  rw [e hb ha, e ha hb, e ha hc, e hb hc]
  have : a.cmp? b = some (compare a.toNaive.nanos b.toNaive.nanos) := DateTime.cmp?_iff.2 ⟨oa, ob, (NaiveDateTime.cmp_plain ha hb).symm⟩
  rw [this, Option.some.injEq, Option.some.injEq, Option.some.injEq, Int.compare_eq_lt, Int.compare_eq_eq, Int.compare_eq_gt]
  refine ⟨by omega, by omega, ?_, ?_, ?_⟩ <;> omega

/-- **C68**: adding a duration to a date adds its whole days and drops the rest, in the direction of zero; it panics when the
result is out of range. -/
theorem C68_date_add (d : NaiveDate) (hd : RealDate d) (hr : InRange d) (x : TimeDelta) (y : Date) (n : Nat) :
    (n * 86400000000000 ≤ x.nanos → x.nanos < (n + 1) * 86400000000000 →
      ((Date.date d).addDur x = some y ↔ y = .date (daysLater n d) ∧ InRange (daysLater n d))) ∧
    (x.nanos ≤ -(n * 86400000000000) → -((n + 1) * 86400000000000) < x.nanos →
      ((Date.date d).addDur x = some y ↔ ∃ e, y = .date e ∧ RealDate e ∧ InRange e ∧ daysLater n e = d)) := by
  have hv := (valid_iff d).2 ⟨hr, hd⟩
  constructor
  · intro h1 h2
    have e : x.numSeconds.tdiv 86400 = n := by
      unfold TimeDelta.numSeconds TimeDelta.nps
      rw [Int.tdiv_eq_ediv_of_nonneg (a := x.nanos) (by omega), Int.tdiv_eq_ediv_of_nonneg (by omega)]; omega
    unfold Date.addDur
    simp only [e, Option.map_eq_some_iff]
    obtain ⟨a, b⟩ := C66_add_days d hv n
    by_cases hin : InRange (daysLater n d)
    · rw [a hin]; simp [hin, eq_comm]
    · rw [b hin]; simp [hin]
  · intro h1 h2
    have e : x.numSeconds.tdiv 86400 = -(n : Int) := by
      unfold TimeDelta.numSeconds TimeDelta.nps
      obtain ⟨m, hm⟩ : ∃ m : Int, x.nanos = -m := ⟨-x.nanos, by omega⟩
      rw [hm, Int.neg_tdiv, Int.neg_tdiv, Int.tdiv_eq_ediv_of_nonneg (a := m) (by omega), Int.tdiv_eq_ediv_of_nonneg (by omega)]; omega
    unfold Date.addDur
    simp only [e, Option.map_eq_some_iff, C66_sub_days d hv n]
    constructor
    · rintro ⟨a, ⟨h1, h2, h3⟩, rfl⟩; exact ⟨a, rfl, h2, h1, h3⟩
    · rintro ⟨a, rfl, h1, h2, h3⟩; exact ⟨a, ⟨h2, h1, h3⟩, rfl⟩

end

/-! ## Examples -/

section
/-- A zone with one summer: one hour east of UTC, two hours from second 1000000 to second 2000000. -/
def summerOffset (n : Int) : Int := if 1000000 ≤ n ∧ n < 2000000 then 7200 else 3600

/-- How that zone reads wall-clock times. -/
def summerRead (m : Int) : LocalResult :=
  if m < 1003600 then .single 3600 else if m < 1007200 then .none else if m < 2003600 then .single 7200
  else if m < 2007200 then .ambiguous 7200 3600 else .single 3600

@[reducible] def summerZone : Platform := { fixedZone 3600 with tzOffset := summerOffset, tzLocal := summerRead }

attribute [local instance] summerZone

/-- The hypothesis on zones is met by one that skips an hour and repeats another. -/
theorem summerZone_faithful : FaithfulZone := by
  intro m
  have h : ∀ n, Platform.tzOffset n = if 1000000 ≤ n ∧ n < 2000000 then 7200 else 3600 := fun _ => rfl
  show match summerRead m with
    | .none => ∀ n : Int, n + Platform.tzOffset n ≠ m
    | .single o => ∀ n : Int, n + Platform.tzOffset n = m ↔ n = m - o
    | .ambiguous a b => b ≤ a ∧ ∀ n : Int, n + Platform.tzOffset n = m ↔ n = m - a ∨ n = m - b
  simp only [h]
  unfold summerRead
  by_cases h1 : m < 1003600
  · simp only [h1, if_true]; intro n; split <;> omega
  by_cases h2 : m < 1007200
  · simp only [h1, h2, if_true, if_false]; intro n; split <;> omega
  by_cases h3 : m < 2003600
  · simp only [h1, h2, h3, if_true, if_false]; intro n; split <;> omega
  by_cases h4 : m < 2007200
  · simp only [h1, h2, h3, h4, if_true, if_false]; refine ⟨by omega, fun n => ?_⟩; split <;> omega
  · simp only [h1, h2, h3, h4, if_false]; intro n; split <;> omega

/-- Skipped, repeated and ordinary times (days 11, 23 and 5 of year 0). -/
example : (DateTime.naive ⟨⟨0, 1, 12⟩, 54000, 0⟩).toLocal = .err .localTime ∧
    (DateTime.naive ⟨⟨0, 1, 24⟩, 17000, 5⟩).toLocal = .ok ⟨⟨0, 1, 24⟩, 9800, 5⟩ ∧
    (DateTime.naive ⟨⟨0, 1, 6⟩, 17000, 5⟩).toLocal = .ok ⟨⟨0, 1, 6⟩, 13400, 5⟩ := by decide
/-- In this zone the clocks go beyond the range of years at the end of it. -/
example : ¬ OnClock (.loc ⟨⟨262142, 12, 31⟩, 86399, 0⟩) ∧ (DateTime.loc ⟨⟨262142, 12, 31⟩, 86399, 0⟩).naive? = none ∧
    (DateTime.naive ⟨⟨-262143, 1, 1⟩, 0, 0⟩).toLocal = .err .localTime := by
  unfold OnClock InRange; decide +kernel
/-- Adding a day over the start of summer moves the clock by 25 hours. -/
example : (DateTime.loc ⟨⟨0, 1, 12⟩, 0, 0⟩).addDur ⟨86400000000000⟩ = some (.loc ⟨⟨0, 1, 13⟩, 0, 0⟩) ∧
    (DateTime.loc ⟨⟨0, 1, 13⟩, 0, 0⟩).since? (.loc ⟨⟨0, 1, 12⟩, 0, 0⟩) = some ⟨90000000000000⟩ ∧
    NoLeapSecond ⟨⟨0, 1, 12⟩, 0, 0⟩ := by unfold NoLeapSecond RealDate InRange; decide
/-- Half a second and a whole second from the middle of the leap second 23:59:60, both ways. -/
example : (DateTime.naive ⟨⟨2016, 12, 31⟩, 86399, 1500000000⟩).addDur ⟨500000000⟩ = some (.naive ⟨⟨2017, 1, 1⟩, 0, 0⟩) ∧
    (DateTime.naive ⟨⟨2016, 12, 31⟩, 86399, 1500000000⟩).addDur ⟨1000000000⟩ = some (.naive ⟨⟨2017, 1, 1⟩, 0, 500000000⟩) ∧
    (DateTime.naive ⟨⟨2016, 12, 31⟩, 86399, 1500000000⟩).subDur ⟨1000000000⟩ = some ⟨⟨2016, 12, 31⟩, 86399, 500000000⟩ ∧
    (DateTime.naive ⟨⟨2016, 12, 31⟩, 86399, 1500000000⟩).subDur ⟨2000000000⟩ = some ⟨⟨2016, 12, 31⟩, 86398, 500000000⟩ ∧
    RealTime ⟨⟨2016, 12, 31⟩, 86399, 1500000000⟩ := by unfold RealTime RealDate InRange; decide
/-- From the leap second 11:59:60 to noon it is a second, both ways. -/
example : (DateTime.naive ⟨⟨2016, 12, 31⟩, 43200, 0⟩).since? (.naive ⟨⟨2016, 12, 31⟩, 43199, 1000000000⟩) = some ⟨1000000000⟩ ∧
    (DateTime.naive ⟨⟨2016, 12, 31⟩, 43199, 1000000000⟩).since? (.naive ⟨⟨2016, 12, 31⟩, 43200, 0⟩) = some ⟨-1000000000⟩ := by decide
example : (Date.date ⟨2024, 2, 28⟩).addDur ⟨172799000000000⟩ = some (.date ⟨2024, 2, 29⟩) ∧
    (Date.date ⟨2024, 2, 28⟩).addDur ⟨-86399000000000⟩ = some (.date ⟨2024, 2, 28⟩) ∧
    (Date.date ⟨262142, 12, 31⟩).addDur ⟨86400000000000⟩ = none := by decide
example : (Date.date ⟨2024, 2, 28⟩).toDateTime = .naive ⟨⟨2024, 2, 28⟩, 0, 0⟩ ∧ Date.default.toStr = c!"19700101T000000" := by decide
example : (DateTime.naive ⟨⟨2024, 2, 28⟩, 10, 0⟩).addDur ⟨86400000000001⟩ = some (.naive ⟨⟨2024, 2, 29⟩, 10, 1⟩) ∧
    (DateTime.naive ⟨⟨2024, 2, 29⟩, 10, 1⟩).subDur ⟨86400000000001⟩ = some ⟨⟨2024, 2, 28⟩, 10, 0⟩ := by decide
end

end Ikal
