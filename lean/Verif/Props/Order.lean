import Verif.Props.Calendar
import Verif.Props.Duration
import Verif.Lemmas.Arith
import Verif.TestPlatform

/-! # C38 – C42: periods, comparison of date-times, dates and periods -/

set_option linter.unusedSectionVars false
set_option linter.unusedSimpArgs false

namespace Ikal

open Nom Spec

section
variable [Platform]

theorem plain_iff (t : NaiveDateTime) : NoLeapSecond t ↔ t.Plain := by
  unfold NoLeapSecond NaiveDateTime.Plain
  rw [valid_iff]
  constructor
  · rintro ⟨a, b, c, d⟩; exact ⟨⟨b, a⟩, c, d⟩
  · rintro ⟨⟨a, b⟩, c, d⟩; exact ⟨b, a, c, d⟩

theorem localOf_plain {u : NaiveDateTime} (hw : WholeSecond u) (hz : Platform.tzOffset u.toSecs = 0) : localOf u = u := by
  unfold localOf
  rw [hz]
  exact NaiveDateTime.shift_zero ((NaiveDate.ok_iff _).2 hw.1) hw.2.1

/-- The reader of date-times gives the plain ones back. -/
theorem dateTime_plain {t : DateTime} (h : PlainDateTime t) : dateTime t.toStr = .ok [] t := by
  cases t with
  | naive t =>
    obtain ⟨h1, h2⟩ := h
    rw [DateTime.toStr, dateTime_toStr h1 h2.any, truncated_whole h2]
  | loc u =>
    obtain ⟨h1, h2, h3⟩ := h
    rw [DateTime.toStr, localOf_plain h2 h3, dateTime_toStrZ h1 h2.any, truncated_whole h2]

theorem noSlash_pad2 (n : Nat) : ∀ c ∈ pad2 n, c ≠ '/' ∧ c ≠ ',' := by
  intro c hc
  have := pad2_digits n c hc
  constructor <;> (rintro rfl; simp at this)

theorem noSlash_pad4 (n : Nat) : ∀ c ∈ pad4 n, c ≠ '/' ∧ c ≠ ',' := by
  intro c hc
  have := pad4_digits n c hc
  constructor <;> (rintro rfl; simp at this)

theorem noSlash_natStr (n : Nat) : ∀ c ∈ natStr n, c ≠ '/' ∧ c ≠ ',' := by
  intro c hc
  have := natStr_digits n c hc
  constructor <;> (rintro rfl; simp at this)

theorem noSlash_date (d : NaiveDate) : ∀ c ∈ d.toStr, c ≠ '/' ∧ c ≠ ',' := by
  intro c hc
  unfold NaiveDate.toStr yearStr at hc
  simp only [List.mem_append] at hc
  rcases hc with (hc | hc) | hc
  · split at hc
    · exact noSlash_pad4 _ c hc
    · simp only [List.mem_cons] at hc
      rcases hc with hc | hc
      · subst hc; split <;> decide
      · split at hc
        · exact noSlash_pad4 _ c hc
        · exact noSlash_natStr _ c hc
  · exact noSlash_pad2 _ c hc
  · exact noSlash_pad2 _ c hc

theorem noSlash_naive (t : NaiveDateTime) : ∀ c ∈ t.toStr, c ≠ '/' ∧ c ≠ ',' := by
  intro c hc
  unfold NaiveDateTime.toStr timeStr at hc
  simp only [List.mem_append, List.mem_cons] at hc
  rcases hc with hc | hc | ((hc | hc) | hc)
  · exact noSlash_date _ c hc
  · subst hc; decide
  · exact noSlash_pad2 _ c hc
  · exact noSlash_pad2 _ c hc
  · exact noSlash_pad2 _ c hc

/-- The text of a date-time has neither a slash nor a comma. -/
theorem noSlash_dateTime (t : DateTime) : ∀ c ∈ t.toStr, c ≠ '/' ∧ c ≠ ',' := by
  intro c hc
  cases t with
  | naive t => exact noSlash_naive t c hc
  | loc u =>
    simp only [DateTime.toStr, List.mem_append, List.mem_singleton] at hc
    rcases hc with hc | hc
    · exact noSlash_naive _ c hc
    · subst hc; decide

theorem splitSlash_append {a : Str} (h : ∀ c ∈ a, c ≠ '/') (b : Str) : splitSlash (a ++ '/' :: b) = (a, some b) := by
  unfold splitSlash
  have h1 : (a ++ '/' :: b).dropWhile (fun c => decide (c ≠ '/')) = '/' :: b := by
    induction a with
    | nil => simp
    | cons c a ih =>
      rw [List.cons_append, List.dropWhile_cons, if_pos (by simp [h c])]
      exact ih fun c hc => h c (by simp [hc])
  have h2 : (a ++ '/' :: b).takeWhile (fun c => decide (c ≠ '/')) = a := by
    clear h1
    induction a with
    | nil => simp
    | cons c a ih =>
      rw [List.cons_append, List.takeWhile_cons, if_pos (by simp [h c])]
      rw [ih fun c hc => h c (by simp [hc])]
  rw [h1]
  simp only [h2]

theorem splitSlash_none {a : Str} (h : ∀ c ∈ a, c ≠ '/') : splitSlash a = (a, none) := by
  unfold splitSlash
  have h1 : a.dropWhile (fun c => decide (c ≠ '/')) = [] := by
    induction a with
    | nil => rfl
    | cons c a ih =>
      rw [List.dropWhile_cons, if_pos (by simp [h c])]
      exact ih fun c hc => h c (by simp [hc])
  rw [h1]

theorem period_split {a b : Str} (h : ∀ c ∈ a, c ≠ '/') {t : DateTime} (ht : dateTime a = .ok [] t) :
    period (a ++ '/' :: b) = if b.head? = some 'P' then (duration (ContentLine.ofValue b)).map (.startDur t)
      else (dateTime b).toRes.map (.startEnd t) := by
  unfold period
  rw [splitSlash_append h]
  simp only [ht, NRes.toRes, Res.bind_ok]
  split
  · cases duration (ContentLine.ofValue b) <;> rfl
  · cases (dateTime b).toRes <;> rfl

theorem toStr_head_digit {t : NaiveDateTime} (h : FourDigitYear t.date) : ∃ c r, t.toStr = c :: r ∧ c.isDigit = true := by
  unfold NaiveDateTime.toStr NaiveDate.toStr yearStr
  obtain ⟨a, b⟩ := h
  rw [if_pos ⟨a, b⟩]
  have := pad4_digits t.date.year.toNat
  unfold pad4 at *
  exact ⟨_, _, rfl, this _ (by simp)⟩

theorem toStr_head_P {t : DateTime} (h : PlainDateTime t) : t.toStr.head? ≠ some 'P' := by
  have key : ∀ {t : NaiveDateTime}, FourDigitYear t.date → ∀ s, (t.toStr ++ s).head? ≠ some 'P' := by
    intro t ht s
    obtain ⟨c, r, h1, h2⟩ := toStr_head_digit ht
    rw [h1]
    simp only [List.cons_append, List.head?_cons, ne_eq, Option.some.injEq]
    rintro rfl; simp at h2
  cases t with
  | naive t => have := key h.1 []; rwa [List.append_nil] at this
  | loc u =>
    rw [DateTime.toStr, localOf_plain h.2.1 h.2.2]
    exact key h.1 _

/-- **C38**: a period given by its start and its end prints to a text that is read back to it. -/
theorem C38_start_end (s e : DateTime) (hs : PlainDateTime s) (he : PlainDateTime e) :
    period (Period.startEnd s e).toStr = .ok (.startEnd s e) := by
  unfold Period.toStr
  simp only
  rw [period_split (fun c hc => (noSlash_dateTime s c hc).1) (dateTime_plain hs), if_neg (toStr_head_P he), dateTime_plain he]
  rfl

theorem toStr_delta_head {d : TimeDelta} : d.toStr.head? = if d.nanos < 0 then some '-' else some 'P' := by
  unfold TimeDelta.toStr
  simp only
  split
  · next h => rw [if_neg (by omega)]; rfl
  · split <;> rfl

/-- **C38**: so does a period given by its start and a duration of a whole, non-negative number of seconds. -/
theorem C38_start_duration (s : DateTime) (hs : PlainDateTime s) (d : TimeDelta) (hd : WholeDuration d) (h0 : 0 ≤ d.nanos) :
    period (Period.startDur s d).toStr = .ok (.startDur s d) := by
  unfold Period.toStr
  simp only
  rw [period_split (fun c hc => (noSlash_dateTime s c hc).1) (dateTime_plain hs), if_pos, C31_round_trip d hd.1 hd.2 _ rfl]
  · rfl
  · rw [toStr_delta_head, if_neg (by omega)]

theorem trimEndZ_toStr_delta {d : TimeDelta} (h : d.nanos < 0) : ∃ r, trimEndZ d.toStr = '-' :: 'P' :: r := by
  have e : d.toStr = '-' :: 'P' :: 'T' :: (natStr (d.nanos.natAbs / 1000000000) ++
      (if d.nanos.natAbs % 1000000000 = 0 then [] else '.' :: TimeDelta.fracDigits (d.nanos.natAbs % 1000000000))) ++ ['S'] := by
    unfold TimeDelta.toStr
    simp only [if_neg (show ¬ d.nanos.natAbs = 0 by omega), if_pos h]
    simp
  rw [e]
  unfold trimEndZ
  rw [List.reverse_append]
  simp

/-- **C38**: a period with a negative duration prints to a text that is not accepted. -/
theorem C38_negative_rejected (s : DateTime) (hs : PlainDateTime s) (d : TimeDelta) (h0 : d.nanos < 0) :
    period (Period.startDur s d).toStr = .err .parser := by
  unfold Period.toStr
  simp only
  rw [period_split (fun c hc => (noSlash_dateTime s c hc).1) (dateTime_plain hs), if_neg]
  · obtain ⟨r, hr⟩ := trimEndZ_toStr_delta h0
    unfold dateTime
    rw [hr]
    have : parseNaiveDateTime [] ('-' :: 'P' :: r) = none := by
      have hw : trimStart ('-' :: 'P' :: r) = '-' :: 'P' :: r := by
        unfold trimStart; rw [List.dropWhile_cons, if_neg (by decide)]
      have hy : scanYear ('-' :: 'P' :: r) = none := by
        unfold scanYear
        rw [hw]
        simp only
        have : scanNumber ('P' :: r).length ('P' :: r) = none := by
          unfold scanNumber
          simp
        rw [this]; rfl
      unfold parseNaiveDateTime scanYmd
      rw [hy]
    rw [this]
    rfl
  · rw [toStr_delta_head, if_pos h0]; simp

/-! ## Dates whose wall-clock time can be represented -/

theorem representable_iff (d : NaiveDate) : d.representable = true ↔ InRange d := by
  unfold NaiveDate.representable InRange minYear maxYear; exact decide_eq_true_iff

theorem dateTime_shown (t : DateTime) : t.shown = true ↔ OnClock t := by
  cases t with
  | naive t => exact ⟨fun _ => trivial, fun _ => rfl⟩
  | loc u => exact representable_iff _

theorem date_shown (d : Date) : d.shown = true ↔ OnCalendar d := by
  cases d with
  | date d => exact ⟨fun _ => trivial, fun _ => rfl⟩
  | dateTime t => exact dateTime_shown t

theorem onClock_of_range {t : DateTime} (h : InRange t.toNaive.date) : OnClock t := by
  cases t with
  | naive t => trivial
  | loc u => exact h

theorem naive?_iff {t : DateTime} {x : NaiveDateTime} : t.naive? = some x ↔ OnClock t ∧ x = t.toNaive := by
  unfold DateTime.naive?
  rw [← dateTime_shown]
  by_cases h : t.shown = true
  · rw [if_pos h]; simp [h, eq_comm]
  · rw [if_neg h]; simp [h]

theorem DateTime.dateNaive?_iff {t : DateTime} {x : NaiveDate} : t.dateNaive? = some x ↔ OnClock t ∧ x = t.dateNaive := by
  unfold DateTime.dateNaive?
  rw [← dateTime_shown]
  by_cases h : t.shown = true
  · rw [if_pos h]; simp [h, eq_comm]
  · rw [if_neg h]; simp [h]

theorem Date.dateNaive?_iff {d : Date} {x : NaiveDate} : d.dateNaive? = some x ↔ OnCalendar d ∧ x = d.dateNaive := by
  cases d with
  | date d => simp [Date.dateNaive?, OnCalendar, Date.dateNaive, eq_comm]
  | dateTime t => exact DateTime.dateNaive?_iff

theorem DateTime.cmp?_iff {a b : DateTime} {o : Ordering} : a.cmp? b = some o ↔ OnClock a ∧ OnClock b ∧ o = a.cmp b := by
  simp only [DateTime.cmp?, bind, Option.bind_eq_some_iff, naive?_iff, pure, Option.some.injEq]
  constructor
  · rintro ⟨x, ⟨h1, rfl⟩, y, ⟨h2, rfl⟩, rfl⟩; exact ⟨h1, h2, rfl⟩
  · rintro ⟨h1, h2, rfl⟩; exact ⟨_, ⟨h1, rfl⟩, _, ⟨h2, rfl⟩, rfl⟩

theorem Date.cmp?_iff {a b : Date} {o : Ordering} : a.cmp? b = some o ↔ OnCalendar a ∧ OnCalendar b ∧ o = a.cmp b := by
  cases a with
  | date x => cases b with
    | date y => simp [Date.cmp?, OnCalendar, Date.cmp, eq_comm]
    | dateTime t =>
      simp only [Date.cmp?, bind, Option.bind_eq_some_iff, DateTime.dateNaive?_iff, pure, Option.some.injEq, OnCalendar, true_and]
      constructor
      · rintro ⟨y, ⟨h1, rfl⟩, rfl⟩; exact ⟨h1, rfl⟩
      · rintro ⟨h1, rfl⟩; exact ⟨_, ⟨h1, rfl⟩, rfl⟩
  | dateTime s => cases b with
    | date y =>
      simp only [Date.cmp?, bind, Option.bind_eq_some_iff, DateTime.dateNaive?_iff, pure, Option.some.injEq, OnCalendar, true_and]
      constructor
      · rintro ⟨y, ⟨h1, rfl⟩, rfl⟩; exact ⟨h1, rfl⟩
      · rintro ⟨h1, rfl⟩; exact ⟨_, ⟨h1, rfl⟩, rfl⟩
    | dateTime t => exact DateTime.cmp?_iff

theorem Date.lt?_iff {a b : Date} {x : Bool} : a.lt? b = some x ↔ OnCalendar a ∧ OnCalendar b ∧ x = a.lt b := by
  simp only [Date.lt?, Option.map_eq_some_iff, Date.cmp?_iff, Date.lt]
  constructor
  · rintro ⟨o, ⟨h1, h2, rfl⟩, rfl⟩; exact ⟨h1, h2, rfl⟩
  · rintro ⟨h1, h2, rfl⟩; exact ⟨_, ⟨h1, h2, rfl⟩, rfl⟩

theorem Date.lt?_none {a b : Date} : a.lt? b = none ↔ ¬ (OnCalendar a ∧ OnCalendar b) := by
  cases h : a.lt? b with
  | none =>
    refine ⟨fun _ hh => ?_, fun _ => rfl⟩
    rw [Date.lt?_iff.2 ⟨hh.1, hh.2, rfl⟩] at h; cases h
  | some x =>
    obtain ⟨h1, h2, -⟩ := Date.lt?_iff.1 h
    exact ⟨fun h => (by cases h), fun h => absurd ⟨h1, h2⟩ h⟩

theorem since?_iff {a b : DateTime} {d : TimeDelta} : a.since? b = some d ↔ OnClock a ∧ OnClock b ∧ d = a.toNaive.since b.toNaive := by
  simp only [DateTime.since?, bind, Option.bind_eq_some_iff, naive?_iff, pure, Option.some.injEq]
  constructor
  · rintro ⟨x, ⟨h1, rfl⟩, y, ⟨h2, rfl⟩, rfl⟩; exact ⟨h1, h2, rfl⟩
  · rintro ⟨h1, h2, rfl⟩; exact ⟨_, ⟨h1, rfl⟩, _, ⟨h2, rfl⟩, rfl⟩

theorem none_iff_of {β : Type} {x : Option β} {p : Prop} {v : β} (h : ∀ y, x = some y ↔ p ∧ y = v) : x = none ↔ ¬ p := by
  cases hx : x with
  | none =>
    refine ⟨fun _ hp => ?_, fun _ => rfl⟩
    rw [(h v).2 ⟨hp, rfl⟩] at hx; cases hx
  | some y => exact ⟨fun h => (by cases h), fun hp => absurd ((h y).1 hx).1 hp⟩

theorem Date.dateNaive?_none {d : Date} : d.dateNaive? = none ↔ ¬ OnCalendar d := none_iff_of fun _ => Date.dateNaive?_iff

theorem utcOf_iff {t u : NaiveDateTime} {o : Int} : utcOf t o = some u ↔ InRange (t.shift (-o)).date ∧ u = t.shift (-o) := by
  unfold utcOf
  rw [← representable_iff]
  by_cases h : (t.shift (-o)).date.representable = true
  · rw [if_pos h]; simp [h, eq_comm]
  · rw [if_neg h]; simp [h]

theorem utcOf_none {t : NaiveDateTime} {o : Int} : utcOf t o = none ↔ ¬ InRange (t.shift (-o)).date :=
  none_iff_of fun _ => utcOf_iff

/-! ## C39 -/

/-- **C39**: the duration of a start/end period is the elapsed wall-clock time: added to the start it gives the end, and it is
the only duration that does so. -/
theorem C39_elapsed (s e : DateTime) (hs : NoLeapSecond s.toNaive) (he : NoLeapSecond e.toNaive) (d : TimeDelta) :
    s.toNaive.add d = some e.toNaive ↔ (Period.startEnd s e).length? = some d := by
  have hl : (Period.startEnd s e).length? = some d ↔ d = e.toNaive.since s.toNaive := by
    show e.since? s = some d ↔ _
    rw [since?_iff]
    exact ⟨fun h => h.2.2, fun h => ⟨onClock_of_range he.2.1, onClock_of_range hs.2.1, h⟩⟩
  rw [hl]
  rw [plain_iff] at hs he
  rw [NaiveDateTime.add_some hs.2.2]
  have h := NaiveDateTime.since_nanos he.2.2 hs.2.2
  constructor
  · rintro ⟨_, h2⟩
    have : d.nanos = (e.toNaive.since s.toNaive).nanos := by omega
    exact (by cases d; cases hh : (e.toNaive.since s.toNaive); rw [hh] at this; simp only at this; subst this; rfl)
  · rintro rfl
    refine ⟨he, ?_⟩
    show _ = _ + (e.toNaive.since s.toNaive).nanos
    omega

/-- **C39**: asking for the duration of a start/end period panics exactly if the wall-clock time of one of the two is out of range. -/
theorem C39_panics (s e : DateTime) : (Period.startEnd s e).length? = none ↔ ¬ (OnClock s ∧ OnClock e) :=
  none_iff_of (v := e.toNaive.since s.toNaive) fun _ => since?_iff.trans
    ⟨fun h => ⟨⟨h.2.1, h.1⟩, h.2.2⟩, fun h => ⟨h.1.2, h.1.1, h.2⟩⟩

/-- **C39**: the duration of the other kind of periods is the one given. -/
theorem C39_given (s : DateTime) (d : TimeDelta) : (Period.startDur s d).length? = some d := rfl

/-- **C39**, the limit: between a leap second (here 23:59:60) and the second that follows it the duration is zero, although the
two times differ. -/
theorem C39_leap_second (a : NaiveDate) (ha : RealDate a) :
    (Period.startEnd (.naive ⟨a, 86399, 1000000000⟩) (.naive ⟨tomorrow a, 0, 0⟩)).length? = some TimeDelta.zero := by
  have hab := NaiveDate.toDays_tomorrow ((NaiveDate.ok_iff _).2 ha)
  refine since?_iff.2 ⟨trivial, trivial, ?_⟩
  unfold DateTime.toNaive NaiveDateTime.since TimeDelta.zero
  have e : (if (0 : Nat) > 86399 ∧ (1000000000 : Nat) ≥ 1000000000 then (1 : Int) else if (0 : Nat) < 86399 ∧ (0 : Nat) ≥ 1000000000 then -1 else 0) = 0 := by
    rw [if_neg (by omega), if_neg (by omega)]
  simp only [e]
  rw [hab]
  congr 1
  omega

/-! ## C40 -/

theorem earlier_iff (a b : NaiveDateTime) : a.cmp b = .lt ↔ Earlier a b := by
  rw [NaiveDateTime.cmp_lt_iff, NaiveDate.cmp_lt_iff]
  unfold Earlier
  cases ha : a.date; cases hb : b.date
  simp only [NaiveDate.mk.injEq]
  omega

theorem DateTime.wall_clock (a b : DateTime) :
    (a.cmp b = .lt ↔ Earlier a.toNaive b.toNaive) ∧ (a.cmp b = .gt ↔ Earlier b.toNaive a.toNaive) ∧
    (a.cmp b = .eq ↔ a.toNaive = b.toNaive) := by
  refine ⟨earlier_iff _ _, ?_, NaiveDateTime.cmp_eq_iff⟩
  rw [← earlier_iff]
  exact NaiveDateTime.cmp_gt_iff

/-- **C40**: comparison of date-times is the order of their wall-clock times; it panics exactly if one of them is out of range. -/
theorem C40_wall_clock (a b : DateTime) :
    (a.cmp? b = some .lt ↔ OnClock a ∧ OnClock b ∧ Earlier a.toNaive b.toNaive) ∧
    (a.cmp? b = some .gt ↔ OnClock a ∧ OnClock b ∧ Earlier b.toNaive a.toNaive) ∧
    (a.cmp? b = some .eq ↔ OnClock a ∧ OnClock b ∧ a.toNaive = b.toNaive) ∧
    (a.cmp? b = none ↔ ¬ (OnClock a ∧ OnClock b)) := by
  have h := DateTime.wall_clock a b
  simp only [DateTime.cmp?_iff, ← h.1, ← h.2.1, ← h.2.2, eq_comm (b := a.cmp b), true_and]
  exact none_iff_of (v := a.cmp b) fun o => DateTime.cmp?_iff.trans and_assoc.symm

/-- **C40**: where it does not panic it is reflexive, antisymmetric (up to comparing equal), transitive and total. -/
theorem C40_total_preorder {a b c : DateTime} (ha : OnClock a) (hb : OnClock b) (hc : OnClock c) :
    a.cmp? a = some .eq ∧ b.cmp? a = (a.cmp? b).map Ordering.swap ∧
    (a.cmp? b ≠ some .gt → b.cmp? c ≠ some .gt → a.cmp? c ≠ some .gt) ∧ (a.cmp? b ≠ some .gt ∨ b.cmp? a ≠ some .gt) := by
  have e : ∀ {x y : DateTime}, OnClock x → OnClock y → x.cmp? y = some (x.cmp y) := fun hx hy => DateTime.cmp?_iff.2 ⟨hx, hy, rfl⟩
  rw [e ha ha, e ha hb, e hb ha, e hb hc, e ha hc]
  have hs : b.cmp a = (a.cmp b).swap := NaiveDateTime.cmp_swap _ _
  simp only [Option.some.injEq, ne_eq, Option.map_some]
  refine ⟨NaiveDateTime.cmp_eq_iff.2 rfl, hs, NaiveDateTime.cmp_le_trans, ?_⟩
  rw [hs]; cases a.cmp b <;> simp

/-- **C40**: it is an order on floating date-times, and never panics on them. -/
theorem C40_naive_eq (a b : NaiveDateTime) : ((DateTime.naive a).cmp? (.naive b)).isSome = true ∧
    ((DateTime.naive a).cmp? (.naive b) = some .eq ↔ DateTime.naive a = .naive b) := by
  refine ⟨rfl, ?_⟩
  rw [DateTime.cmp?_iff, DateTime.naive.injEq, eq_comm (b := DateTime.cmp _ _)]
  exact ⟨fun h => NaiveDateTime.cmp_eq_iff.1 h.2.2, fun h => ⟨trivial, trivial, NaiveDateTime.cmp_eq_iff.2 h⟩⟩

/-- **C40**, the limit: every local date-time compares equal to a floating one, from which it differs. -/
theorem C40_disagrees_with_eq {u : NaiveDateTime} (hu : OnClock (.loc u)) :
    ∃ t, (DateTime.naive t).cmp? (.loc u) = some .eq ∧ (DateTime.loc u).cmp? (.naive t) = some .eq ∧ DateTime.naive t ≠ .loc u :=
  ⟨localOf u, DateTime.cmp?_iff.2 ⟨trivial, hu, (NaiveDateTime.cmp_eq_iff.2 rfl).symm⟩,
    DateTime.cmp?_iff.2 ⟨hu, trivial, (NaiveDateTime.cmp_eq_iff.2 rfl).symm⟩, by simp⟩

/-! ## C41 -/

theorem earlierDay_iff (a b : NaiveDate) : a.cmp b = .lt ↔ EarlierDay a b := NaiveDate.cmp_lt_iff

theorem Date.lt_meaning (a b : Date) : a.cmp b = .lt ↔
    match a, b with
    | .dateTime s, .dateTime t => Earlier s.toNaive t.toNaive
    | _, _ => EarlierDay a.dateNaive b.dateNaive := by
  cases a with
  | date x => cases b with
    | date y => exact earlierDay_iff _ _
    | dateTime t => exact earlierDay_iff _ _
  | dateTime s => cases b with
    | date y => exact earlierDay_iff _ _
    | dateTime t => exact earlier_iff _ _

theorem Date.cmp_swap (a b : Date) : b.cmp a = (a.cmp b).swap := by
  cases a <;> cases b
  · exact NaiveDate.cmp_swap _ _
  · exact NaiveDate.cmp_swap _ _
  · exact NaiveDate.cmp_swap _ _
  · exact NaiveDateTime.cmp_swap _ _

theorem Date.strict_order (a b c : Date) :
    a.cmp a = .eq ∧ b.cmp a = (a.cmp b).swap ∧ ¬ (a.cmp b = .lt ∧ b.cmp a = .lt) ∧
    (a.cmp b = .lt → b.cmp c = .lt → a.cmp c = .lt) := by
  have hs := Date.cmp_swap a b
  refine ⟨?_, hs, ?_, ?_⟩
  · have := Date.cmp_swap a a
    cases h : a.cmp a with
    | eq => rfl
    | lt => rw [h] at this; simp at this
    | gt => rw [h] at this; simp at this
  · rintro ⟨h1, h2⟩; rw [hs, h1] at h2; simp at h2
  · rw [Date.lt_meaning, Date.lt_meaning, Date.lt_meaning]
    cases a <;> cases b <;> cases c <;>
      simp only [Date.dateNaive, DateTime.dateNaive, Earlier, EarlierDay] <;> omega

theorem Date.homogeneous (a b c : Date) (h : a.hasTime = b.hasTime ∧ b.hasTime = c.hasTime) :
    (a.cmp b ≠ .gt → b.cmp c ≠ .gt → a.cmp c ≠ .gt) ∧ (a.cmp b = .eq → b.cmp c = .eq → a.cmp c = .eq) := by
  cases a <;> cases b <;> cases c <;> simp [Date.hasTime] at h
  · next a b c =>
    constructor
    · intro h1 h2 h3
      have h1' : a.cmp b ≠ .gt := h1
      have h2' : b.cmp c ≠ .gt := h2
      have h3' : a.cmp c = .gt := h3
      rw [Ne, NaiveDate.cmp_gt_iff] at h1' h2'
      rw [NaiveDate.cmp_gt_iff] at h3'
      omega
    · intro h1 h2
      exact NaiveDate.cmp_eq_iff.2 ((NaiveDate.cmp_eq_iff.1 h1).trans (NaiveDate.cmp_eq_iff.1 h2))
  · constructor
    · exact NaiveDateTime.cmp_le_trans
    · intro h1 h2
      exact NaiveDateTime.cmp_eq_iff.2 ((NaiveDateTime.cmp_eq_iff.1 h1).trans (NaiveDateTime.cmp_eq_iff.1 h2))

/-- **C41**: what the comparison is: by wall-clock time between date-times, by day if one of the two has no time; it panics exactly if a wall-clock
time is out of range. -/
theorem C41_meaning (a b : Date) :
    (a.cmp? b = some .lt ↔ OnCalendar a ∧ OnCalendar b ∧
      match a, b with
      | .dateTime s, .dateTime t => Earlier s.toNaive t.toNaive
      | _, _ => EarlierDay a.dateNaive b.dateNaive) ∧
    (a.cmp? b = none ↔ ¬ (OnCalendar a ∧ OnCalendar b)) ∧
    (a.lt? b = some true ↔ a.cmp? b = some .lt) ∧ (a.lt? b = none ↔ a.cmp? b = none) := by
  refine ⟨?_, none_iff_of (v := a.cmp b) fun o => Date.cmp?_iff.trans and_assoc.symm, ?_, ?_⟩
  · rw [Date.cmp?_iff, eq_comm (b := a.cmp b), Date.lt_meaning]
  · unfold Date.lt?
    cases a.cmp? b with
    | none => simp
    | some o => simp
  · unfold Date.lt?; simp

/-- **C41**: `<` on dates is irreflexive, asymmetric and transitive, and `>` is its converse. -/
theorem C41_strict_order {a b c : Date} (ha : OnCalendar a) :
    a.cmp? a = some .eq ∧ b.cmp? a = (a.cmp? b).map Ordering.swap ∧ ¬ (a.cmp? b = some .lt ∧ b.cmp? a = some .lt) ∧
    (a.cmp? b = some .lt → b.cmp? c = some .lt → a.cmp? c = some .lt) := by
  obtain ⟨h1, h2, h3, h4⟩ := Date.strict_order a b c
  refine ⟨Date.cmp?_iff.2 ⟨ha, ha, h1.symm⟩, ?_, ?_, ?_⟩
  · cases h : a.cmp? b with
    | some o =>
      obtain ⟨p1, p2, rfl⟩ := Date.cmp?_iff.1 h
      exact Date.cmp?_iff.2 ⟨p2, p1, h2.symm⟩
    | none =>
      have := (C41_meaning a b).2.1.1 h
      exact (C41_meaning b a).2.1.2 fun hh => this hh.symm
  · rintro ⟨p, q⟩
    exact h3 ⟨(Date.cmp?_iff.1 p).2.2.symm, (Date.cmp?_iff.1 q).2.2.symm⟩
  · intro p q
    obtain ⟨p1, p2, p3⟩ := Date.cmp?_iff.1 p
    obtain ⟨q1, q2, q3⟩ := Date.cmp?_iff.1 q
    exact Date.cmp?_iff.2 ⟨p1, q2, (h4 p3.symm q3.symm).symm⟩

/-- **C41**: on dates without time, and on dates with time, it is a total preorder. -/
theorem C41_homogeneous {a b c : Date} (h : a.hasTime = b.hasTime ∧ b.hasTime = c.hasTime) (ha : OnCalendar a) (hb : OnCalendar b)
    (hc : OnCalendar c) :
    (a.cmp? b ≠ some .gt → b.cmp? c ≠ some .gt → a.cmp? c ≠ some .gt) ∧
    (a.cmp? b = some .eq → b.cmp? c = some .eq → a.cmp? c = some .eq) := by
  have e : ∀ {x y : Date}, OnCalendar x → OnCalendar y → x.cmp? y = some (x.cmp y) := fun hx hy => Date.cmp?_iff.2 ⟨hx, hy, rfl⟩
  rw [e ha hb, e hb hc, e ha hc]
  simp only [Option.some.injEq, ne_eq]
  exact Date.homogeneous a b c h

/-- **C41**, the limit: of two date-times of a day one is earlier than the other, but both compare equal to that day. -/
theorem C41_not_weak {s t : DateTime} (hs : OnClock s) (ht : OnClock t) (hd : s.dateNaive = t.dateNaive) (h : s.toNaive ≠ t.toNaive) :
    (Date.dateTime s).cmp? (.date s.dateNaive) = some .eq ∧ (Date.date s.dateNaive).cmp? (.dateTime t) = some .eq ∧
    ((Date.dateTime s).cmp? (.dateTime t) = some .lt ∨ (Date.dateTime s).cmp? (.dateTime t) = some .gt) := by
  refine ⟨Date.cmp?_iff.2 ⟨hs, trivial, (NaiveDate.cmp_eq_iff.2 rfl).symm⟩, Date.cmp?_iff.2 ⟨trivial, ht, (NaiveDate.cmp_eq_iff.2 hd).symm⟩, ?_⟩
  have hne : s.cmp t ≠ .eq := fun e => h (NaiveDateTime.cmp_eq_iff.1 e)
  cases hc : s.cmp t with
  | lt => exact .inl (Date.cmp?_iff.2 ⟨hs, ht, hc.symm⟩)
  | gt => exact .inr (Date.cmp?_iff.2 ⟨hs, ht, hc.symm⟩)
  | eq => exact absurd hc hne

/-! ## C42 -/

theorem compare_swap (a b : Int) : compare b a = (compare a b).swap := by
  cases h : compare a b with
  | lt => rw [Int.compare_eq_lt] at h; exact Int.compare_eq_gt.2 h
  | eq => rw [Int.compare_eq_eq] at h; subst h; exact Int.compare_eq_eq.2 rfl
  | gt => rw [Int.compare_eq_gt] at h; exact Int.compare_eq_lt.2 h

/-- **C42**: periods compare by their duration, and comparing panics exactly if asking for one of the durations does. -/
theorem C42_by_duration (a b : Period) :
    (∀ d e, a.length? = some d → b.length? = some e →
      (a.cmp? b = some .lt ↔ d.nanos < e.nanos) ∧ (a.cmp? b = some .eq ↔ d.nanos = e.nanos) ∧ (a.cmp? b = some .gt ↔ e.nanos < d.nanos)) ∧
    (a.cmp? b = none ↔ a.length? = none ∨ b.length? = none) := by
  constructor
  · intro d e ha hb
    have : a.cmp? b = some (d.cmp e) := by simp [Period.cmp?, ha, hb]
    simp only [this, Option.some.injEq]
    exact ⟨Int.compare_eq_lt, Int.compare_eq_eq, Int.compare_eq_gt⟩
  · unfold Period.cmp?
    cases a.length? <;> cases b.length? <;> simp

/-- **C42**: on periods whose durations can be computed this is a total preorder. -/
theorem C42_total_preorder {a b c : Period} (ha : a.length? ≠ none) (hb : b.length? ≠ none) (hc : c.length? ≠ none) :
    a.cmp? a = some .eq ∧ b.cmp? a = (a.cmp? b).map Ordering.swap ∧
    (a.cmp? b ≠ some .gt → b.cmp? c ≠ some .gt → a.cmp? c ≠ some .gt) ∧ (a.cmp? b ≠ some .gt ∨ b.cmp? a ≠ some .gt) := by
  obtain ⟨x, hx⟩ := Option.ne_none_iff_exists'.1 ha
  obtain ⟨y, hy⟩ := Option.ne_none_iff_exists'.1 hb
  obtain ⟨z, hz⟩ := Option.ne_none_iff_exists'.1 hc
  have e : ∀ {p q : Period} {u v : TimeDelta}, p.length? = some u → q.length? = some v → p.cmp? q = some (compare u.nanos v.nanos) := by
    intro p q u v hu hv
    simp only [Period.cmp?, hu, hv]; rfl
  rw [e hx hx, e hx hy, e hy hx, e hy hz, e hx hz]
  simp only [Option.some.injEq, ne_eq, Option.map_some, Int.compare_eq_gt, Int.compare_eq_eq]
  refine ⟨trivial, compare_swap _ _, ?_, ?_⟩
  · omega
  · omega

/-- **C42**: start/end pairs compare as the periods they make. -/
theorem C42_start_end (s e s' e' : DateTime) : startEndCmp (s, e) (s', e') = (Period.startEnd s e).cmp? (.startEnd s' e') := rfl

/-- **C42**: start/duration pairs compare by the time that is the duration before the start; if one of these is out of range, or the
wall-clock time of a start is, the comparison panics. -/
theorem C42_start_duration (s s' : DateTime) (d d' : TimeDelta) (o : Ordering) :
    startDurCmp (s, d) (s', d') = some o ↔ OnClock s ∧ OnClock s' ∧
      ∃ x y, s.toNaive.add d.neg = some x ∧ s'.toNaive.add d'.neg = some y ∧ o = x.cmp y := by
  simp only [startDurCmp, DateTime.subDur, NaiveDateTime.sub, bind, Option.bind_eq_some_iff, naive?_iff, pure, Option.some.injEq]
  constructor
  · rintro ⟨x, ⟨_, ⟨h1, rfl⟩, h2⟩, y, ⟨_, ⟨h3, rfl⟩, h4⟩, rfl⟩
    exact ⟨h1, h3, x, y, h2, h4, rfl⟩
  · rintro ⟨h1, h3, x, y, h2, h4, rfl⟩
    exact ⟨x, ⟨_, ⟨h1, rfl⟩, h2⟩, y, ⟨_, ⟨h3, rfl⟩, h4⟩, rfl⟩

/-- **C42**, the disagreement: for start/duration values with the same start this is the opposite of the order of the periods. -/
theorem C42_opposite (s : DateTime) (hs : NoLeapSecond s.toNaive) (d d' : TimeDelta) (o : Ordering)
    (h : startDurCmp (s, d) (s, d') = some o) : (Period.startDur s d).cmp? (.startDur s d') = some o.swap := by
  obtain ⟨-, -, x, y, h1, h2, rfl⟩ := (C42_start_duration s s d d' o).1 h
  rw [plain_iff] at hs
  obtain ⟨p1, q1⟩ := (NaiveDateTime.add_some hs.2.2).1 h1
  obtain ⟨p2, q2⟩ := (NaiveDateTime.add_some hs.2.2).1 h2
  rw [NaiveDateTime.cmp_plain p1 p2]
  show some (compare d.nanos d'.nanos) = _
  rw [← compare_swap, Option.some.injEq]
  simp only [TimeDelta.neg] at q1 q2
  cases hc : compare d.nanos d'.nanos with
  | lt => rw [Int.compare_eq_lt] at hc; exact (Int.compare_eq_lt.2 (by omega)).symm
  | eq => rw [Int.compare_eq_eq] at hc; exact (Int.compare_eq_eq.2 (by omega)).symm
  | gt => rw [Int.compare_eq_gt] at hc; exact (Int.compare_eq_gt.2 (by omega)).symm

end

section
attribute [local instance] utc

/-- A floating date-time of 2024. -/
def sample1 : DateTime := .naive ⟨⟨2024, 2, 29⟩, 36000, 0⟩
def sample2 : DateTime := .naive ⟨⟨2024, 3, 1⟩, 3600, 0⟩

example : PlainDateTime sample1 ∧ PlainDateTime sample2 ∧ PlainDateTime (.loc ⟨⟨2024, 2, 29⟩, 36000, 0⟩) :=
  ⟨⟨⟨by decide, by decide⟩, ⟨(valid_iff _).1 (by decide : NaiveDate.Valid ⟨2024, 2, 29⟩) |>.2, by decide, by decide⟩⟩,
   ⟨⟨by decide, by decide⟩, ⟨(valid_iff _).1 (by decide : NaiveDate.Valid ⟨2024, 3, 1⟩) |>.2, by decide, by decide⟩⟩,
   ⟨⟨by decide, by decide⟩, ⟨(valid_iff _).1 (by decide : NaiveDate.Valid ⟨2024, 2, 29⟩) |>.2, by decide, by decide⟩, rfl⟩⟩
example : (Period.startEnd sample1 sample2).toStr = c!"20240229T100000/20240301T010000" := by decide
example : WholeDuration ⟨3600000000000⟩ ∧ (Period.startDur sample1 ⟨3600000000000⟩).toStr = c!"20240229T100000/PT3600S" := by
  refine ⟨⟨by decide, by decide⟩, by decide⟩
example : NoLeapSecond sample1.toNaive :=
  ⟨(valid_iff _).1 (by decide : NaiveDate.Valid ⟨2024, 2, 29⟩) |>.2, ⟨by decide, by decide⟩, by decide, by decide⟩
example : (Period.startEnd sample1 sample2).length? = some ⟨54000000000000⟩ := by decide +kernel
example : startDurCmp (sample1, ⟨1000000000⟩) (sample1, ⟨2000000000⟩) = some .gt ∧
    (Period.startDur sample1 ⟨1000000000⟩).cmp? (.startDur sample1 ⟨2000000000⟩) = some .lt := by decide +kernel
example : sample1.dateNaive = (DateTime.naive ⟨⟨2024, 2, 29⟩, 0, 0⟩).dateNaive ∧ sample1.toNaive ≠ (DateTime.naive ⟨⟨2024, 2, 29⟩, 0, 0⟩).toNaive := by decide
example : RealDate ⟨2016, 12, 31⟩ ∧ tomorrow ⟨2016, 12, 31⟩ = ⟨2017, 1, 1⟩ :=
  ⟨(valid_iff _).1 (by decide : NaiveDate.Valid ⟨2016, 12, 31⟩) |>.2, by decide⟩
end

end Ikal
