import Verif.Lemmas.DateTime
import Verif.Lemmas.Nom
import Verif.Spec.DateText
import Verif.TestPlatform

/-! # C66, C35 – C37: calendar arithmetic, dates and date-times as text -/

namespace Ikal

open Nom Spec

/-! ## C66 -/

/-- **C66**: adding `n` days is going `n` times to the next day, and fails exactly when that leaves the range of years. -/
theorem C66_add_days (d : NaiveDate) (hd : d.Valid) (n : Nat) :
    (InRange (daysLater n d) → d.addDays n = some (daysLater n d)) ∧ (¬ InRange (daysLater n d) → d.addDays n = none) := by
  have h := NaiveDate.ofDays_add n d hd.ok
  unfold NaiveDate.addDays
  simp only [h]
  unfold InRange minYear maxYear
  constructor
  · intro h; rw [if_pos h]
  · intro h; rw [if_neg h]

/-- **C66**: adding `-n` days gives the date (if it is in range) that is `n` days earlier, and only that one. -/
theorem C66_sub_days (d : NaiveDate) (hd : d.Valid) (n : Nat) (r : NaiveDate) :
    d.addDays (-(n : Int)) = some r ↔ InRange r ∧ RealDate r ∧ daysLater n r = d := by
  constructor
  · intro h
    obtain ⟨h1, h2⟩ := NaiveDate.addDays_some h
    have hv := (valid_iff r).1 h1
    refine ⟨hv.1, hv.2, ?_⟩
    obtain ⟨h3, h4⟩ := NaiveDate.daysLater_spec n r h1.ok
    exact NaiveDate.toDays_inj h3 hd.ok (by omega)
  · rintro ⟨h1, h2, h3⟩
    have hv := (valid_iff r).2 ⟨h1, h2⟩
    refine NaiveDate.addDays_of hv ?_
    have := (NaiveDate.daysLater_spec n r hv.ok).2
    rw [h3] at this; omega

/-- **C66**: the next day of a real date is a real date, later than it, and no real date lies between. -/
theorem C66_tomorrow (d : NaiveDate) (hd : RealDate d) :
    RealDate (tomorrow d) ∧ NaiveDate.cmp d (tomorrow d) = .lt ∧
    ∀ e, RealDate e → NaiveDate.cmp d e = .lt → NaiveDate.cmp e (tomorrow d) ≠ .lt := by
  rw [← NaiveDate.ok_iff] at hd
  have h1 := NaiveDate.tomorrow_ok hd
  have h2 := NaiveDate.toDays_tomorrow hd
  refine ⟨(NaiveDate.ok_iff _).1 h1, ?_, ?_⟩
  · rw [NaiveDate.cmp_eq_compare hd h1, Int.compare_eq_lt]; omega
  · intro e he h3 h4
    rw [← NaiveDate.ok_iff] at he
    have := NaiveDate.toDays_lt_of_cmp hd he h3
    have := NaiveDate.toDays_lt_of_cmp he h1 h4
    omega

section
example : (⟨2023, 12, 25⟩ : NaiveDate).Valid ∧ InRange (daysLater 80 ⟨2023, 12, 25⟩) ∧
    (⟨2023, 12, 25⟩ : NaiveDate).addDays 80 = some ⟨2024, 3, 14⟩ ∧ daysLater 80 ⟨2023, 12, 25⟩ = ⟨2024, 3, 14⟩ := by
  refine ⟨by decide, ?_, by decide +kernel, by decide +kernel⟩
  unfold InRange; decide +kernel
example : (⟨262142, 12, 31⟩ : NaiveDate).addDays 1 = none := by decide
example : RealDate ⟨2024, 2, 29⟩ ∧ ¬ RealDate ⟨2023, 2, 29⟩ ∧ ¬ RealDate ⟨1900, 2, 29⟩ ∧ RealDate ⟨2000, 2, 29⟩ := by
  unfold RealDate; decide
end

/-! ## C35 -/

theorem dateText_toStr {d : NaiveDate} (h : FourDigitYear d) (hr : RealDate d) : DateText d.toStr d := by
  have hm := NaiveDate.daysInMonth_le d.year d.month
  obtain ⟨h1, h2, h3, h4⟩ := (NaiveDate.ok_iff _).2 hr
  have hy : d.year.toNat < 10000 := by obtain ⟨a, b⟩ := h; omega
  refine ⟨pad4 d.year.toNat, pad2 d.month, pad2 d.day, ?_, rfl, rfl, rfl, ?_, ?_, ?_, ?_, ?_, ?_⟩
  · rw [toStr_four h, List.append_assoc]
  · exact Digits_iff.2 ⟨by simp [pad4], pad4_digits _⟩
  · exact Digits_iff.2 ⟨by simp [pad2], pad2_digits _⟩
  · exact Digits_iff.2 ⟨by simp [pad2], pad2_digits _⟩
  · rw [← digitsVal_eq_decimal, digitsVal_pad4 hy]; obtain ⟨a, b⟩ := h; omega
  · rw [← digitsVal_eq_decimal, digitsVal_pad2 (by omega)]
  · rw [← digitsVal_eq_decimal, digitsVal_pad2 (by omega)]

theorem two_chars {s : Str} (h : s.length = 2) : ∃ a b, s = [a, b] := by
  match s, h with
  | [a, b], _ => exact ⟨a, b, rfl⟩

theorem scan2_digits {s : Str} (hd : Digits s) (hl : s.length = 2) (lo hi : Nat) (r : Str) :
    scan2 lo hi (s ++ r) = if lo ≤ decimal s ∧ decimal s ≤ hi then some (decimal s, r) else none := by
  obtain ⟨a, b, rfl⟩ := two_chars hl
  have h := (Digits_iff.1 hd).2
  have := scan2_two (h a (by simp)) (h b (by simp)) lo hi r
  rw [digitsVal_eq_decimal] at this
  exact this

/-- Reading eight digits. -/
theorem scanYmd_digits {y m a : Str} (hy : Digits y) (hm : Digits m) (ha : Digits a) (ly : y.length = 4) (lm : m.length = 2)
    (la : a.length = 2) (r : Str) :
    scanYmd (y ++ m ++ a ++ r) = if (1 ≤ decimal m ∧ decimal m ≤ 12) ∧ (1 ≤ decimal a ∧ decimal a ≤ 31) then
      some (((decimal y : Int), decimal m, decimal a), r) else none := by
  unfold scanYmd
  simp only [List.append_assoc]
  rw [scanYear_four (Digits_iff.1 hy).2 ly, digitsVal_eq_decimal]
  simp only []
  rw [scan2_digits hm lm]
  by_cases h1 : 1 ≤ decimal m ∧ decimal m ≤ 12
  · rw [if_pos h1]
    simp only []
    rw [scan2_digits ha la]
    by_cases h2 : 1 ≤ decimal a ∧ decimal a ≤ 31
    · rw [if_pos h2, if_pos ⟨h1, h2⟩]
    · rw [if_neg h2, if_neg fun h => h2 h.2]
  · rw [if_neg h1, if_neg fun h => h1 h.1]

theorem parseNaiveDate_digits {s : Str} (hs : s.length = 8) (hd : Digits s) (d : NaiveDate) :
    parseNaiveDate s = some d ↔ DateText s d ∧ RealDate d := by
  have h := Digits_iff.1 hd
  constructor
  · intro hp
    have hv := (valid_iff d).1 (parseNaiveDate_valid hp)
    refine ⟨?_, hv.2⟩
    have e : s = s.take 4 ++ (s.drop 4).take 2 ++ s.drop 6 := by
      conv => lhs; rw [← List.take_append_drop 4 s, ← List.take_append_drop 2 (s.drop 4)]
      simp
    have sub : ∀ t : Str, t ≠ [] → (∀ c ∈ t, c ∈ s) → Digits t := fun t h1 h2 => Digits_iff.2 ⟨h1, fun c hc => h.2 c (h2 c hc)⟩
    have l1 : (s.take 4).length = 4 := by simp; omega
    have l2 : ((s.drop 4).take 2).length = 2 := by simp; omega
    have l3 : (s.drop 6).length = 2 := by simp; omega
    have d1 : Digits (s.take 4) := sub _ (by intro h; simp [h] at l1) fun c hc => List.mem_of_mem_take hc
    have d2 : Digits ((s.drop 4).take 2) := sub _ (by intro h; simp [h] at l2) fun c hc => List.mem_of_mem_drop (List.mem_of_mem_take hc)
    have d3 : Digits (s.drop 6) := sub _ (by intro h; simp [h] at l3) fun c hc => List.mem_of_mem_drop hc
    have hy := scanYmd_digits d1 d2 d3 l1 l2 l3 []
    rw [List.append_nil, ← e] at hy
    unfold parseNaiveDate at hp
    rw [hy] at hp
    split at hp
    · next heq =>
      split at heq
      · simp only [Option.some.injEq, Prod.mk.injEq] at heq
        obtain ⟨⟨rfl, rfl, rfl⟩, _⟩ := heq
        have := (fromYmdOpt_some hp).1
        subst this
        exact ⟨_, _, _, e, l1, l2, l3, d1, d2, d3, rfl, rfl, rfl⟩
      · cases heq
    · cases hp
  · rintro ⟨⟨y, m, a, rfl, ly, lm, la, dy, dm, da, h1, h2, h3⟩, hr⟩
    have hy := scanYmd_digits dy dm da ly lm la []
    have hm := NaiveDate.daysInMonth_le d.year d.month
    have hok := (NaiveDate.ok_iff _).2 hr
    obtain ⟨k1, k2, k3, k4⟩ := hok
    rw [if_pos ⟨by omega, by omega⟩, List.append_nil] at hy
    unfold parseNaiveDate
    rw [hy]
    simp only []
    rw [← h1, ← h2, ← h3]
    have hb := digitsVal_lt y (Digits_iff.1 dy).2
    rw [ly, digitsVal_eq_decimal] at hb
    exact fromYmdOpt_of ((valid_iff d).2 ⟨⟨by omega, by omega⟩, hr⟩)

section
variable [Platform]

omit [Platform] in
theorem dateOrDt_date {s : Str} {d : NaiveDate} : (dateOrDt s).toRes = .ok (.date d) ↔ parseNaiveDate s = some d := by
  unfold dateOrDt alt Nom.map date
  cases h : parseNaiveDate s with
  | some x => simp [NRes.toRes]
  | none =>
    simp only [dateTime]
    cases parseNaiveDateTime [] (trimEndZ s) with
    | none => simp [NRes.toRes]
    | some t => simp only []; split <;> simp only [NRes.toRes] <;> simp

theorem Date.ofStr_date {s : Str} {d : NaiveDate} : Date.ofStr s = .ok (.date d) ↔ parseNaiveDate s = some d := by
  unfold Date.ofStr
  cases h : parseNaiveDate s with
  | some x => simp
  | none => simp only []; cases DateTime.ofStr s <;> simp [Res.map]

/-- **C35**: every real date in years 0 to 9999 prints as the eight digits of its year, month and day, which both readers
(properties of a text, `FromStr`) read back to it. -/
theorem C35_round_trip (d : NaiveDate) (h : FourDigitYear d) (hr : RealDate d) (l : ContentLine) (hl : l.value = (Date.date d).toStr) :
    DateText (Date.date d).toStr d ∧ dateProp l = .ok (.date d) ∧ Date.ofStr (Date.date d).toStr = .ok (.date d) := by
  have hp : parseNaiveDate d.toStr = some d := parseNaiveDate_toStr h ((NaiveDate.ok_iff _).2 hr)
  refine ⟨dateText_toStr h hr, ?_, Date.ofStr_date.2 hp⟩
  unfold dateProp
  rw [hl]
  exact dateOrDt_date.2 hp

/-- **C35**: whatever string is accepted as a date, the date exists. -/
theorem C35_accepted_exists (l : ContentLine) (s : Str) (d : NaiveDate) :
    (dateProp l = .ok (.date d) → RealDate d ∧ InRange d) ∧ (Date.ofStr s = .ok (.date d) → RealDate d ∧ InRange d) := by
  have key : ∀ s, parseNaiveDate s = some d → RealDate d ∧ InRange d :=
    fun s h => ((valid_iff d).1 (parseNaiveDate_valid h)).symm
  exact ⟨fun h => key _ (dateOrDt_date.1 h), fun h => key _ (Date.ofStr_date.1 h)⟩

/-- **C35**: eight digits are accepted exactly when they are a real date, and then as that date. -/
theorem C35_eight_digits (l : ContentLine) (hs : l.value.length = 8) (hd : Digits l.value) (d : NaiveDate) :
    (dateProp l = .ok (.date d) ↔ DateText l.value d ∧ RealDate d) ∧
    (Date.ofStr l.value = .ok (.date d) ↔ DateText l.value d ∧ RealDate d) :=
  ⟨dateOrDt_date.trans (parseNaiveDate_digits hs hd d), Date.ofStr_date.trans (parseNaiveDate_digits hs hd d)⟩

/-- **C35**, the limit of the round trip: a date in any other year prints to a text that is not accepted as a date. -/
theorem C35_other_years (d : NaiveDate) (h : ¬ FourDigitYear d) (e : NaiveDate) : Date.ofStr (Date.date d).toStr ≠ .ok (.date e) := by
  intro hp
  rw [Date.ofStr_date] at hp
  have hs := scanYmd_signed (d := d) (r := []) h (by simp)
  rw [List.append_nil] at hs
  unfold parseNaiveDate at hp
  simp only [Date.toStr] at hp
  rw [hs] at hp
  cases hp

/-! ## C36 -/

omit [Platform] in
theorem anySecond_iff (t : NaiveDateTime) : AnySecond t ↔ t.Proper := by
  unfold AnySecond NaiveDateTime.Proper; rw [NaiveDate.ok_iff]

omit [Platform] in
theorem Spec.WholeSecond.any {t : NaiveDateTime} (h : WholeSecond t) : AnySecond t := by
  obtain ⟨h1, h2, h3⟩ := h; exact ⟨h1, h2, by omega⟩

/-- The time without its fraction of a second. -/
def truncated (t : NaiveDateTime) : NaiveDateTime := { t with frac := t.frac / 1000000000 * 1000000000 }

omit [Platform] in
theorem truncated_whole {t : NaiveDateTime} (h : WholeSecond t) : truncated t = t := by
  obtain ⟨_, _, h3⟩ := h
  unfold truncated; cases t; simp at *; omega

omit [Platform] in
theorem dateTime_toStr {t : NaiveDateTime} (h : FourDigitYear t.date) (ht : AnySecond t) : dateTime t.toStr = .ok [] (.naive (truncated t)) := by
  unfold dateTime
  rw [trimEndZ_toStr]
  have := parseNaiveDateTime_toStr h ((anySecond_iff t).1 ht) []
  rw [List.append_nil] at this
  rw [this]
  simp only [if_neg (toStr_getLast t)]
  rfl

omit [Platform] in
theorem dateTime_toStrZ {t : NaiveDateTime} (h : FourDigitYear t.date) (ht : AnySecond t) : dateTime (t.toStr ++ ['Z']) = .ok [] (.loc (truncated t)) := by
  unfold dateTime
  rw [trimEndZ_toStrZ]
  have := parseNaiveDateTime_toStr h ((anySecond_iff t).1 ht) []
  rw [List.append_nil] at this
  rw [this]
  simp only [List.getLast?_concat, if_true]
  rfl

theorem ofStr_toStr {t : NaiveDateTime} (h : FourDigitYear t.date) (ht : AnySecond t) : DateTime.ofStr t.toStr = .ok (.naive (truncated t)) := by
  unfold DateTime.ofStr
  have := parseNaiveDateTime_toStr h ((anySecond_iff t).1 ht) []
  rw [List.append_nil] at this
  rw [this]
  rfl

theorem ofStr_toStrZ {t : NaiveDateTime} (h : FourDigitYear t.date) (ht : AnySecond t) :
    DateTime.ofStr (t.toStr ++ ['Z']) = (Res.unwrap (localSingle (truncated t))).map .loc := by
  unfold DateTime.ofStr
  rw [parseNaiveDateTime_suffix (by simp) h ((anySecond_iff t).1 ht), parseNaiveDateTime_toStr h ((anySecond_iff t).1 ht)]
  rfl

omit [Platform] in
theorem date_dateTime {t : NaiveDateTime} (h : FourDigitYear t.date) (ht : AnySecond t) (r : Str) : date (t.toStr ++ r) = .err := by
  unfold date
  rw [parseNaiveDate_dateTime h ((anySecond_iff t).1 ht).1]

/-- **C36**: a floating date-time in years 0 to 9999 is read back by every reader without its fraction of a second. -/
theorem C36_read_back (t : NaiveDateTime) (h : FourDigitYear t.date) (ht : AnySecond t) (l : ContentLine)
    (hl : l.value = (DateTime.naive t).toStr) :
    let r := DateTime.naive { t with frac := if t.frac < 1000000000 then 0 else 1000000000 }
    dateTimeProp l = .ok r ∧ DateTime.ofStr (DateTime.naive t).toStr = .ok r ∧
    dateProp l = .ok (.dateTime r) ∧ Date.ofStr (DateTime.naive t).toStr = .ok (.dateTime r) := by
  have he : ({ t with frac := if t.frac < 1000000000 then 0 else 1000000000 } : NaiveDateTime) = truncated t := by
    unfold truncated
    obtain ⟨_, _, h3⟩ := ht
    congr 1
    split <;> omega
  simp only [he, DateTime.toStr] at hl ⊢
  have h2 := date_dateTime h ht []
  rw [List.append_nil] at h2
  refine ⟨?_, ofStr_toStr h ht, ?_, ?_⟩
  · unfold dateTimeProp; rw [hl, dateTime_toStr h ht]; rfl
  · unfold dateProp dateOrDt alt Nom.map; rw [hl, h2, dateTime_toStr h ht]; rfl
  · unfold Date.ofStr
    have := parseNaiveDate_dateTime h ((anySecond_iff t).1 ht).1 []
    rw [List.append_nil] at this
    rw [this, ofStr_toStr h ht]; rfl

/-- **C36**: every floating date-time in years 0 to 9999 with a whole (or leap) second prints to `yyyymmddThhmmss`, which
every reader reads back to it. -/
theorem C36_round_trip (t : NaiveDateTime) (h : FourDigitYear t.date) (ht : WholeSecond t) (l : ContentLine)
    (hl : l.value = (DateTime.naive t).toStr) :
    DateTimeText (DateTime.naive t).toStr t ∧
    dateTimeProp l = .ok (.naive t) ∧ DateTime.ofStr (DateTime.naive t).toStr = .ok (.naive t) ∧
    dateProp l = .ok (.dateTime (.naive t)) ∧ Date.ofStr (Date.dateTime (.naive t)).toStr = .ok (.dateTime (.naive t)) := by
  have hr := C36_read_back t h ht.any l hl
  have he : ({ t with frac := if t.frac < 1000000000 then 0 else 1000000000 } : NaiveDateTime) = t := by
    obtain ⟨_, _, h3⟩ := ht
    cases t
    simp at h3 ⊢
    split <;> omega
  simp only [he] at hr
  refine ⟨?_, hr.1, hr.2.1, hr.2.2.1, hr.2.2.2⟩
  obtain ⟨h1, h2, h3⟩ := ht
  refine ⟨t.date.toStr, pad2 (t.secs / 3600), pad2 (t.secs / 60 % 60), pad2 (t.secs % 60 + t.frac / 1000000000), ?_,
    dateText_toStr h h1, rfl, rfl, rfl, ?_, ?_, ?_, ?_⟩
  · simp [DateTime.toStr, NaiveDateTime.toStr, timeStr]
  · exact Digits_iff.2 ⟨by simp [pad2], pad2_digits _⟩
  · exact Digits_iff.2 ⟨by simp [pad2], pad2_digits _⟩
  · exact Digits_iff.2 ⟨by simp [pad2], pad2_digits _⟩
  · simp only [← digitsVal_eq_decimal]
    rw [digitsVal_pad2 (by omega), digitsVal_pad2 (by omega), digitsVal_pad2 (by omega)]
    omega

/-- **C36**: whatever string is accepted as a floating date-time, its date exists and its time is a whole or leap second. -/
theorem C36_accepted_exists (l : ContentLine) (s : Str) (t : NaiveDateTime) :
    (dateTimeProp l = .ok (.naive t) → WholeSecond t ∧ InRange t.date) ∧
    (DateTime.ofStr s = .ok (.naive t) → WholeSecond t ∧ InRange t.date) := by
  have key : ∀ suffix s, parseNaiveDateTime suffix s = some t → WholeSecond t ∧ InRange t.date := by
    intro suffix s h
    obtain ⟨h1, h2, h3⟩ := parseNaiveDateTime_valid h
    have := (valid_iff _).1 h1
    exact ⟨⟨this.2, h2, h3⟩, this.1⟩
  constructor
  · intro h
    unfold dateTimeProp dateTime at h
    split at h
    · next heq =>
      split at h
      · simp [NRes.toRes] at h
      · simp [NRes.toRes] at h; subst h; exact key _ _ heq
    · simp [NRes.toRes] at h
  · intro h
    unfold DateTime.ofStr at h
    split at h
    · next heq => cases h; exact key _ _ heq
    · split at h
      · cases h
      · next t' _ =>
        cases hl : localSingle t' with
        | none => rw [hl] at h; simp [Res.unwrap, Res.map] at h
        | some u => rw [hl] at h; simp [Res.unwrap, Res.map] at h

/-! ## C37 -/

/-- **C37**: a local date-time is printed as its local wall-clock time with a `Z`, and read back, by the readers of iCalendar
text, as that time in UTC: it is moved by the offset of the local zone. -/
theorem C37_shifted (u : NaiveDateTime) (h : FourDigitYear (localOf u).date) (hw : WholeSecond (localOf u)) (l : ContentLine)
    (hl : l.value = (DateTime.loc u).toStr) :
    ∃ v, dateTimeProp l = .ok (.loc v) ∧ dateProp l = .ok (.dateTime (.loc v)) ∧
      v.toSecs = u.toSecs + Platform.tzOffset u.toSecs ∧ v.frac = u.frac := by
  refine ⟨localOf u, ?_, ?_, NaiveDateTime.toSecs_shift _ _, rfl⟩
  · unfold dateTimeProp
    rw [hl, DateTime.toStr, dateTime_toStrZ h hw.any, truncated_whole hw]; rfl
  · unfold dateProp dateOrDt alt Nom.map
    rw [hl, DateTime.toStr, date_dateTime h hw.any, dateTime_toStrZ h hw.any, truncated_whole hw]; rfl

/-- **C37**: it is read back unchanged exactly when the offset is zero. -/
theorem C37_unchanged_iff (u : NaiveDateTime) (hu : u.Valid) (h : FourDigitYear (localOf u).date) (hw : WholeSecond (localOf u))
    (l : ContentLine) (hl : l.value = (DateTime.loc u).toStr) :
    dateTimeProp l = .ok (.loc u) ↔ Platform.tzOffset u.toSecs = 0 := by
  unfold dateTimeProp
  rw [hl, DateTime.toStr, dateTime_toStrZ h hw.any, truncated_whole hw]
  simp only [NRes.toRes, Res.ok.injEq, DateTime.loc.injEq]
  exact NaiveDateTime.shift_eq_self hu.1.ok hu.2.1 _

/-- **C37**: `FromStr` gives a printed local date-time back unless its wall-clock time is ambiguous, in which case it panics. -/
theorem C37_from_str (hz : CoherentZone) (u : NaiveDateTime) (hu : u.Valid) (h : FourDigitYear (localOf u).date) (hw : WholeSecond (localOf u)) :
    DateTime.ofStr (DateTime.loc u).toStr =
      match Platform.tzLocal (localOf u).toSecs with
      | .single _ => .ok (.loc u)
      | _ => .panic := by
  rw [DateTime.toStr, ofStr_toStrZ h hw.any, truncated_whole hw]
  unfold localSingle
  have e : (localOf u).toSecs = u.toSecs + Platform.tzOffset u.toSecs := NaiveDateTime.toSecs_shift _ _
  rw [e]
  rcases hz u.toSecs with hs | ⟨a, b, hs⟩
  · rw [hs]
    have hr : u.date.representable = true := by simp [NaiveDate.representable, hu.1.1, hu.1.2.1]
    simp only [Res.unwrap, Res.map, utcOf, localOf, NaiveDateTime.shift_shift]
    rw [show Platform.tzOffset u.toSecs + -Platform.tzOffset u.toSecs = 0 by omega, NaiveDateTime.shift_zero hu.1.ok hu.2.1, hr]
    rfl
  · rw [hs]; rfl

/-- **C37**: `FromStr` panics on the text of a wall-clock time that the local zone skips or repeats. -/
theorem C37_from_str_panics (t : NaiveDateTime) (h : FourDigitYear t.date) (hw : WholeSecond t)
    (hs : ∀ off, Platform.tzLocal t.toSecs ≠ .single off) : DateTime.ofStr (t.toStr ++ ['Z']) = .panic := by
  rw [ofStr_toStrZ h hw.any, truncated_whole hw]
  unfold localSingle
  split
  · next off heq => exact absurd heq (hs off)
  · rfl

end

section
attribute [local instance] utc

example : FourDigitYear ⟨2024, 2, 29⟩ ∧ RealDate ⟨2024, 2, 29⟩ ∧ (Date.date ⟨2024, 2, 29⟩).toStr = c!"20240229" := by
  unfold FourDigitYear RealDate; decide
example : Date.ofStr c!"20240229" = .ok (.date ⟨2024, 2, 29⟩) ∧ Date.ofStr c!"20230229" = .err .date := by decide
example : ¬ FourDigitYear ⟨12024, 2, 29⟩ ∧ (Date.date ⟨12024, 2, 29⟩).toStr = c!"+120240229" := by
  unfold FourDigitYear; decide
/-- Also accepted: blanks, signs and short fields. -/
example : Date.ofStr c!"2024 2 9" = .ok (.date ⟨2024, 2, 9⟩) ∧ Date.ofStr c!" +12024 229" = .err .date ∧
    Date.ofStr c!"+12024 0229" = .ok (.date ⟨12024, 2, 29⟩) := by decide
example : WholeSecond ⟨⟨2016, 12, 31⟩, 86399, 1000000000⟩ ∧
    (DateTime.naive ⟨⟨2016, 12, 31⟩, 86399, 1000000000⟩).toStr = c!"20161231T235960" := by
  unfold WholeSecond RealDate; decide
end

section
/-- A zone one hour east, which skips and repeats an hour: its readings of wall-clock times 100 and 200 are missing and doubled. -/
@[reducible] def oddZone : Platform := { fixedZone 3600 with
  tzLocal := fun n => if n = 63700000000 then .none else if n = 63800000000 then .ambiguous 3600 0 else .single 3600 }

attribute [local instance] oddZone

/-- The hypotheses of C37 can be met, and the time is moved. -/
example : (DateTime.loc ⟨⟨2020, 5, 5⟩, 3600, 0⟩).toStr = c!"20200505T020000Z" ∧
    dateTimeProp (ContentLine.ofValue c!"20200505T020000Z") = .ok (.loc ⟨⟨2020, 5, 5⟩, 7200, 0⟩) ∧
    DateTime.ofStr c!"20200505T020000Z" = .ok (.loc ⟨⟨2020, 5, 5⟩, 3600, 0⟩) := by decide
example : @CoherentZone (fixedZone 3600) := fun _ => .inl rfl
example : DateTime.ofStr ((NaiveDateTime.shift ⟨⟨0, 1, 1⟩, 0, 0⟩ 63700000000).toStr ++ ['Z']) = .panic := by decide
end

end Ikal
