import Verif.Lemmas.Format
import Verif.TestPlatform

/-! # Formatting dates (C84) -/

namespace Ikal
open Spec Format


section

variable [Platform] [Centuries]

/-- **C84**: a format is written piece by piece: after pieces that are complete, what follows is written as if it stood alone; if one of the two fails the whole
fails. -/
theorem C84_concat (x : Date) {f : Str} {ps : List Str} (h : Pieces f ps) (g : Str) :
    x.format (f ++ g) = (x.format f).bind fun a => (x.format g).map fun b => a ++ b := by
  unfold Date.format
  rw [pieces_append h, writeItems_append]

omit [Platform] [Centuries] in
/-- **C84**: a format has only one reading. -/
theorem C84_one_reading {f : Str} {ps qs : List Str} (hp : Pieces f ps) (hq : Pieces f qs) : ps = qs := by
  obtain ⟨rfl, hp⟩ := hp
  obtain ⟨e, hq⟩ := hq
  have ne : ∀ p, Piece p → p ≠ [] := fun p h => by
    rcases piece_items h with ⟨c, _, rfl⟩ | ⟨q, rfl, _⟩ <;> exact List.cons_ne_nil _ _
  induction ps generalizing qs with
  | nil =>
    cases qs with
    | nil => rfl
    | cons q qs =>
      simp only [List.flatten_nil, List.flatten_cons] at e
      exact absurd (List.append_eq_nil_iff.1 e.symm).1 (ne q (hq q (List.mem_cons_self ..)))
  | cons p ps ih =>
    cases qs with
    | nil =>
      simp only [List.flatten_nil, List.flatten_cons] at e
      exact absurd (List.append_eq_nil_iff.1 e).1 (ne p (hp p (List.mem_cons_self ..)))
    | cons q qs =>
      simp only [List.flatten_cons] at e
      have key : p = q ∧ ps.flatten = qs.flatten := by
        rcases piece_items (hp p (List.mem_cons_self ..)) with ⟨c, hc, rfl⟩ | ⟨p', rfl, hp'⟩ <;>
          rcases piece_items (hq q (List.mem_cons_self ..)) with ⟨d, hd, rfl⟩ | ⟨q', rfl, hq'⟩
        · simp only [List.cons_append, List.nil_append, List.cons.injEq] at e
          exact ⟨by rw [e.1], e.2⟩
        · simp only [List.cons_append, List.nil_append, List.cons.injEq] at e
          exact absurd e.1 hc
        · simp only [List.cons_append, List.nil_append, List.cons.injEq] at e
          exact absurd e.1.symm hd
        · simp only [List.cons_append, List.cons.injEq, true_and] at e
          have h1 := directive_append hp' ps.flatten
          rw [e, directive_append hq'] at h1
          have h2 : ps.flatten = qs.flatten := (Prod.mk.inj h1).2.symm
          rw [h2] at e
          exact ⟨by rw [List.append_cancel_right e], h2⟩
      rw [key.1, ih (fun r hr => hp r (List.mem_cons_of_mem _ hr)) key.2 fun r hr => hq r (List.mem_cons_of_mem _ hr)]

/-- **C84**: a date-time is written alike whether it is a date or not. -/
theorem C84_same (t : DateTime) (f : Str) : (Date.dateTime t).format f = t.format f := rfl

/-- **C84**: whatever has been written stays as it is when the format goes on. -/
theorem C84_goes_on (x : Date) {f a : Str} (h : x.format f = some a) (g : Str) :
    x.format (f ++ g) = (x.format g).map fun b => a ++ b := by
  have he : FormatItem.error ∉ items f := fun he => by
    rw [Date.format, writeItems_error _ _ he] at h; cases h
  obtain ⟨ps, hp⟩ := items_pieces _ f (Nat.le_refl _) he
  rw [C84_concat x hp, h]; rfl

/-- **C84**: a format without `%` is written as it is. -/
theorem C84_literal (x : Date) (f : Str) (h : '%' ∉ f) : x.format f = some f := by
  unfold Date.format
  induction f with
  | nil => rfl
  | cons c r ih =>
    rw [items_char (fun hc => h (hc ▸ List.mem_cons_self ..)), writeItems, ih fun hr => h (List.mem_cons_of_mem _ hr)]; rfl

/-- **C84**: a `%` is written `%%`. -/
theorem C84_percent (x : Date) : x.format c!"%%" = some ['%'] := rfl

/-- **C84**: a date is written as in a calendar by the format `%Y%m%d`, `%Y%m%dT%H%M%S` or `%Y%m%dT%H%M%SZ`. -/
theorem C84_calendar_text (x : Date) (h : Genuine x) :
    some x.toStr = x.format (match x with
      | .date _ => c!"%Y%m%d"
      | .dateTime (.naive _) => c!"%Y%m%dT%H%M%S"
      | .dateTime (.loc _) => c!"%Y%m%dT%H%M%SZ") := by
  have hml : ∀ y m, monthLength y m ≤ 31 := fun y m => by unfold monthLength; split <;> split <;> omega
  have key : ∀ d : NaiveDate, RealDate d → places 4 d.year (¬ (0 ≤ d.year ∧ d.year < 10000)) .zero = yearStr d.year ∧
      two d.month .zero = pad2 d.month ∧ two d.day .zero = pad2 d.day := fun d h => by
    have := hml d.year d.month
    obtain ⟨_, h2, _, h4⟩ := h
    exact ⟨year_eq _, pad2_eq (by omega), pad2_eq (by omega)⟩
  have keyt : ∀ s f : Nat, s < 86400 → f < 2000000000 → two (s / 3600) .zero = pad2 (s / 3600) ∧ two (s / 60 % 60) .zero = pad2 (s / 60 % 60) ∧
      two (s % 60 + f / 1000000000) .zero = pad2 (s % 60 + f / 1000000000) := fun s f hs hf =>
    ⟨pad2_eq (by omega), pad2_eq (by omega), pad2_eq (by omega)⟩
  cases x with
  | date d =>
    obtain ⟨h1, h2, h3⟩ := key d h
    show some (d.toStr) = writeItems ⟨d, none, none⟩ [.num .year .zero, .num .month .zero, .num .day .zero]
    simp only [writeItems, writeItem, writeNum, h1, h2, h3, NaiveDate.toStr]
    simp
  | dateTime t =>
    cases t with
    | naive t =>
      obtain ⟨h1, h2, h3⟩ := key t.date h.1
      obtain ⟨h4, h5, h6⟩ := keyt t.secs t.frac h.2.1 h.2.2
      show some (t.toStr) = writeItems ⟨t.date, some (t.secs, t.frac), none⟩ [.num .year .zero, .num .month .zero, .num .day .zero, .char 'T',
        .num .hour .zero, .num .minute .zero, .num .second .zero]
      simp only [writeItems, writeItem, writeNum, h1, h2, h3, h4, h5, h6, NaiveDate.toStr, NaiveDateTime.toStr, timeStr]
      simp
    | loc u =>
      obtain ⟨h1, h2, h3⟩ := key (localOf u).date (genuine_shown h)
      obtain ⟨h4, h5, h6⟩ := keyt (localOf u).secs (localOf u).frac (NaiveDateTime.shift_ok u _).2 h.2.2
      show some ((localOf u).toStr ++ ['Z']) = writeItems ⟨(localOf u).date, some ((localOf u).secs, (localOf u).frac), some _⟩
        [.num .year .zero, .num .month .zero, .num .day .zero, .char 'T', .num .hour .zero, .num .minute .zero, .num .second .zero, .char 'Z']
      simp only [writeItems, writeItem, writeNum, h1, h2, h3, h4, h5, h6, NaiveDate.toStr, NaiveDateTime.toStr, timeStr]
      simp

/-- **C84**: a shorthand can be replaced by what it is short for. -/
theorem C84_shorthands (x : Date) : ∀ p ∈ shorthands, ∀ g, x.format (p.1 ++ g) = x.format (p.2 ++ g) := by
  intro p hp g
  have : items (p.1 ++ g) = items (p.2 ++ g) := by
    have hps : ∀ p ∈ shorthands, FormatItem.error ∉ items p.1 ∧ FormatItem.error ∉ items p.2 ∧ items p.1 = items p.2 := by decide +kernel
    obtain ⟨h1, h2, h3⟩ := hps p hp
    rw [items_append _ _ g (Nat.le_refl _) h1, items_append _ _ g (Nat.le_refl _) h2, h3]
  rw [Date.format, Date.format, this]

/-- **C84**: the numbers a date is written with: as they are with the modifier `-`, padded with zeros (also with the modifier `0`) or, with the modifier `_`, with
spaces. -/
theorem C84_numbers (x : Date) (hx : Genuine x) {c : Char} {w v : Nat} (h : NumberFor x c w v) :
    (∃ s, x.format ['%', c] = some s ∧ x.format ['%', '0', c] = some s ∧ Padded '0' w v s) ∧
    (∃ s, x.format ['%', '-', c] = some s ∧ Numeral v s) ∧
    ∃ s, x.format ['%', '_', c] = some s ∧ Padded ' ' w v s := by
  have hml : ∀ y m, monthLength y m ≤ 31 := fun y m => by unfold monthLength; split <;> split <;> omega
  obtain ⟨hd1, hd2, hd3, hd4⟩ := genuine_shown hx
  have hd5 := hml (shownDay x).year (shownDay x).month
  have gen : ∀ (n : NumItem), letter c = [.num n .zero] → items ['%', c] = letter c → items ['%', '0', c] = repad .zero (letter c) →
      items ['%', '-', c] = repad .none (letter c) → items ['%', '_', c] = repad .space (letter c) → 1 ≤ w → v < 10 ^ w →
      writeNum x.formatArgs n .zero = some (padTo '0' w (natStr v)) → writeNum x.formatArgs n .none = some (natStr v) →
      writeNum x.formatArgs n .space = some (padTo ' ' w (natStr v)) →
      (∃ s, x.format ['%', c] = some s ∧ x.format ['%', '0', c] = some s ∧ Padded '0' w v s) ∧
      (∃ s, x.format ['%', '-', c] = some s ∧ Numeral v s) ∧
      ∃ s, x.format ['%', '_', c] = some s ∧ Padded ' ' w v s := by
    intro n hl h1 h2 h3 h4 hw hv z1 z2 z3
    refine ⟨⟨_, ?_, ?_, padded_padTo '0' hw hv⟩, ⟨_, ?_, numeral_natStr v⟩, ⟨_, ?_, padded_padTo ' ' hw hv⟩⟩
    · rw [Date.format, h1, hl, writeItems, writeItem, z1]; simp [writeItems]
    · rw [Date.format, h2, hl, repad, writeItems, writeItem, z1]; simp [writeItems]
    · rw [Date.format, h3, hl, repad, writeItems, writeItem, z2]; simp [writeItems]
    · rw [Date.format, h4, hl, repad, writeItems, writeItem, z3]; simp [writeItems]
  have pl : ∀ (n v : Nat), places n v false .zero = padTo '0' n (natStr v) ∧ places n v false .none = natStr v ∧
      places n v false .space = padTo ' ' n (natStr v) := fun n v => by
    have : ¬ ((v : Int) < 0) := by omega
    simp [places, this]
  have withTime : ∀ {t : NaiveDateTime}, shownTime x = some t → x.formatArgs.time = some (t.secs, t.frac) := fun ht => by
    rw [args_time, ht]; rfl
  rcases h with ⟨rfl, rfl, rfl⟩ | ⟨rfl, rfl, rfl⟩ | ⟨rfl, rfl, hv, k, hk⟩ | ⟨rfl, rfl, hv, hv1, hv2⟩ | ⟨rfl, rfl, hv1, hv2⟩ | ⟨rfl, rfl, hv⟩ | ⟨rfl, rfl, hv⟩ |
    ⟨rfl, rfl, y, hv⟩ | ⟨rfl, rfl, hv, y, k, hk, hy⟩ | ⟨rfl, rfl, n, hn, rfl⟩ | ⟨rfl, rfl, t, ht, rfl⟩ | ⟨rfl, rfl, t, ht, hv⟩ | ⟨rfl, rfl, t, ht, rfl⟩ |
    ⟨rfl, rfl, t, ht, rfl⟩ | ⟨rfl, rfl, t, ht, rfl⟩
  · refine gen .month rfl rfl rfl rfl rfl (by decide) (by omega) ?_ ?_ ?_ <;> (rw [writeNum, args_date]; rfl)
  · refine gen .day rfl rfl rfl rfl rfl (by decide) (by omega) ?_ ?_ ?_ <;> (rw [writeNum, args_date]; rfl)
  · have e : ((shownDay x).year % 100).toNat = v := by omega
    refine gen .yearMod100 rfl rfl rfl rfl rfl (by decide) (by omega) ?_ ?_ ?_ <;> (rw [writeNum, args_date, e]; rfl)
  · have hc : 0 ≤ (shownDay x).year ∧ (shownDay x).year < 10000 := by omega
    have e : ((shownDay x).year / 100).toNat = v := by omega
    refine gen .yearDiv100 rfl rfl rfl rfl rfl (by decide) (by omega) ?_ ?_ ?_ <;> (rw [writeNum, args_date, if_pos hc, e]; rfl)
  · have e : ((shownDay x).month - 1) / 3 + 1 = v := by omega
    have h1 : ∀ c, padTo c 1 (natStr v) = natStr v := fun c => by
      have h0 : 1 - (natStr v).length = 0 := by
        have : natStr v ≠ [] := natStr_ne v
        have := List.length_pos_iff.2 this
        omega
      rw [padTo, h0]; rfl
    refine gen .quarter rfl rfl rfl rfl rfl (by decide) (by omega) ?_ ?_ ?_ <;> (rw [writeNum, args_date, e]; try rw [h1])
  · have e := weekFrom_eq (genuine_shown hx) hv
    have hb := weeksFrom_lt (genuine_shown hx) 6
    refine gen .weekFromSun rfl rfl rfl rfl rfl (by decide) (by omega) ?_ ?_ ?_ <;> (rw [writeNum, args_date, e]; rfl)
  · have e := weekFrom_eq (genuine_shown hx) hv
    have hb := weeksFrom_lt (genuine_shown hx) 0
    refine gen .weekFromMon rfl rfl rfl rfl rfl (by decide) (by omega) ?_ ?_ ?_ <;> (rw [writeNum, args_date, e]; rfl)
  · have e := isoWeek_eq (genuine_shown hx) hv
    have hb := isoWeek_lt (shownDay x)
    rw [e] at hb
    refine gen .isoWeek rfl rfl rfl rfl rfl (by decide) (by omega) ?_ ?_ ?_ <;> (rw [writeNum, args_date, e]; rfl)
  · have e := isoWeek_eq (genuine_shown hx) hk
    have e2 : (y % 100).toNat = v := by omega
    refine gen .isoYearMod100 rfl rfl rfl rfl rfl (by decide) (by omega) ?_ ?_ ?_ <;> (rw [writeNum, args_date, e, e2]; rfl)
  · obtain ⟨_, h2⟩ := NaiveDate.daysLater_spec n _ (first_ok (shownDay x).year)
    rw [hn, first_days, toDays_ordinal] at h2
    have e : Format.ordinal (shownDay x) = n + 1 := by omega
    have ho : Format.ordinal (shownDay x) ≤ 365 + NaiveDate.leapNat (shownDay x).year := ((NaiveDate.ok_iff _).2 ⟨hd1, hd2, hd3, hd4⟩ : (shownDay x).Ok).ordinal
    have hle : NaiveDate.leapNat (shownDay x).year ≤ 1 := by unfold NaiveDate.leapNat; split <;> omega
    refine gen .ordinal rfl rfl rfl rfl rfl (by decide) (by omega) ?_ ?_ ?_
    all_goals rw [writeNum, args_date, e]
    · rw [(pl _ _).1]
    · rw [(pl _ _).2.1]
    · rw [(pl _ _).2.2]
  · have := genuine_time hx ht
    refine gen .hour rfl rfl rfl rfl rfl (by decide) (by omega) ?_ ?_ ?_ <;> simp only [writeNum, withTime ht] <;> rfl
  · have e : (if t.secs / 3600 % 12 = 0 then 12 else t.secs / 3600 % 12) = v := by split <;> omega
    refine gen .hour12 rfl rfl rfl rfl rfl (by decide) (by omega) ?_ ?_ ?_ <;> simp only [writeNum, withTime ht, e] <;> rfl
  · refine gen .minute rfl rfl rfl rfl rfl (by decide) (by omega) ?_ ?_ ?_ <;> simp only [writeNum, withTime ht] <;> rfl
  · have := genuine_time hx ht
    have e : t.secs % 60 + t.frac / 1000000000 = t.secs % 60 + if t.frac < 1000000000 then 0 else 1 := by split <;> omega
    refine gen .second rfl rfl rfl rfl rfl (by decide) (by split <;> omega) ?_ ?_ ?_ <;> simp only [writeNum, withTime ht, e] <;> rfl
  · refine gen .nanosecond rfl rfl rfl rfl rfl (by decide) (by omega) ?_ ?_ ?_ <;> simp only [writeNum, withTime ht]
    · rw [(pl _ _).1]
    · rw [(pl _ _).2.1]
    · rw [(pl _ _).2.2]

omit [Platform] [Centuries] in
/-- **C84**: every real date has a day of the year and a day of the week. -/
theorem C84_days_exist (d : NaiveDate) (h : RealDate d) : (∃ n, daysLater n ⟨d.year, 1, 1⟩ = d) ∧ ∃ k, DayOfWeek d k := by
  have hd := (NaiveDate.ok_iff d).2 h
  have reach : ∀ a b : NaiveDate, a.Ok → b.Ok → a.toDays ≤ b.toDays → ∃ n : Nat, daysLater n a = b ∧ (n : Int) = b.toDays - a.toDays := by
    intro a b ha hb hab
    refine ⟨(b.toDays - a.toDays).toNat, ?_, by omega⟩
    obtain ⟨h1, h2⟩ := NaiveDate.daysLater_spec (b.toDays - a.toDays).toNat a ha
    exact NaiveDate.toDays_inj h1 hb (by omega)
  constructor
  · have hok : (⟨d.year, 1, 1⟩ : NaiveDate).Ok := (NaiveDate.ok_iff _).2 ⟨Nat.le_refl 1, (by decide : 1 ≤ 12), Nat.le_refl 1, by
      show 1 ≤ monthLength d.year 1
      simp [monthLength]⟩
    obtain ⟨n, hn, _⟩ := reach _ d hok hd (by
      unfold NaiveDate.toDays
      have : NaiveDate.daysBeforeMonth d.year 1 = 0 := rfl
      simp only [this]
      have := h.2.2.1
      omega)
    exact ⟨n, hn⟩
  · have hm : (⟨2024, 1, 1⟩ : NaiveDate).Ok := by unfold NaiveDate.Ok; decide
    by_cases hle : (⟨2024, 1, 1⟩ : NaiveDate).toDays ≤ d.toDays
    · obtain ⟨n, hn, _⟩ := reach _ d hm hd hle
      exact ⟨n % 7, by omega, n, .inl ⟨hn, rfl⟩⟩
    · obtain ⟨n, hn, _⟩ := reach d _ hd hm (by omega)
      exact ⟨(7 - n % 7) % 7, by omega, n, .inr ⟨hn, by omega⟩⟩

omit [Platform] [Centuries] in
/-- **C84**: every real date is in a week: of its year, whichever day the weeks begin with, and after ISO 8601, where the year is that of the date or one of
its neighbours. -/
theorem C84_weeks_exist (d : NaiveDate) (h : RealDate d) : (∀ k, k < 7 → ∃ v, WeekFrom k d v) ∧
    ∃ y v, IsoWeek d y v ∧ d.year - 1 ≤ y ∧ y ≤ d.year + 1 ∧ 1 ≤ v ∧ v ≤ 53 := by
  have hd := (NaiveDate.ok_iff d).2 h
  have reach : ∀ a b : NaiveDate, a.Ok → b.Ok → a.toDays ≤ b.toDays → ∃ n : Nat, daysLater n a = b ∧ (n : Int) = b.toDays - a.toDays := by
    intro a b ha hb hab
    refine ⟨(b.toDays - a.toDays).toNat, ?_, by omega⟩
    obtain ⟨h1, h2⟩ := NaiveDate.daysLater_spec (b.toDays - a.toDays).toNat a ha
    exact NaiveDate.toDays_inj h1 hb (by omega)
  constructor
  · intro k hk
    obtain ⟨j, hj⟩ := (C84_days_exist ⟨d.year, 1, 1⟩ ((NaiveDate.ok_iff _).1 (first_ok d.year))).2
    have hw := weekday_of ((NaiveDate.ok_iff _).1 (first_ok d.year)) hj
    obtain ⟨h1, h2⟩ := NaiveDate.daysLater_spec ((k + 7 - j) % 7) _ (first_ok d.year)
    have hf : DayOfWeek (daysLater ((k + 7 - j) % 7) ⟨d.year, 1, 1⟩) k := by
      obtain ⟨i, hi⟩ := (C84_days_exist _ ((NaiveDate.ok_iff _).1 h1)).2
      have hw' := weekday_of ((NaiveDate.ok_iff _).1 h1) hi
      have := hi.1
      have := hj.1
      have e : i = k := by
        unfold Format.weekday at hw hw'
        omega
      rw [← e]; exact e ▸ hi
    by_cases hc : (daysLater ((k + 7 - j) % 7) ⟨d.year, 1, 1⟩).toDays ≤ d.toDays
    · obtain ⟨n, hn, _⟩ := reach _ d h1 hd hc
      exact ⟨n / 7 + 1, _, _, by omega, rfl, hf, .inr ⟨n, hn, rfl⟩⟩
    · obtain ⟨n, hn, _⟩ := reach d _ hd h1 (by omega)
      exact ⟨0, _, _, by omega, rfl, hf, .inl ⟨rfl, n, by omega, hn⟩⟩
  · obtain ⟨k, hk⟩ := (C84_days_exist d h).2
    have hk7 := hk.1
    have h1 := NaiveDate.ofDays_ok (d.toDays + 3 - k)
    have h2 := NaiveDate.toDays_ofDays (d.toDays + 3 - k)
    generalize NaiveDate.ofDays (d.toDays + 3 - k) = t at h1 h2
    obtain ⟨n, hn⟩ := (C84_days_exist t ((NaiveDate.ok_iff _).1 h1)).1
    have hiso : IsoWeek d t.year (n / 7 + 1) := by
      refine ⟨k, t, hk, (NaiveDate.ok_iff _).1 h1, ?_, rfl, n, hn, rfl⟩
      by_cases h3 : k ≤ 3
      · obtain ⟨m, hm, hm2⟩ := reach d t hd h1 (by omega)
        exact .inl ⟨h3, by rw [show 3 - k = m by omega]; exact hm⟩
      · obtain ⟨m, hm, hm2⟩ := reach t d h1 hd (by omega)
        exact .inr ⟨by omega, by rw [show k - 3 = m by omega]; exact hm⟩
    refine ⟨t.year, n / 7 + 1, hiso, ?_⟩
    have e := isoWeek_eq h hiso
    have hb := isoWeek_range d
    rw [e] at hb
    exact hb

/-- **C84**: the day of the week is that of the calendar, whose week repeats every seven days and in which 1 January 2024 is a Monday. -/
theorem C84_weekday (x : Date) (hx : Genuine x) {k : Nat} (h : DayOfWeek (shownDay x) k) :
    x.format c!"%A" = dayName k ∧ x.format c!"%a" = (dayName k).map (List.take 3) ∧
    (∃ s, x.format c!"%u" = some s ∧ Numeral (k + 1) s) ∧ ∃ s, x.format c!"%w" = some s ∧ Numeral ((k + 1) % 7) s := by
  have hw := weekday_of (genuine_shown hx) h
  have hk := h.1
  have e : ∀ k : Fin 7, weekdayNames[k.1]? = dayName k := by decide
  have e' := e ⟨k, hk⟩
  refine ⟨?_, ?_, ⟨natStr (k + 1), ?_, numeral_natStr _⟩, ⟨natStr ((k + 1) % 7), ?_, numeral_natStr _⟩⟩
  · show writeItems x.formatArgs [.fixed .longWeekday] = _
    simp only [writeItems, writeItem, writeFixed, args_date, hw, e']
    cases dayName k <;> simp
  · show writeItems x.formatArgs [.fixed .shortWeekday] = _
    simp only [writeItems, writeItem, writeFixed, args_date, hw, e']
    cases dayName k <;> simp
  · show writeItems x.formatArgs [.num .weekdayFromMon .none] = _
    simp [writeItems, writeItem, writeNum, args_date, hw]
  · show writeItems x.formatArgs [.num .daysFromSun .none] = _
    simp [writeItems, writeItem, writeNum, args_date, hw]

/-- **C84**: the name of the month. -/
theorem C84_month (x : Date) (hx : Genuine x) :
    x.format c!"%B" = monthName (shownDay x).month ∧ x.format c!"%b" = (monthName (shownDay x).month).map (List.take 3) := by
  obtain ⟨h1, h2, _⟩ := genuine_shown hx
  have e : ∀ k : Fin 12, monthNames[k.1]? = monthName (k + 1) := by decide
  have e' := e ⟨(shownDay x).month - 1, by omega⟩
  simp only [show (shownDay x).month - 1 + 1 = (shownDay x).month by omega] at e'
  constructor
  · show writeItems x.formatArgs [.fixed .longMonth] = _
    simp only [writeItems, writeItem, writeFixed, args_date, e']
    cases monthName (shownDay x).month <;> simp
  · show writeItems x.formatArgs [.fixed .shortMonth] = _
    simp only [writeItems, writeItem, writeFixed, args_date, e']
    cases monthName (shownDay x).month <;> simp

/-- **C84**: the year has four digits; outside 0 to 9999 it has a sign and more digits if they are needed. -/
theorem C84_year (x : Date) :
    (∀ y : Nat, (shownDay x).year = y → y < 10000 → ∃ s, x.format c!"%Y" = some s ∧ Padded '0' 4 y s) ∧
    (∀ y : Nat, (shownDay x).year = y → 10000 ≤ y → ∃ s, x.format c!"%Y" = some ('+' :: s) ∧ Numeral y s) ∧
    (∀ y : Nat, (shownDay x).year = -(y : Int) → 0 < y → y < 10000 → ∃ s, x.format c!"%Y" = some ('-' :: s) ∧ Padded '0' 4 y s) ∧
    (∀ y : Nat, (shownDay x).year = -(y : Int) → 10000 ≤ y → ∃ s, x.format c!"%Y" = some ('-' :: s) ∧ Numeral y s) := by
  have e : x.format c!"%Y" = some (yearStr (shownDay x).year) := by
    show writeItems x.formatArgs [.num .year .zero] = _
    simp only [writeItems, writeItem, writeNum, args_date]
    rw [year_eq]; simp
  rw [e]
  refine ⟨fun y hy h => ⟨pad4 y, ?_, ?_⟩, fun y hy h => ⟨natStr y, ?_, numeral_natStr y⟩, fun y hy h0 h => ⟨pad4 y, ?_, ?_⟩,
    fun y hy h => ⟨natStr y, ?_, numeral_natStr y⟩⟩
  · rw [hy]; simp [yearStr, show (y : Int) ≤ 9999 by omega]
  · rw [← pad4_eq h]; exact padded_padTo '0' (by decide) (by omega)
  · rw [hy]; simp [yearStr, show ¬ (y : Int) ≤ 9999 by omega, show ¬ y ≤ 9999 by omega, show ¬ (y : Int) < 0 by omega]
  · rw [hy]; simp [yearStr, show y ≤ 9999 by omega, h0, show ¬ y = 0 by omega]
  · rw [← pad4_eq h]; exact padded_padTo '0' (by decide) (by omega)
  · rw [hy]; simp [yearStr, show ¬ y ≤ 9999 by omega, show 0 < y by omega, show ¬ y = 0 by omega]

/-- **C84**: so has the year of the week after ISO 8601. -/
theorem C84_iso_year (x : Date) (hx : Genuine x) {i : Int} {v : Nat} (hi : IsoWeek (shownDay x) i v) :
    (∀ y : Nat, i = y → y < 10000 → ∃ s, x.format c!"%G" = some s ∧ Padded '0' 4 y s) ∧
    (∀ y : Nat, i = y → 10000 ≤ y → ∃ s, x.format c!"%G" = some ('+' :: s) ∧ Numeral y s) ∧
    (∀ y : Nat, i = -(y : Int) → 0 < y → y < 10000 → ∃ s, x.format c!"%G" = some ('-' :: s) ∧ Padded '0' 4 y s) ∧
    (∀ y : Nat, i = -(y : Int) → 10000 ≤ y → ∃ s, x.format c!"%G" = some ('-' :: s) ∧ Numeral y s) := by
  have e : x.format c!"%G" = some (yearStr i) := by
    show writeItems x.formatArgs [.num .isoYear .zero] = _
    simp only [writeItems, writeItem, writeNum, args_date, isoWeek_eq (genuine_shown hx) hi]
    rw [year_eq]; simp
  rw [e]
  refine ⟨fun y hy h => ⟨pad4 y, ?_, ?_⟩, fun y hy h => ⟨natStr y, ?_, numeral_natStr y⟩, fun y hy h0 h => ⟨pad4 y, ?_, ?_⟩,
    fun y hy h => ⟨natStr y, ?_, numeral_natStr y⟩⟩
  · rw [hy]; simp [yearStr, show (y : Int) ≤ 9999 by omega]
  · rw [← pad4_eq h]; exact padded_padTo '0' (by decide) (by omega)
  · rw [hy]; simp [yearStr, show ¬ (y : Int) ≤ 9999 by omega, show ¬ y ≤ 9999 by omega, show ¬ (y : Int) < 0 by omega]
  · rw [hy]; simp [yearStr, show y ≤ 9999 by omega, h0, show ¬ y = 0 by omega]
  · rw [← pad4_eq h]; exact padded_padTo '0' (by decide) (by omega)
  · rw [hy]; simp [yearStr, show ¬ y ≤ 9999 by omega, show 0 < y by omega, show ¬ y = 0 by omega]

/-- **C84**: before noon it is AM. -/
theorem C84_noon (x : Date) {t : NaiveDateTime} (ht : shownTime x = some t) :
    (t.secs < 43200 → x.format c!"%p" = some c!"AM" ∧ x.format c!"%P" = some c!"am") ∧
    (43200 ≤ t.secs → x.format c!"%p" = some c!"PM" ∧ x.format c!"%P" = some c!"pm") := by
  have e : x.formatArgs.time = some (t.secs, t.frac) := by rw [args_time, ht]; rfl
  have e1 : x.format c!"%p" = some (if t.secs / 3600 < 12 then c!"AM" else c!"PM") := by
    show writeItems x.formatArgs [.fixed .upperAmPm] = _
    simp only [writeItems, writeItem, writeFixed, e]; simp
  have e2 : x.format c!"%P" = some (if t.secs / 3600 < 12 then c!"am" else c!"pm") := by
    show writeItems x.formatArgs [.fixed .lowerAmPm] = _
    simp only [writeItems, writeItem, writeFixed, e]; simp
  rw [e1, e2]
  exact ⟨fun h => by rw [if_pos (by omega), if_pos (by omega)]; exact ⟨rfl, rfl⟩,
    fun h => by rw [if_neg (by omega), if_neg (by omega)]; exact ⟨rfl, rfl⟩⟩

/-- **C84**: fractions of a second with three, six and nine digits are cut off, not rounded; with a dot it is written before them; `%.f` writes as many of them
as are needed. -/
theorem C84_fractions (x : Date) {t : NaiveDateTime} (ht : shownTime x = some t) :
    (∃ s, x.format c!"%3f" = some s ∧ Padded '0' 3 (t.frac % 1000000000 / 1000000) s ∧ x.format c!"%.3f" = some ('.' :: s)) ∧
    (∃ s, x.format c!"%6f" = some s ∧ Padded '0' 6 (t.frac % 1000000000 / 1000) s ∧ x.format c!"%.6f" = some ('.' :: s)) ∧
    (∃ s, x.format c!"%9f" = some s ∧ Padded '0' 9 (t.frac % 1000000000) s ∧ x.format c!"%.9f" = some ('.' :: s)) ∧
    x.format c!"%.f" = (if 1000000000 ∣ t.frac then some [] else if 1000000 ∣ t.frac then x.format c!"%.3f" else if 1000 ∣ t.frac then x.format c!"%.6f"
      else x.format c!"%.9f") := by
  have e : x.formatArgs.time = some (t.secs, t.frac) := by rw [args_time, ht]; rfl
  have f : ∀ n dot, writeItems x.formatArgs [.fixed (.fraction n dot)] = writeFixed x.formatArgs (.fraction n dot) := fun n dot => by
    simp only [writeItems, writeItem]
    cases writeFixed x.formatArgs (.fraction n dot) <;> simp
  have i3 : x.format c!"%3f" = writeFixed x.formatArgs (.fraction 3 false) := f 3 false
  have i6 : x.format c!"%6f" = writeFixed x.formatArgs (.fraction 6 false) := f 6 false
  have i9 : x.format c!"%9f" = writeFixed x.formatArgs (.fraction 9 false) := f 9 false
  have d3 : x.format c!"%.3f" = writeFixed x.formatArgs (.fraction 3 true) := f 3 true
  have d6 : x.format c!"%.6f" = writeFixed x.formatArgs (.fraction 6 true) := f 6 true
  have d9 : x.format c!"%.9f" = writeFixed x.formatArgs (.fraction 9 true) := f 9 true
  have d0 : x.format c!"%.f" = writeFixed x.formatArgs (.fraction 0 true) := f 0 true
  rw [i3, i6, i9, d3, d6, d9, d0]
  simp only [writeFixed, e]
  refine ⟨⟨_, rfl, padded_padTo '0' (by decide) (by omega), rfl⟩, ⟨_, rfl, padded_padTo '0' (by decide) (by omega), rfl⟩,
    ⟨_, rfl, padded_padTo '0' (by decide) (by omega), rfl⟩, ?_⟩
  have c9 : (t.frac % 1000000000 = 0) = (1000000000 ∣ t.frac) := propext (by omega)
  have c6 : (t.frac % 1000000000 % 1000000 = 0) = (1000000 ∣ t.frac) := propext (by omega)
  have c3 : (t.frac % 1000000000 % 1000 = 0) = (1000 ∣ t.frac) := propext (by omega)
  simp only [if_true, c9, c6, c3]
  split
  · rfl
  · split
    · rfl
    · split <;> rfl

/-- **C84**: `%s` is the number of seconds from the beginning of 1970: of a floating time as if it were UTC, of a local one the real number. -/
theorem C84_timestamp (t : NaiveDateTime) :
    (∃ n s, (DateTime.naive t).format c!"%s" = some s ∧ IsSigned s n ∧ ((⟨t.date, t.secs, 0⟩ : NaiveDateTime).since ⟨⟨1970, 1, 1⟩, 0, 0⟩).nanos = n * 1000000000) ∧
    (DateTime.loc t).format c!"%s" = (DateTime.naive t).format c!"%s" := by
  have pl : ∀ v : Int, places 9 v false .none = intStr v := fun v => by
    unfold places intStr
    by_cases h : v < 0 <;> simp [h]
  have e1 : (DateTime.naive t).format c!"%s" = some (intStr (t.toSecs - NaiveDateTime.epoch.toSecs)) := by
    show writeItems ⟨t.date, some (t.secs, t.frac), none⟩ [.num .timestamp .none] = _
    simp [writeItems, writeItem, writeNum, pl, NaiveDateTime.toSecs]
  have e2 : (DateTime.loc t).format c!"%s" = some (intStr (t.toSecs - NaiveDateTime.epoch.toSecs)) := by
    show writeItems ⟨(localOf t).date, some ((localOf t).secs, (localOf t).frac), some (Platform.tzOffset t.toSecs)⟩ [.num .timestamp .none] = _
    have : (localOf t).toSecs = t.toSecs + Platform.tzOffset t.toSecs := NaiveDateTime.toSecs_shift _ _
    simp only [writeItems, writeItem, writeNum, pl, Option.getD_some]
    rw [show (⟨(localOf t).date, (localOf t).secs, (localOf t).frac⟩ : NaiveDateTime) = localOf t from rfl, this,
      show t.toSecs + Platform.tzOffset t.toSecs - NaiveDateTime.epoch.toSecs - Platform.tzOffset t.toSecs = t.toSecs - NaiveDateTime.epoch.toSecs by omega]
    simp
  rw [e2, e1]
  refine ⟨⟨_, _, rfl, isSigned_intStr _, ?_⟩, rfl⟩
  simp [NaiveDateTime.since, NaiveDateTime.toSecs, NaiveDateTime.epoch, NaiveDate.epoch]
  omega

/-- **C84**: the offset of the local zone: in hours, minutes and seconds (`%::z`), in hours and minutes, rounded (`%z` and `%:z`); `%Z` writes the
offset too, with the seconds if they are not 0, and `%:::z` the hours only. -/
theorem C84_offset (u : NaiveDateTime) {o : Int} (ho : o = Platform.tzOffset u.toSecs) (hb : o.natAbs < 359970) :
    (∃ s, (DateTime.loc u).format c!"%::z" = some s ∧ LongOffsetText [':'] o s) ∧
    (∃ s, (DateTime.loc u).format c!"%z" = some s ∧ ShortOffsetText [] o s) ∧
    (∃ s, (DateTime.loc u).format c!"%:z" = some s ∧ ShortOffsetText [':'] o s) ∧
    (60 ∣ o → (DateTime.loc u).format c!"%Z" = (DateTime.loc u).format c!"%:z") ∧
    (¬ 60 ∣ o → (DateTime.loc u).format c!"%Z" = (DateTime.loc u).format c!"%::z") ∧
    ∃ s, (DateTime.loc u).format c!"%:::z" = some s ∧ HoursOffsetText o s := by
  have p2 : ∀ n, n < 100 → Padded '0' 2 n (pad2 n) := fun n h => by rw [← pad2_eq h]; exact padded_padTo '0' (by decide) (by omega)
  have ea : (DateTime.loc u).formatArgs.off = some o := by rw [ho]; rfl
  have f : ∀ i, writeItems (DateTime.loc u).formatArgs [.fixed i] = writeFixed (DateTime.loc u).formatArgs i := fun i => by
    simp only [writeItems, writeItem]
    cases writeFixed (DateTime.loc u).formatArgs i <;> simp
  have i1 : (DateTime.loc u).format c!"%::z" = some (writeOffset o true true) := by
    refine (f .offsetDoubleColon).trans ?_; simp only [writeFixed, ea]
  have i2 : (DateTime.loc u).format c!"%z" = some (writeOffset o false false) := by
    refine (f .offset).trans ?_; simp only [writeFixed, ea]
  have i3 : (DateTime.loc u).format c!"%:z" = some (writeOffset o true false) := by
    refine (f .offsetColon).trans ?_; simp only [writeFixed, ea]
  have i4 : (DateTime.loc u).format c!"%Z" = some (zoneName o) := by
    refine (f .zoneName).trans ?_; simp only [writeFixed, ea]
  have i5 : (DateTime.loc u).format c!"%:::z" = some (writeHours o) := by
    refine (f .offsetTripleColon).trans ?_; simp only [writeFixed, ea]
  rw [i1, i2, i3, i4, i5]
  refine ⟨⟨_, rfl, ?_⟩, ⟨_, rfl, ?_⟩, ⟨_, rfl, ?_⟩, fun h => ?_, fun h => ?_, _, rfl, ?_⟩
  · refine ⟨if o < 0 then '-' else '+', o.natAbs / 3600, o.natAbs / 60 % 60, o.natAbs % 60, _, _, _, ?_, p2 _ (by omega), p2 _ (by omega), p2 _ (by omega),
      by omega, by omega, ?_⟩
    · simp only [writeOffset, if_true]; split <;> simp
    · split
      · exact .inr ⟨by omega, rfl, by omega⟩
      · exact .inl ⟨by omega, rfl, by omega⟩
  · refine ⟨if o < 0 then '-' else '+', (o.natAbs + 30) / 60 / 60, (o.natAbs + 30) / 60 % 60, _, _, ?_, p2 _ (by omega), p2 _ (by omega), by omega, ?_⟩
    · simp only [writeOffset, Bool.false_eq_true, if_false]; by_cases h : o < 0 <;> simp [h]
    · split
      · exact .inr ⟨by omega, rfl, by omega, by omega⟩
      · exact .inl ⟨by omega, rfl, by omega, by omega⟩
  · refine ⟨if o < 0 then '-' else '+', (o.natAbs + 30) / 60 / 60, (o.natAbs + 30) / 60 % 60, _, _, ?_, p2 _ (by omega), p2 _ (by omega), by omega, ?_⟩
    · simp only [writeOffset, Bool.false_eq_true, if_false, if_true]; by_cases h : o < 0 <;> simp [h]
    · split
      · exact .inr ⟨by omega, rfl, by omega, by omega⟩
      · exact .inl ⟨by omega, rfl, by omega, by omega⟩
  · have h0 : o.natAbs % 60 = 0 := by omega
    have e1 : (o.natAbs + 30) / 60 / 60 = o.natAbs / 3600 := by omega
    have e2 : (o.natAbs + 30) / 60 % 60 = o.natAbs / 60 % 60 := by omega
    simp [zoneName, writeOffset, h0, e1, e2]
  · have h0 : ¬ o.natAbs % 60 = 0 := by omega
    simp [zoneName, writeOffset, h0]
  · refine ⟨if o < 0 then '-' else '+', o.natAbs / 3600, _, rfl, p2 _ (by omega), ?_⟩
    split
    · exact .inr ⟨by omega, rfl, by omega, by omega⟩
    · exact .inl ⟨by omega, rfl, by omega, by omega⟩

/-- **C84**: a format is written if and only if it consists of pieces and the date has what they ask for: a time of the day (not: a date), a time zone (only:
a local date-time).  Otherwise turning it into a string panics. -/
theorem C84_written_iff (x : Date) (hx : Genuine x) (f : Str) :
    (∃ s, x.format f = some s) ↔ ∃ ps, Pieces f ps ∧ ∀ p ∈ ps, Suits x p := by
  have one : ∀ p, Piece p → ((∃ s, x.format p = some s) ↔ Suits x p) := by
    intro p hp
    have hc := genuine_shown hx
    have ht : HasTime x ↔ x.formatArgs.time.isSome := by
      cases x with
      | date d => simp [HasTime, Date.formatArgs]
      | dateTime t => cases t <;> simp [HasTime, Date.formatArgs, DateTime.formatArgs]
    have hz : HasZone x ↔ x.formatArgs.off.isSome := by
      cases x with
      | date d => simp [HasZone, Date.formatArgs]
      | dateTime t => cases t <;> simp [HasZone, Date.formatArgs, DateTime.formatArgs]
    have hzt : HasZone x → HasTime x := by
      cases x with
      | date d => exact fun h => h.elim
      | dateTime t => exact fun _ => trivial
    rw [← args_date] at hc
    unfold Date.format Suits
    rcases hp with ⟨c, hc', rfl⟩ | hp | hp | hp
    · have h1 : ∀ p ∈ timeDirectives ++ zoneDirectives, p.length ≠ 1 := by decide +kernel
      refine ⟨fun h => ⟨fun h => ?_, fun h => ?_⟩, fun _ => ⟨[c], by rw [items_char hc']; rfl⟩⟩ <;>
        exact absurd rfl (h1 [c] (by simp [h]))
    · obtain ⟨h1, h2, h3⟩ := date_needs p hp
      refine ⟨fun _ => ⟨fun h => absurd h h1, fun h => absurd h h2⟩, fun _ => ?_⟩
      exact writes_some hc _ fun i hi => ⟨(h3 i hi).1, fun h => (by rw [(h3 i hi).2.1] at h; cases h), fun h => (by rw [(h3 i hi).2.2] at h; cases h)⟩
    · obtain ⟨h2, h3, h4⟩ := time_needs p hp
      refine ⟨fun h => ⟨fun _ => ?_, fun h => absurd h h2⟩, fun h => ?_⟩
      · rw [ht]
        obtain ⟨i, hi, hn⟩ := h4
        obtain ⟨s, hs⟩ := h
        exact writes_time hs hi hn
      · exact writes_some hc _ fun i hi => ⟨(h3 i hi).1, fun _ => ht.1 (h.1 hp), fun h => by rw [(h3 i hi).2] at h; cases h⟩
    · obtain ⟨h2, h3, h4⟩ := zone_needs p hp
      refine ⟨fun h => ⟨fun h => absurd h h2, fun _ => ?_⟩, fun h => ?_⟩
      · rw [hz]
        obtain ⟨i, hi, hn⟩ := h4
        obtain ⟨s, hs⟩ := h
        exact writes_zone hs hi hn
      · have := h.2 hp
        exact writes_some hc _ fun i hi => ⟨h3 i hi, fun _ => ht.1 (hzt this), fun _ => hz.1 this⟩
  constructor
  · rintro ⟨s, hs⟩
    have he : FormatItem.error ∉ items f := fun he => by
      rw [Date.format, writeItems_error _ _ he] at hs; cases hs
    obtain ⟨ps, rfl, hp⟩ := items_pieces _ f (Nat.le_refl _) he
    refine ⟨ps, ⟨rfl, hp⟩, ?_⟩
    clear he
    induction ps generalizing s with
    | nil => intro p h; cases h
    | cons p ps ih =>
      have hp1 := hp p (List.mem_cons_self ..)
      have hc := C84_concat x (f := p) (ps := [p]) ⟨by simp, fun q hq => by rw [List.mem_singleton.1 hq]; exact hp1⟩ ps.flatten
      rw [List.flatten_cons, hc] at hs
      cases h1 : x.format p with
      | none => rw [h1] at hs; cases hs
      | some a =>
        cases h2 : x.format ps.flatten with
        | none => rw [h1, h2] at hs; cases hs
        | some b =>
          intro q hq
          rcases List.mem_cons.1 hq with rfl | hq
          · exact (one q hp1).1 ⟨a, h1⟩
          · exact ih b (fun r hr => hp r (List.mem_cons_of_mem _ hr)) h2 q hq
  · rintro ⟨ps, ⟨rfl, hp⟩, h⟩
    induction ps with
    | nil => exact ⟨[], rfl⟩
    | cons p ps ih =>
      have hp1 := hp p (List.mem_cons_self ..)
      have hc := C84_concat x (f := p) (ps := [p]) ⟨by simp, fun q hq => by rw [List.mem_singleton.1 hq]; exact hp1⟩ ps.flatten
      obtain ⟨a, ha⟩ := (one p hp1).2 (h p (List.mem_cons_self ..))
      obtain ⟨b, hb⟩ := ih (fun q hq => h q (List.mem_cons_of_mem _ hq)) fun q hq => hp q (List.mem_cons_of_mem _ hq)
      exact ⟨a ++ b, by rw [List.flatten_cons, hc, ha, hb]; rfl⟩

/-- **C84**: without directives that depend on the zone a local date-time is written like the time its clocks show. -/
theorem C84_wall_clock (u : NaiveDateTime) {f : Str} {ps : List Str} (h : Pieces f ps) (hz : ∀ p ∈ ps, p ∉ zoneDependent) :
    (DateTime.loc u).format f = (DateTime.naive (localOf u)).format f := by
  have one : ∀ p, Piece p → p ∉ zoneDependent →
      (Date.dateTime (.loc u)).format p = (Date.dateTime (.naive (localOf u))).format p := by
    intro p hp h1
    have h0 : zoneFree (items p) := by
      rcases hp with ⟨c, hc, rfl⟩ | hp | hp | hp
      · rw [items_char hc]; simp [zoneFree, items_nil, itemZoneFree, closedItem, needsZone]
      · exact date_free p hp
      · exact time_free p hp h1
      · exact absurd (List.mem_append_left _ hp) h1
    exact writes_free (DateTime.loc u).formatArgs (DateTime.naive (localOf u)).formatArgs rfl rfl _ h0
  show (Date.dateTime (.loc u)).format f = (Date.dateTime (.naive (localOf u))).format f
  obtain ⟨rfl, hp⟩ := h
  induction ps with
  | nil => rfl
  | cons p ps ih =>
    have hp1 := hp p (List.mem_cons_self ..)
    have hc := fun x : Date => C84_concat x (f := p) (ps := [p]) ⟨by simp, fun q hq => by rw [List.mem_singleton.1 hq]; exact hp1⟩ ps.flatten
    rw [List.flatten_cons, hc, hc, ih (fun q hq => hz q (List.mem_cons_of_mem _ hq)) fun q hq => hp q (List.mem_cons_of_mem _ hq),
      one p hp1 (hz p (List.mem_cons_self ..))]

end

/-! Examples: the hypotheses are met, and what is written. -/

section

/-- Centuries are written as numbers. -/
@[reducible, local instance] def plainCenturies : Centuries := ⟨fun y _ => intStr (y / 100)⟩

/-- The local zone is two hours and a quarter of an hour and 20 seconds west of UTC. -/
@[reducible, local instance] def west : Platform := fixedZone (-8120)

/-- A Sunday, the last of the year. -/
def sunday : Date := .dateTime (.naive ⟨⟨2023, 12, 31⟩, 47105, 250000000⟩)

/-- The instant, whose local time is ten to ten on New Year's Eve. -/
def eve : Date := .dateTime (.loc ⟨⟨2024, 1, 1⟩, 0, 0⟩)

example : Genuine sunday := by unfold sunday; refine ⟨⟨?_, ?_, ?_, ?_⟩, ?_, ?_⟩ <;> decide
example : NumberFor sunday 'I' 2 1 := by
  iterate 11 apply Or.inr
  refine .inl ⟨rfl, rfl, _, rfl, ?_⟩ <;> decide
example : NumberFor sunday 'j' 3 365 := by
  iterate 9 apply Or.inr
  refine .inl ⟨rfl, rfl, 364, ?_, rfl⟩; decide +kernel
/-- The week of New Year's Day is that of the Thursday after it. -/
example : IsoWeek ⟨2024, 12, 30⟩ 2025 1 :=
  ⟨0, ⟨2025, 1, 2⟩, ⟨by decide, 364, .inl ⟨by decide +kernel, by decide⟩⟩, ⟨by decide, by decide, by decide, by decide⟩, .inl ⟨by decide, by decide +kernel⟩, rfl, 1,
    by decide +kernel, rfl⟩
example : WeekFrom 6 ⟨2024, 1, 6⟩ 0 :=
  ⟨⟨2024, 1, 7⟩, 6, by decide, by decide +kernel, ⟨by decide, 6, .inl ⟨by decide +kernel, by decide⟩⟩, .inl ⟨rfl, 1, by decide, by decide +kernel⟩⟩
example : WeekFrom 6 ⟨2024, 1, 15⟩ 2 :=
  ⟨⟨2024, 1, 7⟩, 6, by decide, by decide +kernel, ⟨by decide, 6, .inl ⟨by decide +kernel, by decide⟩⟩, .inr ⟨8, by decide +kernel, by decide⟩⟩
example : (Date.date ⟨2024, 12, 30⟩).format c!"%G-W%V-%u %g %C %q %U %W" = some c!"2025-W01-1 25 20 4 52 53" := by decide +kernel
example : (Date.date ⟨2021, 1, 3⟩).format c!"%G-W%V-%u %g %C %q %U %W" = some c!"2020-W53-7 20 20 1 01 00" := by decide +kernel
example : (Date.date ⟨2022, 1, 1⟩).format c!"%G-W%V-%u %U %W" = some c!"2021-W52-6 00 00" := by decide +kernel
example : DayOfWeek (shownDay sunday) 6 := ⟨by decide, 1, .inr ⟨by decide +kernel, by decide⟩⟩
example : sunday.format c!"%A, %-d %B %Y, %l:%M:%S%.f %p" = some c!"Sunday, 31 December 2023,  1:05:05.250 PM" := by decide +kernel
example : sunday.format c!"%c|%j|%u|%w|%s" = some c!"Sun Dec 31 13:05:05 2023|365|7|0|1704027905" := by decide +kernel
example : eve.format c!"%F %T %z %:z %::z %:::z %Z %s" = some c!"2023-12-31 21:44:40 -0215 -02:15 -02:15:20 -02 -02:15:20 1704067200" := by decide +kernel
example : eve.format c!"%+" = some c!"2023-12-31T21:44:40-02:15" := by decide +kernel
example : sunday.format c!"%+" = none := by decide +kernel
example : eve.format c!"%#z" = none := by decide +kernel
example : sunday.format c!"%z" = none := by decide +kernel
example : (Date.date ⟨2023, 12, 31⟩).format c!"%F %H" = none := by decide +kernel
example : sunday.format c!"100%" = none := by decide +kernel
example : Pieces c!"%F at %-H" [c!"%F", c!" ", c!"a", c!"t", c!" ", c!"%-H"] := by
  refine ⟨rfl, ?_⟩
  simp only [List.forall_mem_cons]
  refine ⟨.inr (.inl (by decide +kernel)), .inl ⟨_, ?_, rfl⟩, .inl ⟨_, ?_, rfl⟩, .inl ⟨_, ?_, rfl⟩, .inl ⟨_, ?_, rfl⟩, .inr (.inr (.inl (by decide +kernel))), ?_⟩ <;>
    first | decide | (intro _ h; cases h)
/-- A piece that is no directive cannot be completed by what follows. -/
example : ¬ ∃ ps, Pieces c!"%" ps := by
  rintro ⟨ps, h⟩
  have := C84_concat sunday h c!"Y"
  revert this
  decide +kernel

end

end Ikal
