import Verif.Values
import Verif.Spec.Grammar
import Verif.Lemmas.Num
import Verif.TestPlatform

/-! # C23 – C28: names, classifications and numbers -/

namespace Ikal

open Nom Spec

/-! ## C23: enumerations -/

/-- **C23**, status: a string is accepted exactly when it is the name of the result; anything else is rejected
with that string. -/
theorem C23_status (s : Str) :
    (∀ v : Status, Status.ofStr s = .ok v ↔ s = statusName v) ∧ ((∀ v : Status, s ≠ statusName v) → Status.ofStr s = .err (.status s)) := by
  refine ⟨fun v => ?_, fun h => ?_⟩
  · unfold Status.ofStr
    constructor
    · intro h; repeat' split at h
      all_goals first | (cases h; assumption) | cases h
    · rintro rfl; cases v <;> decide
  · unfold Status.ofStr
    have h1 := h .tentative; have h2 := h .confirmed; have h3 := h .cancelled; have h4 := h .needsAction
    have h5 := h .completed; have h6 := h .inProcess; have h7 := h .draft; have h8 := h .final
    simp only [statusName] at h1 h2 h3 h4 h5 h6 h7 h8
    simp only [if_neg h1, if_neg h2, if_neg h3, if_neg h4, if_neg h5, if_neg h6, if_neg h7, if_neg h8]

/-- **C23**, time transparency. -/
theorem C23_transparency (s : Str) :
    (∀ v : TimeTransparency, TimeTransparency.ofStr s = .ok v ↔ s = transparencyName v) ∧
    ((∀ v : TimeTransparency, s ≠ transparencyName v) → TimeTransparency.ofStr s = .err (.timeTransparency s)) := by
  refine ⟨fun v => ?_, fun h => ?_⟩
  · unfold TimeTransparency.ofStr
    constructor
    · intro h; repeat' split at h
      all_goals first | (cases h; assumption) | cases h
    · rintro rfl; cases v <;> decide
  · unfold TimeTransparency.ofStr
    have h1 := h .opaque; have h2 := h .transparent
    simp only [transparencyName] at h1 h2
    simp only [if_neg h1, if_neg h2]

/-- **C23**, frequency. -/
theorem C23_freq (s : Str) :
    (∀ v : Freq, Freq.ofStr s = .ok v ↔ s = freqName v) ∧ ((∀ v : Freq, s ≠ freqName v) → Freq.ofStr s = .err (.freq s)) := by
  refine ⟨fun v => ?_, fun h => ?_⟩
  · unfold Freq.ofStr
    constructor
    · intro h; repeat' split at h
      all_goals first | (cases h; assumption) | cases h
    · rintro rfl; cases v <;> decide
  · unfold Freq.ofStr
    have h1 := h .secondly; have h2 := h .minutely; have h3 := h .hourly; have h4 := h .daily
    have h5 := h .weekly; have h6 := h .monthly; have h7 := h .yearly
    simp only [freqName] at h1 h2 h3 h4 h5 h6 h7
    simp only [if_neg h1, if_neg h2, if_neg h3, if_neg h4, if_neg h5, if_neg h6, if_neg h7]

/-- **C23**: hence every value prints to a string that is read back as it, and no two values print alike. -/
theorem C23_round_trip :
    (∀ v : Status, Status.ofStr v.toStr = .ok v) ∧ (∀ v : TimeTransparency, TimeTransparency.ofStr v.toStr = .ok v) ∧
    (∀ v : Freq, Freq.ofStr v.toStr = .ok v) ∧ (∀ v : Weekday, Weekday.ofStr v.toStr = .ok v) :=
  ⟨fun v => ((C23_status _).1 v).2 (by cases v <;> rfl), fun v => ((C23_transparency _).1 v).2 (by cases v <;> rfl),
   fun v => ((C23_freq _).1 v).2 (by cases v <;> rfl),
   fun v => by cases v <;> decide⟩

/-- Both cases occur. -/
example : (∀ v : Status, c!"DONE" ≠ statusName v) ∧ (∀ v : Freq, c!"daily" ≠ freqName v) :=
  ⟨fun v => by cases v <;> decide, fun v => by cases v <;> decide⟩

/-! ## C24: weekdays -/

theorem ofChars_ok {a b : Char} {w : Weekday} : Weekday.ofChars a b = .ok w ↔ weekdayName w = [a, b] := by
  unfold Weekday.ofChars
  constructor
  · intro h; repeat' split at h
    all_goals (try cases h)
    all_goals (rename_i hh; obtain ⟨rfl, rfl⟩ := hh; rfl)
  · intro h; cases w <;> simp [weekdayName] at h <;> obtain ⟨rfl, rfl⟩ := h <;> decide

theorem ofChars_not_panic (a b : Char) : Weekday.ofChars a b ≠ .panic := by
  unfold Weekday.ofChars; repeat' split
  all_goals simp

/-- **C24**: a weekday is read from the first two characters, whatever follows. -/
theorem C24_weekday (s : Str) (w : Weekday) : Weekday.ofStr s = .ok w ↔ ∃ rest, s = weekdayName w ++ rest := by
  have hw : ∃ x y, weekdayName w = [x, y] := by cases w <;> exact ⟨_, _, rfl⟩
  obtain ⟨x, y, hxy⟩ := hw
  match s with
  | [] => simp [Weekday.ofStr, weekday, mapRes, pair, anychar, NRes.toRes, hxy]
  | [a] => simp [Weekday.ofStr, weekday, mapRes, pair, anychar, NRes.toRes, hxy]
  | a :: b :: r =>
    have e : Weekday.ofStr (a :: b :: r) = .ok w ↔ Weekday.ofChars a b = .ok w := by
      simp only [Weekday.ofStr, weekday, mapRes, pair, anychar]
      cases Weekday.ofChars a b <;> simp [NRes.toRes]
    rw [e, ofChars_ok, hxy]; simp [eq_comm]

/-- **C24**: anything else is a parser error. -/
theorem C24_otherwise_error (s : Str) (h : ∀ (w : Weekday) (rest : Str), s ≠ weekdayName w ++ rest) : Weekday.ofStr s = .err .parser := by
  cases hs : Weekday.ofStr s with
  | ok w => obtain ⟨r, hr⟩ := (C24_weekday s w).1 hs; exact absurd hr (h w r)
  | err e =>
    unfold Weekday.ofStr at hs
    cases hp : weekday s <;> rw [hp] at hs <;> simp_all [NRes.toRes]
  | panic =>
    unfold Weekday.ofStr at hs
    match s with
    | [] => simp [weekday, mapRes, pair, anychar, NRes.toRes] at hs
    | [a] => simp [weekday, mapRes, pair, anychar, NRes.toRes] at hs
    | a :: b :: r =>
      simp only [weekday, mapRes, pair, anychar] at hs
      cases hx : Weekday.ofChars a b <;> rw [hx] at hs <;> simp [NRes.toRes] at hs
      exact absurd hx (ofChars_not_panic a b)

example : Weekday.ofStr c!"MONDAY" = .ok .monday := by decide
example : ∀ (w : Weekday) (rest : Str), c!"mo" ≠ weekdayName w ++ rest := fun w r => by cases w <;> simp [weekdayName]

/-! ## C25: classifications -/

/-- **C25**: reading a classification never fails. -/
theorem C25_total (s : Str) : ∃ v, Class.ofStr s = .ok v := by
  unfold Class.ofStr; repeat' split
  all_goals exact ⟨_, rfl⟩

/-- **C25**: what is read is the standard classification of that name or a custom one with the string as is. -/
theorem C25_read (s : Str) :
    Class.ofStr s = .ok (if s = c!"PUBLIC" then .pub else if s = c!"PRIVATE" then .priv else if s = c!"CONFIDENTIAL" then .confidential
      else .custom s) := by
  unfold Class.ofStr; repeat' split
  all_goals rfl

section
variable [Platform]

/-- **C25**: a printed classification is read back as itself exactly when a custom name is upper case and none of the standard names. -/
theorem C25_round_trip (v : Class) :
    Class.ofStr v.toStr = .ok v ↔
      ∀ s, v = .custom s → upperStr s = s ∧ s ≠ c!"PUBLIC" ∧ s ≠ c!"PRIVATE" ∧ s ≠ c!"CONFIDENTIAL" := by
  cases v with
  | pub => simp [Class.toStr, Class.ofStr]
  | priv => simp [Class.toStr, Class.ofStr]
  | confidential => simp [Class.toStr, Class.ofStr]
  | custom s =>
    show Class.ofStr (upperStr s) = _ ↔ _
    rw [C25_read]
    simp only [Class.custom.injEq, forall_eq', Res.ok.injEq]
    generalize upperStr s = u
    by_cases h1 : u = c!"PUBLIC"
    · rw [if_pos h1]; simp; rintro rfl h; exact absurd h1 h
    by_cases h2 : u = c!"PRIVATE"
    · rw [if_neg h1, if_pos h2]; simp; rintro rfl _ h; exact absurd h2 h
    by_cases h3 : u = c!"CONFIDENTIAL"
    · rw [if_neg h1, if_neg h2, if_pos h3]; simp; rintro rfl _ _; exact h3
    rw [if_neg h1, if_neg h2, if_neg h3]
    simp only [Class.custom.injEq]
    exact ⟨fun h => h ▸ ⟨rfl, h1, h2, h3⟩, fun h => h.1⟩

end

/-- Both sides of `C25_round_trip` occur. -/
example : (letI := utc; Class.ofStr (Class.custom c!"X-SECRET").toStr) = .ok (.custom c!"X-SECRET") := by decide +kernel
example : (letI := utc; Class.ofStr (Class.custom c!"secret").toStr) = .ok (.custom c!"SECRET") := by decide +kernel
example : (letI := utc; Class.ofStr (Class.custom c!"public").toStr) = .ok .pub := by decide +kernel

/-! ## C26: priorities -/

/-- **C26**: a priority is accepted exactly when it is a decimal number from 0 to 9. -/
theorem C26_priority (l : ContentLine) (n : Nat) : priority l = .ok n ↔ IsUnsigned l.value n ∧ n ≤ 9 := by
  unfold priority parseU8 u8Max
  cases h : parseUnsigned 255 l.value with
  | none =>
    simp only [false_iff, reduceCtorEq]
    rintro ⟨h1, h2⟩
    rw [parseUnsigned_some.2 ⟨h1, by omega⟩] at h; cases h
  | some m =>
    have hm := parseUnsigned_some.1 h
    dsimp only
    constructor
    · intro h1; split at h1
      · cases h1
      · cases h1; exact ⟨hm.1, by omega⟩
    · rintro ⟨h1, h2⟩
      have := parseUnsigned_some.2 ⟨h1, show n ≤ 255 by omega⟩
      rw [h] at this; cases this
      rw [if_neg (by omega)]

/-- **C26**: a larger 8-bit number is rejected with the error carrying it. -/
theorem C26_too_large (l : ContentLine) (n : Nat) (h : IsUnsigned l.value n) (h1 : 9 < n) (h2 : n ≤ 255) : priority l = .err (.priority n) := by
  unfold priority parseU8 u8Max
  rw [parseUnsigned_some.2 ⟨h, h2⟩]
  simp [h1]

/-- **C26**: anything else is rejected as not a number. -/
theorem C26_not_a_number (l : ContentLine) (h : ∀ n, IsUnsigned l.value n → 255 < n) : priority l = .err .parseInt := by
  unfold priority parseU8 u8Max
  cases hp : parseUnsigned 255 l.value with
  | none => rfl
  | some m => have := parseUnsigned_some.1 hp; have := h m this.1; omega

example : IsUnsigned c!"+007" 7 := ⟨c!"007", ⟨by simp, by decide⟩, by decide, .inr rfl⟩
example : priority ⟨[], [], c!"10"⟩ = .err (.priority 10) := by decide

/-! ## C27: integers -/

/-- **C27**: 8-bit unsigned properties: the value read is the number written, or an error. -/
theorem C27_u8 (l : ContentLine) (n : Nat) : percentComplete l = .ok n ↔ IsUnsigned l.value n ∧ n ≤ 255 := by
  rw [← parseUnsigned_some]
  unfold percentComplete parseU8 u8Max
  cases parseUnsigned 255 l.value <;> simp [Res.ofOption]

/-- **C27**: 32-bit unsigned properties. -/
theorem C27_u32 (l : ContentLine) (n : Nat) : u32Prop l = .ok n ↔ IsUnsigned l.value n ∧ n ≤ 4294967295 := by
  rw [← parseUnsigned_some]
  unfold u32Prop parseU32 u32Max
  cases parseUnsigned 4294967295 l.value <;> simp [Res.ofOption]

/-- **C27**: a list of 8-bit signed numbers, as in the `BY` items. -/
theorem C27_i8_list (s : Str) (ns : List Int) :
    byList s = .ok ns ↔ ListOf (fun x n => IsSigned x n ∧ -128 ≤ n ∧ n ≤ 127) s ns := by
  have key : ∀ x n, Res.ofOption .parseInt (parseI8 x) = .ok n ↔ IsSigned x n ∧ -128 ≤ n ∧ n ≤ 127 := by
    intro x n
    rw [← parseSigned_some]
    unfold parseI8
    cases parseSigned (-128) 127 x <;> simp [Res.ofOption]
  unfold byList
  rw [mapM'_all2, listOf_iff]
  exact ⟨fun h => All2.imp (fun x n => (key x n).1) h, fun h => All2.imp (fun x n => (key x n).2) h⟩

/-- **C27**: every number is written so that it is read back. -/
theorem C27_round_trip (l : ContentLine) :
    (∀ n : Nat, n ≤ 255 → Ser.ical n = .ok l.value → percentComplete l = .ok n) ∧
    (∀ n : Nat, n ≤ 9 → Ser.ical n = .ok l.value → priority l = .ok n) ∧
    (∀ n : Nat, n ≤ 4294967295 → Ser.ical n = .ok l.value → u32Prop l = .ok n) ∧
    (∀ n : Int, -128 ≤ n → n ≤ 127 → Ser.ical n = .ok l.value → byList l.value = .ok [n]) := by
  have hn : ∀ n : Nat, Ser.ical n = .ok l.value → IsUnsigned l.value n := by
    intro n h; simp [Ser.ical] at h; rw [← h]; exact isUnsigned_natStr n
  refine ⟨fun n h h' => (C27_u8 l n).2 ⟨hn n h', h⟩, fun n h h' => (C26_priority l n).2 ⟨hn n h', h⟩,
    fun n h h' => (C27_u32 l n).2 ⟨hn n h', h⟩, fun n h1 h2 h => ?_⟩
  simp [Ser.ical] at h
  have hs : splitOn ',' l.value = [l.value] := by
    refine splitOn_none ?_
    rw [← h]; unfold intStr
    have hd : ',' ∉ natStr n.natAbs := fun hc => by have := natStr_digits _ _ hc; revert this; decide
    split <;> simp [hd]
  rw [C27_i8_list, listOf_iff, hs]
  exact .cons ⟨h ▸ isSigned_intStr n, h1, h2⟩ .nil

example : IsSigned c!"-128" (-128) ∧ ¬ (-128 : Int) ≤ -129 := ⟨⟨c!"128", ⟨by simp, by decide⟩, .inr ⟨rfl, by decide⟩⟩, by decide⟩

/-! ## C28: numbered weekdays -/

/-- **C28**: every numbered weekday prints to a string that is read back as it. -/
theorem C28_round_trip (w : WeekdayNum) (h : ∀ n, w.ord = some n → -128 ≤ n ∧ n ≤ 127) : WeekdayNum.ofStr w.toStr = .ok w := by
  obtain ⟨d, o⟩ := w
  have hd : weekday d.toStr = .ok [] d := by cases d <;> decide
  have hh : ∀ c, d.toStr.head? = some c → c.isDigit = false := by
    intro c hc; cases d <;> simp [Weekday.toStr] at hc <;> subst hc <;> decide
  unfold WeekdayNum.ofStr WeekdayNum.toStr weekdaynum
  cases o with
  | none =>
    have : nomI8 d.toStr = .err := by
      cases d <;> exact nomI8_alpha (by decide) (by decide) (by decide) _
    simp [map, pair, opt, this, hd, NRes.toRes]
  | some n =>
    obtain ⟨h1, h2⟩ := h n rfl
    have := nomI8_intStr h1 h2 hh
    simp [map, pair, opt, this, hd, NRes.toRes]

theorem weekday_ok {i r : Str} {w : Weekday} : weekday i = .ok r w ↔ i = weekdayName w ++ r := by
  have hw : ∃ x y, weekdayName w = [x, y] := by cases w <;> exact ⟨_, _, rfl⟩
  obtain ⟨x, y, hxy⟩ := hw
  match i with
  | [] => simp [weekday, mapRes, pair, anychar, hxy]
  | [a] => simp [weekday, mapRes, pair, anychar, hxy]
  | a :: b :: q =>
    simp only [weekday, mapRes, pair, anychar]
    have e := ofChars_ok (a := a) (b := b) (w := w)
    rw [hxy] at e ⊢
    cases hc : Weekday.ofChars a b with
    | ok v =>
      rw [hc] at e
      simp only [NRes.ok.injEq, List.cons_append, List.nil_append, List.cons.injEq]
      simp only [Res.ok.injEq, List.cons.injEq, and_true] at e
      constructor
      · rintro ⟨rfl, hv⟩; obtain ⟨rfl, rfl⟩ := e.1 hv; exact ⟨rfl, rfl, rfl⟩
      · rintro ⟨rfl, rfl, rfl⟩; exact ⟨rfl, e.2 ⟨rfl, rfl⟩⟩
    | err _ =>
      rw [hc] at e
      simp only [reduceCtorEq, List.cons_append, List.nil_append, List.cons.injEq, false_iff]
      rintro ⟨rfl, rfl, rfl⟩; exact absurd (e.2 rfl) (by simp)
    | panic => exact absurd hc (ofChars_not_panic a b)

/-- **C28**: the texts that are numbered weekdays: an optional number from -128 to 127, with or without a sign, and the name of a
day; what follows is ignored. -/
theorem C28_grammar (s : Str) (w : WeekdayNum) : WeekdayNum.ofStr s = .ok w ↔ WeekdayNumText s w := by
  obtain ⟨d, o⟩ := w
  have hn : ∀ (v : Weekday) (q : Str) (c : Char), (weekdayName v ++ q).head? = some c → c.isDigit = false := by
    intro v q c hc; cases v <;> simp [weekdayName] at hc <;> subst hc <;> decide
  have hs : ∀ (v : Weekday) (q : Str), nomI8 (weekdayName v ++ q) = .err := by
    intro v q; cases v <;> exact nomI8_alpha (by decide) (by decide) (by decide) _
  have hne : ∀ (v : Weekday) (q t x : Str) (n : Int), IsSigned t n → weekdayName v ++ q ≠ t ++ x := by
    rintro v q t x n ⟨ds, hd, h⟩ e
    obtain ⟨c, r, rfl, hc⟩ := Digits_head hd
    rcases h with ⟨rfl | rfl, _⟩ | ⟨rfl, _⟩ <;> cases v <;> simp [weekdayName] at e <;> obtain ⟨rfl, -⟩ := e <;> revert hc <;> decide
  have hw : WeekdayNum.ofStr s = .ok ⟨d, o⟩ ↔ ∃ i r, opt nomI8 s = .ok i o ∧ i = weekdayName d ++ r := by
    unfold WeekdayNum.ofStr weekdaynum map pair
    cases ho : opt nomI8 s with
    | err => simp [NRes.toRes]
    | panic => simp [NRes.toRes]
    | ok i o' =>
      simp only []
      cases hx : weekday i with
      | err =>
        simp only [NRes.toRes, reduceCtorEq, NRes.ok.injEq, false_iff]
        rintro ⟨_, r, ⟨rfl, _⟩, e⟩; rw [weekday_ok.2 e] at hx; cases hx
      | panic =>
        simp only [NRes.toRes, reduceCtorEq, NRes.ok.injEq, false_iff]
        rintro ⟨_, r, ⟨rfl, _⟩, e⟩; rw [weekday_ok.2 e] at hx; cases hx
      | ok r v =>
        have := weekday_ok.1 hx
        simp only [NRes.toRes, Res.ok.injEq, WeekdayNum.mk.injEq, NRes.ok.injEq]
        constructor
        · rintro ⟨rfl, rfl⟩; exact ⟨i, r, ⟨rfl, rfl⟩, this⟩
        · rintro ⟨_, q, ⟨rfl, rfl⟩, e⟩
          rw [weekday_ok.2 e] at hx; cases hx; exact ⟨rfl, rfl⟩
  rw [hw]
  unfold WeekdayNumText opt
  cases o with
  | none =>
    simp only []
    constructor
    · rintro ⟨i, r, h, rfl⟩
      cases hi : nomI8 s with
      | ok _ _ => rw [hi] at h; cases h
      | panic => rw [hi] at h; cases h
      | err => rw [hi] at h; cases h; exact ⟨r, rfl⟩
    · rintro ⟨r, rfl⟩; rw [hs]; exact ⟨_, r, rfl, rfl⟩
  | some n =>
    simp only []
    constructor
    · rintro ⟨i, r, h, rfl⟩
      cases hi : nomI8 s with
      | err => rw [hi] at h; cases h
      | panic => rw [hi] at h; cases h
      | ok q m =>
        rw [hi] at h; cases h
        obtain ⟨t, h1, h2, h3, h4, h5⟩ := nomI8_ok.1 hi
        exact ⟨t, r, h1, h2, h3, by rw [h4, List.append_assoc]⟩
    · rintro ⟨t, r, h1, h2, h3, rfl⟩
      rw [nomI8_ok.2 ⟨t, h1, h2, h3, List.append_assoc _ _ _, hn d r⟩]
      exact ⟨_, r, rfl, rfl⟩

/-- **C28**: anything else is a parser error. -/
theorem C28_otherwise_error (s : Str) (h : ∀ w, ¬ WeekdayNumText s w) : WeekdayNum.ofStr s = .err .parser := by
  cases hs : WeekdayNum.ofStr s with
  | ok w => exact absurd ((C28_grammar s w).1 hs) (h w)
  | err e =>
    unfold WeekdayNum.ofStr at hs
    cases hp : weekdaynum s <;> rw [hp] at hs <;> simp_all [NRes.toRes]
  | panic =>
    unfold WeekdayNum.ofStr at hs
    cases hp : weekdaynum s with
    | ok _ _ => rw [hp] at hs; simp [NRes.toRes] at hs
    | err => rw [hp] at hs; simp [NRes.toRes] at hs
    | panic =>
      unfold weekdaynum at hp
      rw [map_panic] at hp
      unfold pair at hp
      cases h1 : opt nomI8 s with
      | ok r a =>
        rw [h1] at hp
        cases h2 : weekday r with
        | ok _ _ => simp [h2] at hp
        | err => simp [h2] at hp
        | panic =>
          match r with
          | [] => simp [weekday, mapRes, pair, anychar] at h2
          | [a] => simp [weekday, mapRes, pair, anychar] at h2
          | a :: b :: r =>
            simp only [weekday, mapRes, pair, anychar] at h2
            cases hx : Weekday.ofChars a b <;> rw [hx] at h2 <;> simp at h2
            exact absurd hx (ofChars_not_panic a b)
      | err => rw [h1] at hp; simp at hp
      | panic =>
        rw [opt_panic] at h1
        unfold nomI8 at h1
        repeat' split at h1
        all_goals simp at h1

example : WeekdayNum.ofStr c!"-1MO" = .ok ⟨.monday, some (-1)⟩ := by decide
example : WeekdayNumText c!"+02TUESDAY" ⟨.tuesday, some 2⟩ := (C28_grammar _ _).1 (by decide)
example : ∀ w, ¬ WeekdayNumText c!"200MO" w := fun w h => by
  have := (C28_grammar _ _).2 h
  have e : WeekdayNum.ofStr c!"200MO" = .err .parser := by decide
  rw [e] at this; cases this

end Ikal
