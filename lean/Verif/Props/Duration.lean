import Verif.Lemmas.Duration
import Verif.TestPlatform

/-! # C31 – C34: durations and offsets -/

namespace Ikal

open Nom Spec

theorem maxNanos_eq : TimeDelta.maxNanos = 9223372036854775807000000 := by decide

/-! ## C32 -/

/-- **C32**: a duration written with any of sign, weeks, days, hours, minutes and seconds (in this order) is read as the exact
sum, if that fits; otherwise reading it panics.  Whatever follows (not a digit or `T`) is ignored. -/
theorem C32_exact_sum (f : DurationFields) (hf : f.Ok) (l : ContentLine) (r : Str) (hr : ∀ c, r.head? = some c → c.isDigit = false ∧ c ≠ 'T')
    (hl : l.value = f.text ++ r) :
    (f.seconds ≤ 9223372036854775 → duration l = .ok ⟨f.nanos⟩) ∧ (9223372036854775 < f.seconds → duration l = .panic) := by
  have he : Ends r := ⟨fun c h => (hr c h).1, fun h => (hr _ h).2 rfl⟩
  have h := durationP_text f hf he
  rw [maxNanos_eq] at h
  unfold duration
  rw [hl]
  constructor
  · intro hb; rw [h.1 (by omega)]; rfl
  · intro hb; rw [h.2 (by omega)]; rfl

theorem durTime_ok_shape {i r : Str} {x : Int × Int × Int} (h : durTime i = .ok r x) :
    ∃ a b c, DurationFields.NumberOk a ∧ DurationFields.NumberOk b ∧ DurationFields.NumberOk c ∧
      i = 'T' :: (unitText a 'H' ++ unitText b 'M' ++ unitText c 'S') ++ r ∧ x = ((amount a : Int), (amount b : Int), (amount c : Int)) := by
  have unit : ∀ {u : Char} {i r : Str} {a : Option Int}, u.isDigit = false → opt (durUnit u) i = .ok r a →
      ∃ n, DurationFields.NumberOk n ∧ i = unitText n u ++ r ∧ a.getD 0 = amount n := by
    intro u i r a hu h
    rcases opt_ok.1 h with ⟨x, rfl, hx⟩ | ⟨rfl, rfl, _⟩
    · obtain ⟨ds, h1, rfl, rfl, h4⟩ := (durUnit_ok hu).1 hx
      exact ⟨some ds, fun _ e => by cases e; exact ⟨h1, h4⟩, by simp [unitText], rfl⟩
    · exact ⟨none, fun _ e => (by cases e), rfl, rfl⟩
  unfold durTime at h
  simp only [map_ok, preceded_ok, tag_ok, pair_ok] at h
  obtain ⟨p, ⟨r1, _, ⟨rfl, _⟩, r2, h1, r3, h2, h3⟩, hx⟩ := h
  obtain ⟨a, ha, rfl, ea⟩ := unit (by decide) h1
  obtain ⟨b, hb, rfl, eb⟩ := unit (by decide) h2
  obtain ⟨c, hc, rfl, ec⟩ := unit (by decide) h3
  exact ⟨a, b, c, ha, hb, hc, by simp, by rw [← hx, ea, eb, ec]⟩

/-- **C32**, conversely: whatever text is read as a duration begins with a duration written that way, and it is the sum. -/
theorem C32_only (l : ContentLine) (d : TimeDelta) (h : duration l = .ok d) :
    ∃ f r, DurationFields.Ok f ∧ l.value = f.text ++ r ∧ d.nanos = f.nanos := by
  have unit : ∀ {u : Char} {i r : Str} {a : Option Int}, u.isDigit = false → opt (durUnit u) i = .ok r a →
      ∃ n, DurationFields.NumberOk n ∧ i = unitText n u ++ r ∧ a.getD 0 = amount n := by
    intro u i r a hu h
    rcases opt_ok.1 h with ⟨x, rfl, hx⟩ | ⟨rfl, rfl, _⟩
    · obtain ⟨ds, h1, rfl, rfl, h4⟩ := (durUnit_ok hu).1 hx
      exact ⟨some ds, fun _ e => by cases e; exact ⟨h1, h4⟩, by simp [unitText], rfl⟩
    · exact ⟨none, fun _ e => (by cases e), rfl, rfl⟩
  unfold duration at h
  cases hp : durationP l.value with
  | err => rw [hp] at h; cases h
  | panic => rw [hp] at h; cases h
  | ok r x =>
    rw [hp] at h
    cases h
    unfold durationP at hp
    rw [mapRes_ok] at hp
    obtain ⟨⟨neg, w, dd, t⟩, h1, h2⟩ := hp
    simp only [pair_ok, preceded_ok, tag_ok] at h1
    obtain ⟨r1, h3, r2, _, ⟨rfl, _⟩, r3, h4, r4, h5, h6⟩ := h1
    obtain ⟨a, ha, rfl, ea⟩ := unit (by decide) h4
    obtain ⟨b, hb, rfl, eb⟩ := unit (by decide) h5
    have hneg : l.value = (if neg.isSome then ['-'] else []) ++ 'P' :: (unitText a 'W' ++ (unitText b 'D' ++ r4)) := by
      rcases opt_ok.1 h3 with ⟨x, rfl, hx⟩ | ⟨rfl, hx, _⟩
      · rw [tag_ok] at hx; simpa using hx.1
      · simpa using hx.symm
    have hx := unwrap_ok.1 h2
    simp only [ea, eb] at hx
    have fin : ∀ (tt : Option (Option Str × Option Str × Option Str)) (r : Str),
        DurationFields.Ok ⟨neg.isSome, a, b, tt⟩ →
        l.value = (⟨neg.isSome, a, b, tt⟩ : DurationFields).text ++ r →
        t = (tt.map fun (h, m, s) => ((amount h : Int), (amount m : Int), (amount s : Int))) →
        ∃ f r, DurationFields.Ok f ∧ l.value = f.text ++ r ∧ d.nanos = f.nanos := by
      intro tt r hok he ht
      have hs := durSum_fields ⟨neg.isSome, a, b, tt⟩
      simp only at hs
      rw [← ht, hx] at hs
      split at hs
      · cases hs
        exact ⟨_, r, hok, he, rfl⟩
      · cases hs
    rcases opt_ok.1 h6 with ⟨y, rfl, hy⟩ | ⟨rfl, rfl, _⟩
    · obtain ⟨c1, c2, c3, k1, k2, k3, rfl, rfl⟩ := durTime_ok_shape hy
      refine fin (some (c1, c2, c3)) r ⟨ha, hb, fun h m s e => ?_⟩ ?_ rfl
      · cases e; exact ⟨k1, k2, k3⟩
      · rw [hneg]; simp [DurationFields.text]
    · refine fin none r ⟨ha, hb, fun h m s e => (by cases e)⟩ ?_ rfl
      rw [hneg]; simp [DurationFields.text]

/-- **C32**, the limit: a number of more than 63 bits is not an error, it is ignored with everything after it. -/
theorem C32_huge_number_ignored (ds : Str) (hd : Digits ds) (hb : 9223372036854775807 < decimal ds) (l : ContentLine) (r : Str)
    (hl : l.value = c!"P" ++ ds ++ 'D' :: r) : duration l = .ok ⟨0⟩ := by
  have hT : ∀ (c : Char) r, ds ++ c :: r ≠ [] := by simp
  have e1 : durUnit 'W' (ds ++ 'D' :: r) = .err := durUnit_err_other (by decide) (by decide) (by decide) hd
  have e2 : durUnit 'D' (ds ++ 'D' :: r) = .err := by
    refine durUnit_err fun r' n h => ?_
    obtain ⟨ds', h1, h2, _, h4⟩ := (durUnit_ok (by decide)).1 h
    have := (digits_split (Digits_iff.1 hd).2 (Digits_iff.1 h1).2 (by decide) (by decide) h2).1
    rw [this] at hb; omega
  have e3 : durTime (ds ++ 'D' :: r) = .err := by
    refine durTime_err ?_
    obtain ⟨c, s, rfl, hc⟩ := Digits_head hd
    simp
    rintro rfl
    exact absurd hc (by decide)
  have hp : durParts (c!"P" ++ ds ++ 'D' :: r) = .ok (ds ++ 'D' :: r) (none, none, none, none) := by
    unfold durParts
    simp only [pair_ok, preceded_ok, tag_ok]
    refine ⟨_, opt_of_err ?_, _, _, ⟨rfl, rfl⟩, _, opt_of_err e1, _, opt_of_err e2, opt_of_err e3⟩
    rw [tag_err]; rintro ⟨x, hx⟩; simp at hx
  unfold duration
  rw [hl, durationP_ok_of hp (x := ⟨0⟩) (by decide)]
  rfl

/-! ## C31 -/

/-- The fields of a whole number of seconds. -/
def secondsFields (neg : Bool) (n : Nat) : DurationFields := ⟨neg, none, none, some (none, none, some (natStr n))⟩

/-- **C31**: every whole-second duration in range is printed as a text that is read back to it. -/
theorem C31_round_trip (d : TimeDelta) (hv : d.Valid) (hw : d.nanos % 1000000000 = 0) (l : ContentLine) (hl : l.value = d.toStr) :
    duration l = .ok d := by
  obtain ⟨n⟩ := d
  unfold TimeDelta.Valid at hv
  simp only [maxNanos_eq] at hv hw
  by_cases h0 : n = 0
  · subst h0
    have := (C32_exact_sum ⟨false, none, some c!"0", none⟩ ⟨fun _ e => (by cases e), fun _ e => by cases e; exact ⟨⟨by simp, by decide⟩, by decide⟩,
      fun _ _ _ e => (by cases e)⟩ l [] (by simp) (by rw [hl]; decide)).1 (by decide)
    rw [this]
    rfl
  · have hb : n.natAbs / 1000000000 ≤ 9223372036854775 := by omega
    have hok : (secondsFields (decide (n < 0)) (n.natAbs / 1000000000)).Ok := by
      refine ⟨fun _ e => (by cases e), fun _ e => (by cases e), fun h m s e => ?_⟩
      cases e
      refine ⟨fun _ e => (by cases e), fun _ e => (by cases e), fun _ e => ?_⟩
      cases e
      exact ⟨natStr_isDigits _, by rw [decimal_natStr]; omega⟩
    have ht : l.value = (secondsFields (decide (n < 0)) (n.natAbs / 1000000000)).text ++ [] := by
      rw [hl]
      unfold TimeDelta.toStr
      have h1 : ¬ n.natAbs = 0 := by omega
      have h2 : n.natAbs % 1000000000 = 0 := by omega
      simp only [h1, h2, if_true, if_false]
      by_cases hn : n < 0
      · simp [hn, secondsFields, DurationFields.text, unitText]
      · simp [hn, secondsFields, DurationFields.text, unitText]
    have hsec : (secondsFields (decide (n < 0)) (n.natAbs / 1000000000)).seconds = n.natAbs / 1000000000 := by
      simp only [secondsFields, DurationFields.seconds, amount, decimal_natStr]; omega
    have := (C32_exact_sum _ hok l [] (by simp) ht).1 (by rw [hsec]; exact hb)
    rw [this]
    congr 2
    unfold DurationFields.nanos
    rw [hsec]
    simp only [secondsFields]
    by_cases hn : n < 0
    · simp only [hn, decide_true, if_true]; omega
    · simp only [hn, decide_false, Bool.false_eq_true, if_false]; omega

/-- **C31**: a duration with a fraction of a second is printed as a text that is read back as no time at all. -/
theorem C31_fraction_lost (d : TimeDelta) (hw : d.nanos % 1000000000 ≠ 0) (l : ContentLine) (hl : l.value = d.toStr) :
    duration l = .ok ⟨0⟩ := by
  obtain ⟨n⟩ := d
  simp only at hw
  have hsplit : ∀ u : Char, u.isDigit = false → u ≠ '.' → durUnit u (natStr (n.natAbs / 1000000000) ++
      '.' :: (TimeDelta.fracDigits (n.natAbs % 1000000000) ++ ['S'])) = .err :=
    fun u h1 h2 => durUnit_err_other h1 (by decide) h2 (natStr_isDigits _)
  generalize hx : natStr (n.natAbs / 1000000000) ++ '.' :: (TimeDelta.fracDigits (n.natAbs % 1000000000) ++ ['S']) = x at hsplit
  have e : l.value = (if decide (n < 0) = true then ['-'] else []) ++ 'P' :: (unitText none 'W' ++ (unitText none 'D' ++ ('T' :: x))) := by
    rw [hl, ← hx]
    unfold TimeDelta.toStr
    have h1 : ¬ n.natAbs = 0 := by omega
    have h2 : ¬ n.natAbs % 1000000000 = 0 := by omega
    simp only [h1, h2, if_false]
    by_cases hn : n < 0 <;> simp [hn, unitText]
  have ht : durTime ('T' :: x) = .ok x (0, 0, 0) := by
    unfold durTime
    simp only [map_ok, preceded_ok, tag_ok, pair_ok]
    exact ⟨(none, none, none), ⟨x, _, ⟨rfl, rfl⟩, _, opt_of_err (hsplit 'H' (by decide) (by decide)), _,
      opt_of_err (hsplit 'M' (by decide) (by decide)), opt_of_err (hsplit 'S' (by decide) (by decide))⟩, rfl⟩
  have hp := durParts_text (neg := decide (n < 0)) (w := none) (d := none) (fun _ e => (by cases e)) (fun _ e => (by cases e))
    (.inl (by intro c hc; simp at hc; subst hc; decide)) (opt_of_ok ht)
  unfold duration
  rw [e, durationP_ok_of hp (x := ⟨0⟩) ?_]
  · rfl
  · rw [sign_isSome]
    by_cases hn : n < 0
    · simp only [hn, decide_true]; decide
    · simp only [hn, decide_false]; decide

/-! ## C33 -/

set_option linter.unusedSectionVars false
set_option linter.unusedSimpArgs false

section
variable [Platform]

theorem macroDurLoop_digits (time : Bool) (pre : Str) (acc : TimeDelta) (ds r : Str) (h : ∀ c ∈ ds, c.isDigit = true) :
    macroDurLoop time pre acc (ds ++ r) = macroDurLoop time (pre ++ ds) acc r := by
  induction ds generalizing pre with
  | nil => simp
  | cons c ds ih =>
    have hc : c.isDigit = true := h c (by simp)
    have hT : c ≠ 'T' := by rintro rfl; revert hc; decide
    rw [List.cons_append, macroDurLoop, if_neg hT, if_pos hc, ih _ fun x hx => h x (by simp [hx])]
    simp

/-- The unit of a letter. -/
def macroFactor (time : Bool) : Char → Option Nat := if time then timeUnit else dateUnit

omit [Platform] in
theorem macroFactor_cases {time : Bool} {u : Char} {k : Nat} (h : macroFactor time u = some k) :
    u ≠ 'T' ∧ u.isDigit = false ∧ 1 ≤ k := by
  cases time
  · simp only [macroFactor, dateUnit, Bool.false_eq_true, if_false] at h
    split at h
    · next e => subst e; cases h; decide
    · split at h
      · next e => subst e; cases h; decide
      · split at h
        · next e => subst e; cases h; decide
        · cases h
  · simp only [macroFactor, timeUnit, if_true] at h
    split at h
    · next e => subst e; cases h; decide
    · split at h
      · next e => subst e; cases h; decide
      · split at h
        · next e => subst e; cases h; decide
        · cases h

omit [Platform] in
theorem mk?_of {n : Int} (h1 : 0 ≤ n) (h2 : n ≤ 9223372036854775807000000) : TimeDelta.mk? n = some ⟨n⟩ := by
  rw [mk?_eq, maxNanos_eq, if_pos (by omega)]

theorem mulI64_of {k n : Int} (h1 : 0 ≤ k * n) (h2 : k * n ≤ 9223372036854775807) : mulI64 k n = .ok (k * n) := by
  unfold mulI64 i64Max
  rw [if_pos (by omega)]

omit [Platform] in
theorem parseI64_of {ds : Str} (h : Digits ds) (hb : decimal ds ≤ 9223372036854775807) : parseI64 ds = some (decimal ds : Int) :=
  (parseI64_digits (Digits_iff.1 h).2).2 ⟨h, rfl, hb⟩

theorem macroUnit_Y (ds : Str) : macroUnit false 'Y' ds = (Res.ofOption .parseInt (parseI64 ds) >>= fun n => mulI64 365 n >>= fun n => Res.unwrap (TimeDelta.days n)) := rfl
theorem macroUnit_Mo (ds : Str) : macroUnit false 'M' ds = (Res.ofOption .parseInt (parseI64 ds) >>= fun n => mulI64 30 n >>= fun n => Res.unwrap (TimeDelta.days n)) := rfl
theorem macroUnit_D (ds : Str) : macroUnit false 'D' ds = (Res.ofOption .parseInt (parseI64 ds) >>= fun n => Res.unwrap (TimeDelta.days n)) := rfl
theorem macroUnit_H (ds : Str) : macroUnit true 'H' ds = (Res.ofOption .parseInt (parseI64 ds) >>= fun n => Res.unwrap (TimeDelta.hours n)) := rfl
theorem macroUnit_Mi (ds : Str) : macroUnit true 'M' ds = (Res.ofOption .parseInt (parseI64 ds) >>= fun n => Res.unwrap (TimeDelta.minutes n)) := rfl
theorem macroUnit_S (ds : Str) : macroUnit true 'S' ds = (Res.ofOption .parseInt (parseI64 ds) >>= fun n => Res.unwrap (TimeDelta.seconds n)) := rfl

theorem days_of {n : Int} (h1 : 0 ≤ n) (h2 : n * 86400 ≤ 9223372036854775) : Res.unwrap (TimeDelta.days n) = .ok ⟨n * 86400 * 1000000000⟩ := by
  unfold TimeDelta.days TimeDelta.nps; rw [mk?_of (by omega) (by omega)]; rfl
theorem hours_of {n : Int} (h1 : 0 ≤ n) (h2 : n * 3600 ≤ 9223372036854775) : Res.unwrap (TimeDelta.hours n) = .ok ⟨n * 3600 * 1000000000⟩ := by
  unfold TimeDelta.hours TimeDelta.nps; rw [mk?_of (by omega) (by omega)]; rfl
theorem minutes_of {n : Int} (h1 : 0 ≤ n) (h2 : n * 60 ≤ 9223372036854775) : Res.unwrap (TimeDelta.minutes n) = .ok ⟨n * 60 * 1000000000⟩ := by
  unfold TimeDelta.minutes TimeDelta.nps; rw [mk?_of (by omega) (by omega)]; rfl
theorem seconds_of {n : Int} (h1 : 0 ≤ n) (h2 : n ≤ 9223372036854775) : Res.unwrap (TimeDelta.seconds n) = .ok ⟨n * 1000000000⟩ := by
  unfold TimeDelta.seconds TimeDelta.nps; rw [mk?_of (by omega) (by omega)]; rfl

omit [Platform] in
theorem ok_nanos {a b : Int} (h : a = b) : (Res.ok ⟨a⟩ : Res TimeDelta) = .ok ⟨b⟩ := by rw [h]

omit [Platform] in
theorem ofOption_some {α : Type} (e : Error) (a : α) : Res.ofOption e (some a) = .ok a := rfl

theorem macroUnit_ok {time : Bool} {u : Char} {k : Nat} (h : macroFactor time u = some k) {ds : Str} (hd : Digits ds)
    (hb : k * decimal ds ≤ 9223372036854775) : macroUnit time u ds = .ok ⟨((k * decimal ds : Nat) : Int) * 1000000000⟩ := by
  have h3 := (macroFactor_cases h).2.2
  have hp := parseI64_of hd (Nat.le_trans (Nat.le_mul_of_pos_left (decimal ds) h3) (by omega))
  cases time
  · simp only [macroFactor, dateUnit, Bool.false_eq_true, if_false] at h
    split at h
    · next e =>
      subst e; simp only [Option.some.injEq] at h; subst h
      rw [macroUnit_Y, hp, ofOption_some, Res.bind_ok, mulI64_of (by omega) (by omega), Res.bind_ok, days_of (by omega) (by omega)]
      exact ok_nanos (by omega)
    · split at h
      · next e =>
        subst e; simp only [Option.some.injEq] at h; subst h
        rw [macroUnit_Mo, hp, ofOption_some, Res.bind_ok, mulI64_of (by omega) (by omega), Res.bind_ok, days_of (by omega) (by omega)]
        exact ok_nanos (by omega)
      · split at h
        · next e =>
          subst e; simp only [Option.some.injEq] at h; subst h
          rw [macroUnit_D, hp, ofOption_some, Res.bind_ok, days_of (by omega) (by omega)]
          exact ok_nanos (by omega)
        · cases h
  · simp only [macroFactor, timeUnit, if_true] at h
    split at h
    · next e =>
      subst e; simp only [Option.some.injEq] at h; subst h
      rw [macroUnit_H, hp, ofOption_some, Res.bind_ok, hours_of (by omega) (by omega)]
      exact ok_nanos (by omega)
    · split at h
      · next e =>
        subst e; simp only [Option.some.injEq] at h; subst h
        rw [macroUnit_Mi, hp, ofOption_some, Res.bind_ok, minutes_of (by omega) (by omega)]
        exact ok_nanos (by omega)
      · split at h
        · next e =>
          subst e; simp only [Option.some.injEq] at h; subst h
          rw [macroUnit_S, hp, ofOption_some, Res.bind_ok, seconds_of (by omega) (by omega)]
          exact ok_nanos (by omega)
        · cases h

omit [Platform] in
theorem digits_append {a b : Str} (ha : ∀ c ∈ a, c.isDigit = true) (hb : Digits b) : Digits (a ++ b) := by
  rw [Digits_iff] at hb ⊢
  refine ⟨by simp [hb.1], fun c hc => ?_⟩
  rcases List.mem_append.1 hc with h | h
  · exact ha c h
  · exact hb.2 c h

theorem macroDurLoop_chunks (time : Bool) (cs : List (Str × Char)) (hok : ChunksOk (macroFactor time) cs) (pre : Str)
    (hpre : ∀ c ∈ pre, c.isDigit = true) (acc : Nat) (hsum : acc + runningSum (macroFactor time) pre cs ≤ 9223372036854775) (r : Str) :
    macroDurLoop time pre ⟨(acc : Int) * 1000000000⟩ (chunks cs ++ r) =
      macroDurLoop time (pre ++ allDigits cs) ⟨((acc + runningSum (macroFactor time) pre cs : Nat) : Int) * 1000000000⟩ r := by
  induction cs generalizing pre acc with
  | nil => simp [chunks, allDigits, runningSum]
  | cons p cs ih =>
    obtain ⟨ds, u⟩ := p
    obtain ⟨hd, hu⟩ := hok _ (by simp : (ds, u) ∈ (ds, u) :: cs)
    simp only at hd hu
    obtain ⟨k, hk⟩ : ∃ k, macroFactor time u = some k := by
      cases h : macroFactor time u with
      | none => exact absurd h hu
      | some k => exact ⟨k, rfl⟩
    obtain ⟨h1, h2, h3⟩ := macroFactor_cases hk
    rw [runningSum, hk, Option.getD_some] at hsum
    have hpd := digits_append hpre hd
    have hm := macroUnit_ok hk hpd (by omega)
    rw [chunks, List.append_assoc, List.cons_append, macroDurLoop_digits _ _ _ _ _ (Digits_iff.1 hd).2, macroDurLoop, if_neg h1, if_neg (by simp [h2]), hm, Res.bind_ok]
    unfold TimeDelta.add
    simp only []
    rw [mk?_of (by omega) (by omega)]
    simp only [Res.unwrap, Res.bind_ok]
    have e : ((acc : Int) * 1000000000 + ((k * decimal (pre ++ ds) : Nat) : Int) * 1000000000) = ((acc + k * decimal (pre ++ ds) : Nat) : Int) * 1000000000 := by omega
    rw [e, ih (fun p hp => hok p (by simp [hp])) _ (Digits_iff.1 hpd).2 _ (by omega)]
    rw [allDigits, runningSum, hk, Option.getD_some, List.append_assoc, Nat.add_assoc]

omit [Platform] in
theorem allDigits_digits {unit : Char → Option Nat} {cs : List (Str × Char)} (h : ChunksOk unit cs) : ∀ c ∈ allDigits cs, c.isDigit = true := by
  induction cs with
  | nil => simp [allDigits]
  | cons p cs ih =>
    intro c hc
    rw [allDigits, List.mem_append] at hc
    rcases hc with hc | hc
    · exact (Digits_iff.1 (h p (by simp)).1).2 c hc
    · exact ih (fun q hq => h q (by simp [hq])) c hc

theorem parseDuration_pos (r : Str) : parseDuration ('P' :: r) = (macroDurLoop false [] TimeDelta.zero r).map (fun d => d) := rfl
theorem parseDuration_neg (r : Str) : parseDuration ('-' :: 'P' :: r) = (macroDurLoop false [] TimeDelta.zero r).map TimeDelta.neg := rfl

/-- **C33**: in the syntax of the macros (and of `FromStr` for triggers) the number of a unit is read with the digits of all the
units before it. -/
theorem C33_macro_value (neg : Bool) (cs ts : List (Str × Char)) (hc : ChunksOk dateUnit cs) (ht : ChunksOk timeUnit ts)
    (hb : runningSum dateUnit [] cs + runningSum timeUnit (allDigits cs) ts ≤ 9223372036854775) :
    parseDuration ((if neg then c!"-P" else c!"P") ++ chunks cs ++ 'T' :: chunks ts) =
      .ok ⟨(if neg then -1 else 1) * (((runningSum dateUnit [] cs + runningSum timeUnit (allDigits cs) ts : Nat) : Int) * 1000000000)⟩ := by
  have key : macroDurLoop false [] TimeDelta.zero (chunks cs ++ 'T' :: chunks ts) =
      .ok ⟨((runningSum dateUnit [] cs + runningSum timeUnit (allDigits cs) ts : Nat) : Int) * 1000000000⟩ := by
    have h1 := macroDurLoop_chunks false cs hc [] (by simp) 0 (by rw [show macroFactor false = dateUnit from rfl]; omega) ('T' :: chunks ts)
    have h2 := macroDurLoop_chunks true ts ht (allDigits cs) (allDigits_digits hc) (runningSum dateUnit [] cs) hb []
    rw [show macroFactor false = dateUnit from rfl, Nat.zero_add, List.nil_append] at h1
    rw [show macroFactor true = timeUnit from rfl, List.append_nil] at h2
    have h0 : (⟨((0 : Nat) : Int) * 1000000000⟩ : TimeDelta) = TimeDelta.zero := rfl
    rw [h0] at h1
    rw [h1, macroDurLoop, if_pos rfl, h2, macroDurLoop]
  cases neg
  · show parseDuration ('P' :: (chunks cs ++ 'T' :: chunks ts)) = _
    simp only [parseDuration_pos, key, Res.map_ok, Bool.false_eq_true, if_false, Int.one_mul]
  · show parseDuration ('-' :: 'P' :: (chunks cs ++ 'T' :: chunks ts)) = _
    simp only [parseDuration_neg, key, Res.map_ok, if_true, TimeDelta.neg, Int.neg_mul, Int.one_mul]

/-- **C33**: with a single unit (days, hours, minutes or seconds) the macro syntax and iCalendar agree. -/
theorem C33_single_unit_agrees (neg : Bool) (ds : Str) (hd : Digits ds) (u : Char) (k : Nat)
    (hu : u = 'D' ∧ k = 86400 ∨ u = 'H' ∧ k = 3600 ∨ u = 'M' ∧ k = 60 ∨ u = 'S' ∧ k = 1) (hb : k * decimal ds ≤ 9223372036854775)
    (l : ContentLine)
    (hl : l.value = (if neg then c!"-P" else c!"P") ++ (if u = 'D' then [] else ['T']) ++ ds ++ [u]) :
    parseDuration l.value = .ok ⟨(if neg then -1 else 1) * (((k * decimal ds : Nat) : Int) * 1000000000)⟩ ∧
    duration l = parseDuration l.value := by
  have hn : DurationFields.NumberOk (some ds) := fun _ e => by cases e; exact ⟨hd, by rcases hu with ⟨_, rfl⟩ | ⟨_, rfl⟩ | ⟨_, rfl⟩ | ⟨_, rfl⟩ <;> omega⟩
  have hno : DurationFields.NumberOk none := fun _ e => (by cases e)
  have main : ∀ (f : DurationFields), f.Ok → f.negative = neg → f.text = l.value → f.seconds = k * decimal ds →
      parseDuration l.value = .ok ⟨(if neg then -1 else 1) * (((k * decimal ds : Nat) : Int) * 1000000000)⟩ →
      parseDuration l.value = .ok ⟨(if neg then -1 else 1) * (((k * decimal ds : Nat) : Int) * 1000000000)⟩ ∧
      duration l = parseDuration l.value := by
    intro f hf hneg ht hs hm
    refine ⟨hm, ?_⟩
    rw [hm, (C32_exact_sum f hf l [] (by simp) (by rw [ht]; simp)).1 (by omega)]
    rw [DurationFields.nanos, hs, hneg]
  rcases hu with ⟨rfl, rfl⟩ | ⟨rfl, rfl⟩ | ⟨rfl, rfl⟩ | ⟨rfl, rfl⟩
  · refine main ⟨neg, none, some ds, none⟩ ⟨hno, hn, fun _ _ _ e => (by cases e)⟩ rfl ?_ ?_ ?_
    · rw [hl]; cases neg <;> simp [DurationFields.text, unitText]
    · simp [DurationFields.seconds, amount]; omega
    · have h1 := macroDurLoop_chunks false [(ds, 'D')] (by intro p hp; simp at hp; subst hp; exact ⟨hd, by simp [macroFactor, timeUnit, dateUnit]⟩) [] (by simp) 0
        (by simp [runningSum, macroFactor, dateUnit]; omega) []
      have e : runningSum (macroFactor false) [] [(ds, 'D')] = 86400 * decimal ds := by simp [runningSum, macroFactor, dateUnit]
      rw [e, Nat.zero_add, List.append_nil, show chunks [(ds, 'D')] = ds ++ ['D'] by simp [chunks]] at h1
      have h0 : (⟨((0 : Nat) : Int) * 1000000000⟩ : TimeDelta) = TimeDelta.zero := rfl
      rw [h0] at h1
      rw [hl]
      cases neg
      · show parseDuration ('P' :: (ds ++ ['D'])) = _
        simp only [parseDuration_pos, h1, macroDurLoop, Res.map_ok, Bool.false_eq_true, if_false, Int.one_mul]
      · show parseDuration ('-' :: 'P' :: (ds ++ ['D'])) = _
        simp only [parseDuration_neg, h1, macroDurLoop, Res.map_ok, if_true, TimeDelta.neg, Int.neg_mul, Int.one_mul]
  · refine main ⟨neg, none, none, some (some ds, none, none)⟩ ⟨hno, hno, fun _ _ _ e => by cases e; exact ⟨hn, hno, hno⟩⟩ rfl ?_ ?_ ?_
    · rw [hl]; cases neg <;> simp [DurationFields.text, unitText]
    · simp [DurationFields.seconds, amount]; omega
    · have := C33_macro_value neg [] [(ds, 'H')] (by intro p hp; simp at hp) (by intro p hp; simp at hp; subst hp; exact ⟨hd, by simp [macroFactor, timeUnit, dateUnit]⟩)
        (by simp [runningSum, timeUnit, allDigits]; omega)
      rw [hl]
      simpa [runningSum, timeUnit, allDigits, chunks] using this
  · refine main ⟨neg, none, none, some (none, some ds, none)⟩ ⟨hno, hno, fun _ _ _ e => by cases e; exact ⟨hno, hn, hno⟩⟩ rfl ?_ ?_ ?_
    · rw [hl]; cases neg <;> simp [DurationFields.text, unitText]
    · simp [DurationFields.seconds, amount]; omega
    · have := C33_macro_value neg [] [(ds, 'M')] (by intro p hp; simp at hp) (by intro p hp; simp at hp; subst hp; exact ⟨hd, by simp [macroFactor, timeUnit, dateUnit]⟩)
        (by simp [runningSum, timeUnit, allDigits]; omega)
      rw [hl]
      simpa [runningSum, timeUnit, allDigits, chunks] using this
  · refine main ⟨neg, none, none, some (none, none, some ds)⟩ ⟨hno, hno, fun _ _ _ e => by cases e; exact ⟨hno, hno, hn⟩⟩ rfl ?_ ?_ ?_
    · rw [hl]; cases neg <;> simp [DurationFields.text, unitText]
    · simp [DurationFields.seconds, amount]
    · have := C33_macro_value neg [] [(ds, 'S')] (by intro p hp; simp at hp) (by intro p hp; simp at hp; subst hp; exact ⟨hd, by simp [macroFactor, timeUnit, dateUnit]⟩)
        (by simp [runningSum, timeUnit, allDigits]; omega)
      rw [hl]
      simpa [runningSum, timeUnit, allDigits, chunks] using this

/-- **C33**: with a second unit they disagree whenever the first number is not zero. -/
theorem C33_two_units_differ (a b : Str) (ha : Digits a) (hb : Digits b) (hz : decimal a ≠ 0)
    (hr : decimal a * 86400 + decimal (a ++ b) * 3600 ≤ 9223372036854775) (l : ContentLine) (hl : l.value = 'P' :: a ++ c!"DT" ++ b ++ c!"H") :
    parseDuration l.value = .ok ⟨((decimal a * 86400 + decimal (a ++ b) * 3600 : Nat) : Int) * 1000000000⟩ ∧
    duration l = .ok ⟨((decimal a * 86400 + decimal b * 3600 : Nat) : Int) * 1000000000⟩ ∧ parseDuration l.value ≠ duration l := by
  have hlt : decimal b < decimal (a ++ b) := by
    have := digitsVal_append a b
    rw [digitsVal_eq_decimal, digitsVal_eq_decimal, digitsVal_eq_decimal] at this
    rw [this]
    have hp : 0 < decimal a * 10 ^ b.length := Nat.mul_pos (by omega) (Nat.pow_pos (by omega))
    omega
  have hno : DurationFields.NumberOk none := fun _ e => (by cases e)
  have hM : 9223372036854775 ≤ 9223372036854775807 := by decide
  have ha' : decimal a ≤ 9223372036854775807 :=
    Nat.le_trans (Nat.le_trans (show decimal a ≤ decimal a * 86400 + decimal (a ++ b) * 3600 by omega) hr) hM
  have hb' : decimal b ≤ 9223372036854775807 :=
    Nat.le_trans (Nat.le_trans (show decimal b ≤ decimal a * 86400 + decimal (a ++ b) * 3600 by omega) hr) hM
  have hr' : decimal a * 86400 + decimal b * 3600 ≤ 9223372036854775 :=
    Nat.le_trans (Nat.add_le_add_left (Nat.mul_le_mul_right _ (Nat.le_of_lt hlt)) _) hr
  have h1 : parseDuration l.value = .ok ⟨((decimal a * 86400 + decimal (a ++ b) * 3600 : Nat) : Int) * 1000000000⟩ := by
    have := C33_macro_value false [(a, 'D')] [(b, 'H')] (by intro p hp; simp at hp; subst hp; exact ⟨ha, by simp [dateUnit]⟩)
      (by intro p hp; simp at hp; subst hp; exact ⟨hb, by simp [timeUnit]⟩) (by simp [runningSum, dateUnit, timeUnit, allDigits]; omega)
    rw [hl]
    have e1 : runningSum dateUnit [] [(a, 'D')] + runningSum timeUnit (allDigits [(a, 'D')]) [(b, 'H')] = decimal a * 86400 + decimal (a ++ b) * 3600 := by
      simp [runningSum, dateUnit, timeUnit, allDigits]; omega
    rw [e1] at this
    have e2 : (if false = true then c!"-P" else c!"P") ++ chunks [(a, 'D')] ++ 'T' :: chunks [(b, 'H')] = 'P' :: a ++ c!"DT" ++ b ++ c!"H" := by
      simp [chunks]
    rw [e2] at this
    rw [this]
    simp only [Bool.false_eq_true, if_false, Int.one_mul]
  have h2 : duration l = .ok ⟨((decimal a * 86400 + decimal b * 3600 : Nat) : Int) * 1000000000⟩ := by
    have hs : (⟨false, none, some a, some (some b, none, none)⟩ : DurationFields).seconds = decimal a * 86400 + decimal b * 3600 := by
      simp [DurationFields.seconds, amount]
    rw [(C32_exact_sum ⟨false, none, some a, some (some b, none, none)⟩ ⟨hno, fun _ e => by cases e; exact ⟨ha, ha'⟩,
      fun _ _ _ e => by cases e; exact ⟨fun _ e => by cases e; exact ⟨hb, hb'⟩, hno, hno⟩⟩ l [] (by simp)
      (by rw [hl]; simp [DurationFields.text, unitText])).1 (by rw [hs]; exact hr')]
    unfold DurationFields.nanos
    rw [hs]
    simp only [Bool.false_eq_true, if_false, Int.one_mul]
  refine ⟨h1, h2, ?_⟩
  rw [h1, h2]
  simp only [ne_eq, Res.ok.injEq, TimeDelta.mk.injEq]
  omega

/-- **C33**: the macro syntax has no weeks. -/
theorem C33_weeks_rejected (ds : Str) (hd : Digits ds) (r : Str) : parseDuration ('P' :: ds ++ 'W' :: r) = .err .parseDuration := by
  show parseDuration ('P' :: (ds ++ 'W' :: r)) = _
  rw [parseDuration_pos, macroDurLoop_digits _ _ _ _ _ (Digits_iff.1 hd).2, macroDurLoop, if_neg (by decide), if_neg (by decide)]
  rfl

/-! ## C34 -/

theorem twoDigits_pad2 {n : Nat} (h : n < 100) (r : Str) : FixedOffset.twoDigits (pad2 n ++ r) = some (n / 10, n % 10, r) := by
  have hd := pad2_digits n
  unfold pad2 at *
  simp only [List.cons_append, List.nil_append, FixedOffset.twoDigits]
  rw [if_pos (by simp [hd]), digitVal_digitChar (by omega), digitVal_digitChar (by omega)]
  congr 2; omega

theorem dropColon_pad2 (n : Nat) (r : Str) : (pad2 n ++ r).dropWhile (fun c => c = ':' || isWhitespace c) = pad2 n ++ r := by
  have hd := pad2_digits n (digitChar (n / 10 % 10)) (by simp [pad2])
  unfold pad2
  rw [List.cons_append, List.dropWhile_cons]
  have h1 : digitChar (n / 10 % 10) ≠ ':' := by intro e; rw [e] at hd; revert hd; decide
  have h2 : isWhitespace (digitChar (n / 10 % 10)) = false := by
    have h2 : 48 ≤ (digitChar (n / 10 % 10)).toNat ∧ (digitChar (n / 10 % 10)).toNat ≤ 57 := isDigit_iff.1 hd
    unfold isWhitespace
    simp only [Bool.or_eq_false_iff, Bool.and_eq_false_iff, decide_eq_false_iff_not]
    omega
  simp [h1, h2]

/-- What `FixedOffset.parse` does after the sign. -/
def offsetTail (neg : Bool) (r : Str) : Option FixedOffset :=
  match FixedOffset.twoDigits r with
  | none => none
  | some (h1, h2, r) =>
    match FixedOffset.twoDigits (r.dropWhile fun c => c = ':' || isWhitespace c) with
    | none => none
    | some (m1, m2, _) =>
      if m1 ≤ 5 then
        let secs : Int := ((h1 * 10 + h2) * 3600 + (m1 * 10 + m2) * 60 : Nat)
        FixedOffset.eastOpt (if neg then -secs else secs)
      else none

theorem parse_plus (r : Str) : FixedOffset.parse ('+' :: r) = offsetTail false r := rfl
theorem parse_minus (r : Str) : FixedOffset.parse ('-' :: r) = offsetTail true r := rfl

theorem offset_read (neg : Bool) {h m : Nat} (hh : h < 24) (hm : m < 60) (r : Str) :
    FixedOffset.parse ((if neg then '-' else '+') :: (pad2 h ++ (pad2 m ++ r))) =
      some ⟨(if neg then -1 else 1) * ((h * 3600 + m * 60 : Nat) : Int)⟩ := by
  have e1 : h / 10 * 10 + h % 10 = h := by omega
  have e2 : m / 10 * 10 + m % 10 = m := by omega
  have e3 : m / 10 ≤ 5 := by omega
  have e : FixedOffset.parse ((if neg then '-' else '+') :: (pad2 h ++ (pad2 m ++ r))) = offsetTail neg (pad2 h ++ (pad2 m ++ r)) := by
    cases neg
    · exact parse_plus _
    · exact parse_minus _
  rw [e]
  unfold offsetTail
  simp only [twoDigits_pad2 (show h < 100 by omega), dropColon_pad2, twoDigits_pad2 (show m < 100 by omega), e1, e2, e3, if_true, FixedOffset.eastOpt]
  cases neg
  · rw [if_pos (by simp; omega)]; simp
  · rw [if_pos (by simp; omega)]; simp

/-- **C34**: an offset is read back without its seconds. -/
theorem C34_seconds_dropped (o : FixedOffset) (hv : o.Valid) (l : ContentLine) (hl : l.value = o.toStr) :
    offsetProp l = .ok ⟨(if o.secs < 0 then -1 else 1) * ((o.secs.natAbs / 60 * 60 : Nat) : Int)⟩ := by
  obtain ⟨n⟩ := o
  obtain ⟨h1, h2⟩ := hv
  simp only at h1 h2 ⊢
  obtain ⟨r, hr⟩ : ∃ r, (FixedOffset.mk n).toStr = (if decide (n < 0) = true then '-' else '+') :: (pad2 (n.natAbs / 60 / 60) ++ (pad2 (n.natAbs / 60 % 60) ++ r)) := by
    unfold FixedOffset.toStr
    by_cases hs : n.natAbs % 60 = 0
    · exact ⟨[], by simp [hs]⟩
    · exact ⟨pad2 (n.natAbs % 60), by simp [hs]⟩
  unfold offsetProp
  rw [hl, hr, offset_read _ (by omega) (by omega)]
  simp only [Res.ofOption, decide_eq_true_eq, Res.ok.injEq, FixedOffset.mk.injEq]
  have e : n.natAbs / 60 / 60 * 3600 + n.natAbs / 60 % 60 * 60 = n.natAbs / 60 * 60 := by omega
  rw [e]

/-- **C34**: every offset of a whole number of minutes is printed as a text that is read back to it. -/
theorem C34_round_trip (o : FixedOffset) (hv : o.Valid) (hm : o.secs % 60 = 0) (l : ContentLine) (hl : l.value = o.toStr) :
    offsetProp l = .ok o := by
  rw [C34_seconds_dropped o hv l hl]
  obtain ⟨n⟩ := o
  simp only [Res.ok.injEq, FixedOffset.mk.injEq] at *
  split <;> omega

end

section
attribute [local instance] utc

example : (⟨true, none, some c!"15", some (some c!"5", none, some c!"20")⟩ : DurationFields).Ok ∧
    (⟨true, none, some c!"15", some (some c!"5", none, some c!"20")⟩ : DurationFields).text = c!"-P15DT5H20S" ∧
    duration (ContentLine.ofValue c!"-P15DT5H20S") = .ok ⟨-1314020000000000⟩ := by
  refine ⟨⟨fun _ e => (by cases e), fun _ e => by cases e; exact ⟨⟨by simp, by decide⟩, by decide⟩, fun _ _ _ e => ?_⟩, by decide, by decide⟩
  cases e
  exact ⟨fun _ e => by cases e; exact ⟨⟨by simp, by decide⟩, by decide⟩, fun _ e => (by cases e), fun _ e => by cases e; exact ⟨⟨by simp, by decide⟩, by decide⟩⟩
example : TimeDelta.Valid ⟨-1800000000000⟩ ∧ (⟨-1800000000000⟩ : TimeDelta).toStr = c!"-PT1800S" := by decide
example : (⟨1500000000⟩ : TimeDelta).toStr = c!"PT1.5S" ∧ duration (ContentLine.ofValue c!"PT1.5S") = .ok ⟨0⟩ := by decide
example : parseDuration c!"P1DT2H" = .ok ⟨(86400 + 12 * 3600) * 1000000000⟩ ∧
    duration (ContentLine.ofValue c!"P1DT2H") = .ok ⟨(86400 + 2 * 3600) * 1000000000⟩ := by decide
example : FixedOffset.Valid ⟨-12600⟩ ∧ (⟨-12600⟩ : FixedOffset).toStr = c!"-0330" ∧ (⟨-28378⟩ : FixedOffset).toStr = c!"-075258" := by decide
end

end Ikal
