import Verif.Lemmas.DateTime
import Verif.Lemmas.Nom
import Verif.Spec.Grammar

/-! # What the date scanner accepts -/

namespace Ikal

open Spec

theorem digit_iff {c : Char} : ('0' ≤ c ∧ c ≤ '9') ↔ c.isDigit = true := by
  rw [isDigit_iff]

theorem not_digit_iff {c : Char} : ¬ ('0' ≤ c ∧ c ≤ '9') ↔ c.isDigit = false := by
  rw [digit_iff]; simp

theorem trimStart_eq {s t : Str} : trimStart s = t ↔
    ∃ ws, s = ws ++ t ∧ (∀ c ∈ ws, isWhitespace c = true) ∧ ∀ c, t.head? = some c → isWhitespace c = false := by
  unfold trimStart
  constructor
  · rintro rfl
    have h := Nom.takeWhile_ok (p := isWhitespace) (i := s) (r := s.dropWhile isWhitespace) (a := s.takeWhile isWhitespace)
    exact ⟨_, h.1 rfl⟩
  · rintro ⟨ws, rfl, h1, h2⟩
    have := Nom.takeWhile_append h1 h2
    unfold Nom.takeWhile at this
    injection this

/-- The digits at the head, at most `max` of them. -/
theorem scanNumber_some {max : Nat} {s r : Str} {n : Nat} : scanNumber max s = some (n, r) ↔
    ∃ ds, s = ds ++ r ∧ Digits ds ∧ ds.length ≤ max ∧ decimal ds = n ∧ (n : Int) ≤ i64Max ∧
      (ds.length < max → ∀ c, r.head? = some c → c.isDigit = false) := by
  constructor
  · intro h
    unfold scanNumber at h
    simp only [] at h
    have hw := (Nom.takeWhile_ok (p := Char.isDigit) (i := s.take max) (r := (s.take max).dropWhile Char.isDigit)
      (a := (s.take max).takeWhile Char.isDigit)).1 rfl
    generalize (s.take max).takeWhile Char.isDigit = ds at *
    generalize (s.take max).dropWhile Char.isDigit = q at *
    obtain ⟨h1, h2, h3⟩ := hw
    have hs : s = ds ++ (q ++ s.drop max) := by rw [← List.append_assoc, ← h1, List.take_append_drop]
    split at h
    · cases h
    · next hne =>
      split at h
      · next hv =>
        simp only [Option.some.injEq, Prod.mk.injEq] at h
        obtain ⟨rfl, rfl⟩ := h
        have hr : s.drop ds.length = q ++ s.drop max := by
          conv => lhs; rw [hs]
          simp
        have hlen : ds.length ≤ max := by
          have := congrArg List.length h1
          simp at this; omega
        refine ⟨ds, by rw [hr]; exact hs, Digits_iff.2 ⟨by simpa using hne, h2⟩, hlen, (digitsVal_eq_decimal ds).symm, hv, ?_⟩
        intro hl c hc
        rw [hr] at hc
        cases q with
        | cons x q => simp at hc; subst hc; exact h3 _ rfl
        | nil =>
          simp at h1
          have : s.drop max = [] := by
            apply List.drop_eq_nil_of_le
            have := congrArg List.length h1
            simp at this; omega
          rw [this] at hc; simp at hc
      · cases h
  · rintro ⟨ds, rfl, h1, h2, rfl, h4, h5⟩
    have hd := Digits_iff.1 h1
    rw [← digitsVal_eq_decimal] at h4 ⊢
    by_cases hl : ds.length < max
    · exact scanNumber_stop hd.2 hd.1 h2 (h5 hl) h4
    · have : max = ds.length := by omega
      subst this
      exact scanNumber_full hd.2 hd.1 h4 r

theorem digits_head {ds r : Str} (h : Digits ds) : ∀ c, (ds ++ r).head? = some c → isWhitespace c = false := by
  intro c hc
  cases ds with
  | nil => exact absurd rfl h.1
  | cons x ds => simp at hc; subst hc; exact not_ws_of_digit ((Digits_iff.1 h).2 _ (by simp))

theorem numberThen_iff {max : Nat} {s r : Str} {n : Nat} (hm : (n : Int) ≤ i64Max) :
    scanNumber max (trimStart s) = some (n, r) ↔ NumberThen max s n r := by
  rw [scanNumber_some]
  constructor
  · rintro ⟨ds, h1, h2, h3, h4, -, h6⟩
    obtain ⟨ws, h7, h8, -⟩ := trimStart_eq.1 h1
    exact ⟨ws, ds, h7, h8, h2, h3, h4, fun hl c hc => not_digit_iff.2 (h6 hl c hc)⟩
  · rintro ⟨ws, ds, h1, h2, h3, h4, h5, h6⟩
    exact ⟨ds, trimStart_eq.2 ⟨ws, h1, h2, digits_head h3⟩, h3, h4, h5, hm, fun hl c hc => not_digit_iff.1 (h6 hl c hc)⟩

theorem scan2_some {lo hi : Nat} {s r : Str} {n : Nat} (hh : (hi : Int) ≤ i64Max) :
    scan2 lo hi s = some (n, r) ↔ NumberThen 2 s n r ∧ lo ≤ n ∧ n ≤ hi := by
  unfold scan2
  constructor
  · intro h
    split at h
    · next m q heq =>
      split at h
      · next hr => cases h; exact ⟨(numberThen_iff (by omega)).1 heq, hr⟩
      · cases h
    · cases h
  · rintro ⟨h1, h2⟩
    rw [(numberThen_iff (by omega)).2 h1]
    simp [h2]

theorem scanYear_some {s r : Str} {y : Int} : scanYear s = some (y, r) ↔ YearThen s y r ∧ -2147483648 ≤ y ∧ y ≤ 2147483647 := by
  have hi : i64Max = 9223372036854775807 := by decide
  have signed : ∀ {q : Str} {n : Nat}, scanNumber q.length q = some (n, r) ↔
      (∃ ds, q = ds ++ r ∧ Digits ds ∧ (∀ c, r.head? = some c → c.isDigit = false) ∧ decimal ds = n) ∧ (n : Int) ≤ i64Max := by
    intro q n
    rw [scanNumber_some]
    constructor
    · rintro ⟨ds, rfl, h2, h3, h4, h5, h6⟩
      refine ⟨⟨ds, rfl, h2, fun c hc => ?_, h4⟩, h5⟩
      refine h6 ?_ c hc
      cases r with
      | nil => simp at hc
      | cons x r => simp
    · rintro ⟨⟨ds, rfl, h2, h3, h4⟩, h5⟩
      exact ⟨ds, rfl, h2, by simp, h4, h5, fun _ => h3⟩
  have head : ∀ {sign : Char} {q : Str}, isWhitespace sign = false → ∀ c, (sign :: q).head? = some c → isWhitespace c = false := by
    intro sign q h c hc; simp at hc; subst hc; exact h
  constructor
  · intro h
    unfold scanYear at h
    simp only [] at h
    generalize ht : trimStart s = t at h
    obtain ⟨ws, hs, hw, -⟩ := trimStart_eq.1 ht
    split at h
    · next q =>
      cases hq : scanNumber q.length q with
      | none => rw [hq] at h; cases h
      | some p =>
        obtain ⟨n, r'⟩ := p
        rw [hq] at h
        simp only [Option.map_some] at h
        split at h
        · next hr =>
          cases h
          obtain ⟨⟨ds, rfl, h2, h3, rfl⟩, h5⟩ := signed.1 hq
          exact ⟨.inr ⟨ws, '-', ds, hs, hw, h2, fun c hc => not_digit_iff.2 (h3 c hc), .inr ⟨rfl, rfl⟩⟩, hr⟩
        · cases h
    · next q =>
      cases hq : scanNumber q.length q with
      | none => rw [hq] at h; cases h
      | some p =>
        obtain ⟨n, r'⟩ := p
        rw [hq] at h
        simp only [Option.map_some] at h
        split at h
        · next hr =>
          cases h
          obtain ⟨⟨ds, rfl, h2, h3, rfl⟩, h5⟩ := signed.1 hq
          exact ⟨.inr ⟨ws, '+', ds, hs, hw, h2, fun c hc => not_digit_iff.2 (h3 c hc), .inl ⟨rfl, rfl⟩⟩, hr⟩
        · cases h
    · cases hq : scanNumber 4 t with
      | none => rw [hq] at h; cases h
      | some p =>
        obtain ⟨n, r'⟩ := p
        rw [hq] at h
        simp only [Option.map_some] at h
        split at h
        · next hr =>
          cases h
          exact ⟨.inl ⟨n, (numberThen_iff (by omega)).1 (by rw [ht]; exact hq), rfl⟩, hr⟩
        · cases h
  · rintro ⟨h | h, hr⟩
    · obtain ⟨n, hn, rfl⟩ := h
      have hq := (numberThen_iff (by omega)).2 hn
      obtain ⟨ds, h1, h2, -⟩ := scanNumber_some.1 hq
      unfold scanYear
      simp only []
      have hd : ∃ c q, trimStart s = c :: q ∧ c.isDigit = true := by
        rw [h1]
        cases ds with
        | nil => exact absurd rfl h2.1
        | cons c ds => exact ⟨c, ds ++ r, rfl, (Digits_iff.1 h2).2 c (by simp)⟩
      obtain ⟨c, q, e, hc⟩ := hd
      rw [e] at hq ⊢
      split
      · next heq => cases heq; exact absurd hc (by decide)
      · next heq => cases heq; exact absurd hc (by decide)
      · rw [hq]
        simp only [Option.map_some]
        rw [if_pos hr]
    · obtain ⟨ws, sign, ds, rfl, hw, hd, hn, h⟩ := h
      have hs : isWhitespace sign = false := by rcases h with ⟨rfl, _⟩ | ⟨rfl, _⟩ <;> decide
      have ht : trimStart (ws ++ sign :: (ds ++ r)) = sign :: (ds ++ r) := trimStart_eq.2 ⟨ws, rfl, hw, head hs⟩
      have hq : scanNumber (ds ++ r).length (ds ++ r) = some (decimal ds, r) :=
        signed.2 ⟨⟨ds, rfl, hd, fun c hc => not_digit_iff.1 (hn c hc), rfl⟩, by rcases h with ⟨_, rfl⟩ | ⟨_, rfl⟩ <;> omega⟩
      unfold scanYear
      simp only [ht]
      rcases h with ⟨rfl, rfl⟩ | ⟨rfl, rfl⟩
      · simp only [hq, Option.map_some]; rw [if_pos hr]
      · simp only [hq, Option.map_some]; rw [if_pos hr]

theorem fromYmd_iff {y : Int} {m d : Nat} {e : NaiveDate} : NaiveDate.fromYmdOpt y m d = some e ↔ e = ⟨y, m, d⟩ ∧ e.Valid := by
  constructor
  · exact fromYmdOpt_some
  · rintro ⟨rfl, h⟩; exact fromYmdOpt_of h

theorem scanYmd_some {s r : Str} {y : Int} {m d : Nat} : scanYmd s = some ((y, m, d), r) ↔
    ∃ a b, scanYear s = some (y, a) ∧ scan2 1 12 a = some (m, b) ∧ scan2 1 31 b = some (d, r) := by
  unfold scanYmd
  constructor
  · intro h
    split at h
    · next h1 =>
      split at h
      · next h2 =>
        split at h
        · next h3 => cases h; exact ⟨_, _, h1, h2, h3⟩
        · cases h
      · cases h
    · cases h
  · rintro ⟨a, b, h1, h2, h3⟩
    simp only [h1, h2, h3]

theorem dateThen_iff {s r : Str} {d : NaiveDate} : DateThen s d r ↔ scanYmd s = some ((d.year, d.month, d.day), r) ∧ d.Valid := by
  have hi : i64Max = 9223372036854775807 := by decide
  rw [scanYmd_some, valid_iff]
  simp only [scanYear_some, scan2_some (show ((12 : Nat) : Int) ≤ i64Max by decide), scan2_some (show ((31 : Nat) : Int) ≤ i64Max by decide)]
  unfold DateThen
  constructor
  · rintro ⟨h1, h2, a, b, h3, h4, h5⟩
    have hv := (valid_iff d).2 ⟨h2, h1⟩
    have h31 := NaiveDate.daysInMonth_le d.year d.month
    unfold NaiveDate.Valid minYear maxYear at hv
    exact ⟨⟨a, b, ⟨h3, by omega, by omega⟩, ⟨h4, by omega, by omega⟩, h5, by omega, by omega⟩, h2, h1⟩
  · rintro ⟨⟨a, b, ⟨h3, _⟩, ⟨h4, _⟩, h5, _⟩, h2, h1⟩
    exact ⟨h1, h2, a, b, h3, h4, h5⟩

theorem parseNaiveDate_some {s : Str} {d : NaiveDate} : parseNaiveDate s = some d ↔ DateThen s d [] := by
  rw [dateThen_iff]
  unfold parseNaiveDate
  constructor
  · intro h
    split at h
    · next heq =>
      obtain ⟨rfl, hv⟩ := fromYmd_iff.1 h
      exact ⟨heq, hv⟩
    · cases h
  · rintro ⟨h, hv⟩
    rw [h]
    exact fromYmd_iff.2 ⟨rfl, hv⟩

theorem scanHms_some {s r : Str} {secs frac : Nat} : scanHms s = some ((secs, frac), r) ↔
    ∃ b c h m x, NumberThen 2 s h b ∧ NumberThen 2 b m c ∧ NumberThen 2 c x r ∧ h < 24 ∧ m < 60 ∧
    (x < 60 ∧ secs = h * 3600 + m * 60 + x ∧ frac = 0 ∨ x = 60 ∧ secs = h * 3600 + m * 60 + 59 ∧ frac = 1000000000) := by
  have e1 := fun {s r n} => @scan2_some 0 23 s r n (by decide)
  have e2 := fun {s r n} => @scan2_some 0 59 s r n (by decide)
  have e3 := fun {s r n} => @scan2_some 0 60 s r n (by decide)
  unfold scanHms
  constructor
  · intro h
    split at h
    · next h1 =>
      split at h
      · next h2 =>
        split at h
        · next h3 =>
          have h1 := e1.1 h1
          have h2 := e2.1 h2
          have h3 := e3.1 h3
          split at h
          · next hx => cases h; exact ⟨_, _, _, _, _, h1.1, h2.1, h3.1, by omega, by omega, .inr ⟨hx, rfl, rfl⟩⟩
          · next hx => cases h; exact ⟨_, _, _, _, _, h1.1, h2.1, h3.1, by omega, by omega, .inl ⟨by omega, rfl, rfl⟩⟩
        · cases h
      · cases h
    · cases h
  · rintro ⟨b, c, h, m, x, h1, h2, h3, h4, h5, h6⟩
    have hx : x ≤ 60 := by omega
    rw [e1.2 ⟨h1, by omega, by omega⟩]
    simp only
    rw [e2.2 ⟨h2, by omega, by omega⟩]
    simp only
    rw [e3.2 ⟨h3, by omega, by omega⟩]
    simp only
    rcases h6 with ⟨h6, rfl, rfl⟩ | ⟨rfl, rfl, rfl⟩
    · rw [if_neg (by omega)]
    · rw [if_pos rfl]

theorem parseNaiveDateTime_some {s suffix : Str} {t : NaiveDateTime} : parseNaiveDateTime suffix s = some t ↔ DateTimeThen s t suffix := by
  unfold parseNaiveDateTime DateTimeThen
  constructor
  · intro h
    split at h
    · next q heq =>
      split at h
      · next q' heq' =>
        split at h
        · next hs =>
          subst hs
          split at h
          · next hd =>
            cases h
            obtain ⟨rfl, hv⟩ := fromYmd_iff.1 hd
            obtain ⟨b, c, h, m, x, hh⟩ := scanHms_some.1 heq'
            exact ⟨q, b, c, h, m, x, dateThen_iff.2 ⟨heq, hv⟩, hh⟩
          · cases h
        · cases h
      · cases h
    · cases h
  · rintro ⟨a, b, c, h, m, x, hd, hh⟩
    obtain ⟨h1, h2⟩ := dateThen_iff.1 hd
    rw [h1]
    simp only
    rw [scanHms_some.2 ⟨b, c, h, m, x, hh⟩]
    simp only [if_true]
    rw [fromYmd_iff.2 ⟨rfl, h2⟩]

/-- A text that ends with a number ends with a digit. -/
theorem Spec.NumberThen.last {max : Nat} {s : Str} {n : Nat} (h : NumberThen max s n []) : ∃ q c, s = q ++ [c] ∧ c.isDigit = true := by
  obtain ⟨ws, ds, rfl, -, h3, -⟩ := h
  have hd := Digits_iff.1 h3
  refine ⟨ws ++ ds.dropLast, ds.getLast hd.1, ?_, hd.2 _ (List.getLast_mem _)⟩
  rw [List.append_nil, List.append_assoc, List.dropLast_concat_getLast]

theorem Spec.NumberThen.suffix {max : Nat} {s : Str} {n : Nat} {r : Str} (h : NumberThen max s n r) : r <:+ s := by
  obtain ⟨ws, ds, rfl, -⟩ := h
  exact ⟨ws ++ ds, by simp⟩

theorem Spec.YearThen.suffix {s : Str} {y : Int} {r : Str} (h : YearThen s y r) : r <:+ s := by
  rcases h with ⟨n, h, -⟩ | ⟨ws, sign, ds, rfl, -⟩
  · exact h.suffix
  · exact ⟨ws ++ sign :: ds, by simp⟩

theorem last_suffix {s r : Str} (h : r <:+ s) (hr : ∃ q c, r = q ++ [c] ∧ c.isDigit = true) : ∃ q c, s = q ++ [c] ∧ c.isDigit = true := by
  obtain ⟨p, rfl⟩ := h
  obtain ⟨q, c, rfl, hc⟩ := hr
  exact ⟨p ++ q, c, by simp, hc⟩

theorem Spec.DateThen.suffix {s : Str} {d : NaiveDate} {r : Str} (h : DateThen s d r) : r <:+ s := by
  obtain ⟨_, _, a, b, h1, h2, h3⟩ := h
  exact (h3.suffix.trans h2.suffix).trans h1.suffix

theorem Spec.DateThen.last {s : Str} {d : NaiveDate} (h : DateThen s d []) : ∃ q c, s = q ++ [c] ∧ c.isDigit = true := by
  obtain ⟨_, _, a, b, h1, h2, h3⟩ := h
  exact last_suffix (h2.suffix.trans h1.suffix) h3.last

theorem Spec.DateTimeThen.last {s : Str} {t : NaiveDateTime} (h : DateTimeThen s t []) : ∃ q c, s = q ++ [c] ∧ c.isDigit = true := by
  obtain ⟨a, b, c, hh, m, x, h1, h2, h3, h4, -⟩ := h
  refine last_suffix ?_ h4.last
  refine (h3.suffix.trans h2.suffix).trans (List.IsSuffix.trans ?_ h1.suffix)
  exact ⟨['T'], rfl⟩

/-- No text is both a date and a date-time. -/
theorem dateThen_det {s r r' : Str} {d d' : NaiveDate} (h : DateThen s d r) (h' : DateThen s d' r') : r = r' := by
  have h1 := (dateThen_iff.1 h).1
  have h2 := (dateThen_iff.1 h').1
  rw [h1] at h2
  simp only [Option.some.injEq, Prod.mk.injEq] at h2
  exact h2.2

/-- Dropping the trailing `Z`s. -/
theorem trimEndZ_append {s : Str} (h : ∀ q c, s = q ++ [c] → c ≠ 'Z') (n : Nat) : trimEndZ (s ++ List.replicate n 'Z') = s := by
  unfold trimEndZ
  rw [List.reverse_append, List.reverse_replicate]
  have h1 : ∀ n (t : Str), (List.replicate n 'Z' ++ t).dropWhile (fun c => decide (c = 'Z')) = t.dropWhile (fun c => decide (c = 'Z')) := by
    intro n t
    induction n with
    | zero => simp
    | succ n ih => simp [List.replicate_succ, ih]
  rw [h1]
  have h2 : s.reverse.dropWhile (fun c => decide (c = 'Z')) = s.reverse := by
    cases hr : s.reverse with
    | nil => rfl
    | cons c q =>
      have : s = q.reverse ++ [c] := by rw [← List.reverse_reverse s, hr]; simp
      simp [h _ _ this]
  rw [h2, List.reverse_reverse]

theorem trimEndZ_spec (s : Str) : ∃ n, s = trimEndZ s ++ List.replicate n 'Z' ∧ (s.getLast? = some 'Z' ↔ n ≠ 0) := by
  have key : ∀ t : Str, ∃ n, t = List.replicate n 'Z' ++ t.dropWhile (fun c => decide (c = 'Z')) ∧ (t.head? = some 'Z' ↔ n ≠ 0) := by
    intro t
    induction t with
    | nil => exact ⟨0, rfl, by simp⟩
    | cons c t ih =>
      by_cases hc : c = 'Z'
      · obtain ⟨n, h1, -⟩ := ih
        subst hc
        exact ⟨n + 1, by simp [List.replicate_succ]; exact h1, by simp⟩
      · exact ⟨0, by simp [hc], by simp [hc]⟩
  obtain ⟨n, h1, h2⟩ := key s.reverse
  refine ⟨n, ?_, by rw [← h2, List.head?_reverse]⟩
  unfold trimEndZ
  have := congrArg List.reverse h1
  rw [List.reverse_reverse, List.reverse_append, List.reverse_replicate] at this
  exact this

end Ikal
