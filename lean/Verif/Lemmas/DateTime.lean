import Verif.Values
import Verif.Lemmas.Num
import Verif.Lemmas.Calendar

/-! # Printing and reading dates and times -/

namespace Ikal

open Spec

/-! ## Scanning -/

theorem not_ws_of_digit {c : Char} (h : c.isDigit = true) : isWhitespace c = false := by
  have h2 : 48 ≤ c.toNat ∧ c.toNat ≤ 57 := by
    have := isDigit_iff.1 h
    exact this
  unfold isWhitespace
  simp only [Bool.or_eq_false_iff, Bool.and_eq_false_iff, decide_eq_false_iff_not]
  omega

theorem trimStart_digits {ds : Str} (h : ∀ c ∈ ds, c.isDigit = true) (hne : ds ≠ []) (r : Str) : trimStart (ds ++ r) = ds ++ r := by
  cases ds with
  | nil => exact absurd rfl hne
  | cons c ds => simp [trimStart, not_ws_of_digit (h c (by simp))]

theorem takeWhile_digits {ds : Str} (h : ∀ c ∈ ds, c.isDigit = true) : ds.takeWhile Char.isDigit = ds := by
  induction ds with
  | nil => rfl
  | cons c ds ih => simp [h c (by simp), ih fun x hx => h x (by simp [hx])]

theorem scanNumber_full {ds : Str} (h : ∀ c ∈ ds, c.isDigit = true) (hne : ds ≠ []) (hv : (digitsVal ds : Int) ≤ i64Max) (r : Str) :
    scanNumber ds.length (ds ++ r) = some (digitsVal ds, r) := by
  unfold scanNumber
  simp [takeWhile_digits h, hne, hv]

theorem scanNumber_stop {max : Nat} {ds r : Str} (h : ∀ c ∈ ds, c.isDigit = true) (hne : ds ≠ []) (hl : ds.length ≤ max)
    (hr : ∀ c, r.head? = some c → c.isDigit = false) (hv : (digitsVal ds : Int) ≤ i64Max) :
    scanNumber max (ds ++ r) = some (digitsVal ds, r) := by
  unfold scanNumber
  have : ((ds ++ r).take max).takeWhile Char.isDigit = ds := by
    rw [List.take_append, List.take_of_length_le hl, List.takeWhile_append_of_pos h]
    cases r with
    | nil => simp
    | cons c r =>
      cases hm : max - ds.length with
      | zero => simp
      | succ n => simp [hr c rfl]
  simp [this, hne, hv]

theorem scanNumber_none {max : Nat} {s : Str} (h : ∀ c, s.head? = some c → c.isDigit = false) : scanNumber max s = none := by
  unfold scanNumber
  cases s with
  | nil => simp
  | cons c s => cases max <;> simp [h c rfl]

/-- Two digits are read as the number they denote. -/
theorem scan2_two {a b : Char} (ha : a.isDigit = true) (hb : b.isDigit = true) (lo hi : Nat) (r : Str) :
    scan2 lo hi (a :: b :: r) = if lo ≤ digitsVal [a, b] ∧ digitsVal [a, b] ≤ hi then some (digitsVal [a, b], r) else none := by
  have hd : ∀ c ∈ [a, b], c.isDigit = true := by simp [ha, hb]
  unfold scan2
  have h1 : trimStart ([a, b] ++ r) = [a, b] ++ r := trimStart_digits hd (by simp) r
  have h2 := scanNumber_full hd (by simp) (by have := digitsVal_lt _ hd; simp at this; simp [i64Max]; omega) r
  simp at h1 h2
  rw [h1, h2]

theorem scan2_pad2 {lo hi n : Nat} (h : n < 100) (h1 : lo ≤ n) (h2 : n ≤ hi) (r : Str) : scan2 lo hi (pad2 n ++ r) = some (n, r) := by
  have hd := pad2_digits n
  have hv := digitsVal_pad2 h
  unfold pad2 at hd hv
  rw [pad2, List.cons_append, List.cons_append, List.nil_append, scan2_two (hd _ (by simp)) (hd _ (by simp)), hv, if_pos ⟨h1, h2⟩]

theorem scan2_none {lo hi : Nat} {s : Str} (h : ∀ c, s.head? = some c → c.isDigit = false ∧ isWhitespace c = false) : scan2 lo hi s = none := by
  unfold scan2
  have : trimStart s = s := by
    cases s with
    | nil => rfl
    | cons c s => simp [trimStart, (h c rfl).2]
  rw [this, scanNumber_none fun c hc => (h c hc).1]

/-- Four digits are read as the year they denote. -/
theorem scanYear_four {ds : Str} (h : ∀ c ∈ ds, c.isDigit = true) (hl : ds.length = 4) (r : Str) :
    scanYear (ds ++ r) = some ((digitsVal ds : Int), r) := by
  have hne : ds ≠ [] := by rintro rfl; simp at hl
  have hb := digitsVal_lt _ h
  rw [hl] at hb
  have hs := scanNumber_full h hne (by simp [i64Max]; omega) r
  rw [hl] at hs
  unfold scanYear
  simp only []
  rw [trimStart_digits h hne]
  split
  · next heq =>
    cases ds with
    | nil => simp at hl
    | cons c ds =>
      have : c = '-' := by simp at heq; exact heq.1
      have := h c (by simp); subst c; simp at this
  · next heq =>
    cases ds with
    | nil => simp at hl
    | cons c ds =>
      have : c = '+' := by simp at heq; exact heq.1
      have := h c (by simp); subst c; simp at this
  · rw [hs]; simp; omega

theorem scanYear_pad4 {n : Nat} (h : n < 10000) (r : Str) : scanYear (pad4 n ++ r) = some ((n : Int), r) := by
  rw [scanYear_four (pad4_digits n) rfl, digitsVal_pad4 h]

/-- A year written with a sign swallows all the digits that follow. -/
theorem scanYear_signed {c : Char} (hc : c = '-' ∨ c = '+') {ds r : Str} {y : Int} {r' : Str} (hd : ∀ c ∈ ds, c.isDigit = true)
    (hr : ∀ c, r.head? = some c → c.isDigit = false) (h : scanYear (c :: ds ++ r) = some (y, r')) : r' = r := by
  have key : ∀ n r', scanNumber (ds ++ r).length (ds ++ r) = some (n, r') → r' = r := by
    intro n r' h
    cases ds with
    | nil => rw [List.nil_append, scanNumber_none hr] at h; cases h
    | cons d ds =>
      unfold scanNumber at h
      rw [List.take_length, List.takeWhile_append_of_pos hd] at h
      have : r.takeWhile Char.isDigit = [] := by
        cases r with
        | nil => rfl
        | cons c r => simp [hr c rfl]
      rw [this] at h
      simp at h
      exact h.2.2.symm
  unfold scanYear at h
  simp only [] at h
  rcases hc with rfl | rfl
  · have : trimStart ('-' :: ds ++ r) = '-' :: (ds ++ r) := by simp [trimStart, isWhitespace]
    rw [this] at h
    simp only [] at h
    split at h
    · next heq =>
      simp only [Option.map_eq_some_iff, Prod.exists] at heq
      obtain ⟨n, r2, h1, h2⟩ := heq
      split at h <;> cases h
      cases h2
      exact key _ _ h1
    · cases h
  · have : trimStart ('+' :: ds ++ r) = '+' :: (ds ++ r) := by simp [trimStart, isWhitespace]
    rw [this] at h
    simp only [] at h
    split at h
    · next heq =>
      simp only [Option.map_eq_some_iff, Prod.exists] at heq
      obtain ⟨n, r2, h1, h2⟩ := heq
      split at h <;> cases h
      cases h2
      exact key _ _ h1
    · cases h

/-! ## Dates -/

/-- The years that are printed with four digits. -/
def FourDigit (d : NaiveDate) : Prop := 0 ≤ d.year ∧ d.year ≤ 9999

theorem FourDigit.valid {d : NaiveDate} (h : FourDigit d) (h' : d.Ok) : d.Valid := by
  obtain ⟨h1, h2⟩ := h
  exact ⟨by unfold minYear; omega, by unfold maxYear; omega, h'⟩

theorem toStr_four {d : NaiveDate} (h : FourDigit d) : d.toStr = pad4 d.year.toNat ++ (pad2 d.month ++ pad2 d.day) := by
  unfold NaiveDate.toStr yearStr
  rw [if_pos (show 0 ≤ d.year ∧ d.year ≤ 9999 from h), List.append_assoc]

theorem scanYmd_toStr {d : NaiveDate} (h : FourDigit d) (hd : d.Ok) (r : Str) :
    scanYmd (d.toStr ++ r) = some ((d.year, d.month, d.day), r) := by
  have h31 := NaiveDate.daysInMonth_le d.year d.month
  obtain ⟨h1, h2, h3, h4⟩ := hd
  rw [toStr_four h]
  unfold scanYmd
  simp only [List.append_assoc]
  rw [scanYear_pad4 (by obtain ⟨a, b⟩ := h; omega), show ((d.year.toNat : Nat) : Int) = d.year from Int.toNat_of_nonneg h.1]
  simp only []
  rw [scan2_pad2 (by omega) h1 h2]
  simp only []
  rw [scan2_pad2 (by omega) h3 (by omega)]

theorem fromYmdOpt_of {d : NaiveDate} (h : d.Valid) : NaiveDate.fromYmdOpt d.year d.month d.day = some d := by
  unfold NaiveDate.fromYmdOpt; rw [if_pos h]

theorem parseNaiveDate_toStr {d : NaiveDate} (h : FourDigit d) (hd : d.Ok) : parseNaiveDate d.toStr = some d := by
  have := scanYmd_toStr h hd []
  rw [List.append_nil] at this
  unfold parseNaiveDate
  rw [this]
  exact fromYmdOpt_of (h.valid hd)

theorem fromYmdOpt_some {y : Int} {m d : Nat} {r : NaiveDate} (h : NaiveDate.fromYmdOpt y m d = some r) : r = ⟨y, m, d⟩ ∧ r.Valid := by
  unfold NaiveDate.fromYmdOpt at h
  split at h
  · next hv => cases h; exact ⟨rfl, hv⟩
  · cases h

theorem parseNaiveDate_valid {s : Str} {d : NaiveDate} (h : parseNaiveDate s = some d) : d.Valid := by
  unfold parseNaiveDate at h
  split at h
  · exact (fromYmdOpt_some h).2
  · cases h

/-- The sign and the digits of a year that is not printed with four digits. -/
theorem yearStr_signed {y : Int} (h : ¬ (0 ≤ y ∧ y ≤ 9999)) : ∃ c ds, (c = '-' ∨ c = '+') ∧ (∀ c ∈ ds, c.isDigit = true) ∧ yearStr y = c :: ds := by
  unfold yearStr
  rw [if_neg h]
  refine ⟨_, _, ?_, ?_, rfl⟩
  · split <;> simp
  · split
    · exact pad4_digits _
    · exact natStr_digits _

theorem scanYmd_signed {d : NaiveDate} (h : ¬ FourDigit d) {r : Str}
    (hr : ∀ c, r.head? = some c → c.isDigit = false ∧ isWhitespace c = false) : scanYmd (d.toStr ++ r) = none := by
  obtain ⟨c, ds, hc, hds, he⟩ := yearStr_signed h
  unfold scanYmd
  cases hy : scanYear (d.toStr ++ r) with
  | none => rfl
  | some p =>
    obtain ⟨y, r'⟩ := p
    have : d.toStr ++ r = c :: (ds ++ pad2 d.month ++ pad2 d.day) ++ r := by
      unfold NaiveDate.toStr; rw [he]; simp
    rw [this] at hy
    have := scanYear_signed hc (by
      intro x hx; simp only [List.mem_append] at hx
      rcases hx with (hx | hx) | hx
      · exact hds x hx
      · exact pad2_digits _ x hx
      · exact pad2_digits _ x hx) (fun c hc => (hr c hc).1) hy
    subst this
    simp only []
    rw [scan2_none hr]

/-! ## Times -/

/-- Reading back the printed time: the fraction is lost, a leap second stays one. -/
theorem scanHms_timeStr {secs frac : Nat} (h1 : secs < 86400) (h2 : frac < 1000000000 ∨ frac < 2000000000 ∧ secs % 60 = 59) (r : Str) :
    scanHms (timeStr secs frac ++ r) = some ((secs, frac / 1000000000 * 1000000000), r) := by
  unfold scanHms timeStr
  simp only [List.append_assoc]
  rw [scan2_pad2 (by omega) (by omega) (by omega)]
  simp only []
  rw [scan2_pad2 (by omega) (by omega) (by omega)]
  simp only []
  rw [scan2_pad2 (by omega) (by omega) (by omega)]
  simp only []
  rcases h2 with h2 | ⟨h2, h3⟩
  · rw [if_neg (by omega)]
    congr 3 <;> omega
  · by_cases h4 : frac < 1000000000
    · rw [if_neg (by omega)]
      congr 3 <;> omega
    · rw [if_pos (by omega)]
      congr 3 <;> omega

/-- The time of day is within a second that exists: fractions from 10⁹ on are those of a leap second. -/
def NaiveDateTime.Proper (t : NaiveDateTime) : Prop :=
  t.date.Ok ∧ t.secs < 86400 ∧ (t.frac < 1000000000 ∨ t.frac < 2000000000 ∧ t.secs % 60 = 59)

theorem parseNaiveDateTime_toStr {t : NaiveDateTime} (h : FourDigit t.date) (ht : t.Proper) (suffix : Str) :
    parseNaiveDateTime suffix (t.toStr ++ suffix) = some { t with frac := t.frac / 1000000000 * 1000000000 } := by
  obtain ⟨h1, h2, h3⟩ := ht
  unfold parseNaiveDateTime NaiveDateTime.toStr
  rw [List.append_assoc, scanYmd_toStr h h1]
  simp only [List.cons_append]
  rw [scanHms_timeStr h2 h3]
  simp only [if_true]
  rw [fromYmdOpt_of (h.valid h1)]

theorem parseNaiveDateTime_suffix {s1 s2 : Str} (hne : s1 ≠ s2) {t : NaiveDateTime} (h : FourDigit t.date) (ht : t.Proper) :
    parseNaiveDateTime s1 (t.toStr ++ s2) = none := by
  obtain ⟨h1, h2, h3⟩ := ht
  unfold parseNaiveDateTime NaiveDateTime.toStr
  rw [List.append_assoc, scanYmd_toStr h h1]
  simp only [List.cons_append]
  rw [scanHms_timeStr h2 h3]
  simp only [if_neg (Ne.symm hne)]

theorem parseNaiveDate_dateTime {t : NaiveDateTime} (h : FourDigit t.date) (ht : t.date.Ok) (r : Str) : parseNaiveDate (t.toStr ++ r) = none := by
  unfold parseNaiveDate NaiveDateTime.toStr
  rw [List.append_assoc, scanYmd_toStr h ht]
  rfl

theorem parseNaiveDateTime_valid {suffix s : Str} {t : NaiveDateTime} (h : parseNaiveDateTime suffix s = some t) :
    t.date.Valid ∧ t.secs < 86400 ∧ (t.frac = 0 ∨ t.frac = 1000000000 ∧ t.secs % 60 = 59) := by
  unfold parseNaiveDateTime at h
  split at h
  · split at h
    · next heq =>
      split at h
      · split at h
        · next hd =>
          cases h
          refine ⟨(fromYmdOpt_some hd).2, ?_⟩
          unfold scanHms at heq
          split at heq
          · next h1 =>
            split at heq
            · next h2 =>
              split at heq
              · next h3 =>
                have b1 : ∀ {lo hi s n r}, scan2 lo hi s = some (n, r) → n ≤ hi := by
                  intro lo hi s n r h
                  unfold scan2 at h
                  split at h
                  · split at h
                    · next hb => cases h; exact hb.2
                    · cases h
                  · cases h
                have := b1 h1; have := b1 h2; have := b1 h3
                split at heq
                · simp only [Option.some.injEq, Prod.mk.injEq] at heq; dsimp only; omega
                · simp only [Option.some.injEq, Prod.mk.injEq] at heq; dsimp only; omega
              · cases heq
            · cases heq
          · cases heq
        · cases h
      · cases h
    · cases h
  · cases h

/-- The printed date-time ends with a digit. -/
theorem toStr_last (t : NaiveDateTime) : ∃ a d, t.toStr = a ++ [d] ∧ d.isDigit = true := by
  unfold NaiveDateTime.toStr timeStr
  generalize t.secs % 60 + t.frac / 1000000000 = x
  refine ⟨t.date.toStr ++ 'T' :: (pad2 (t.secs / 3600) ++ pad2 (t.secs / 60 % 60) ++ [digitChar (x / 10 % 10)]), digitChar (x % 10), ?_, digitChar_isDigit (by omega)⟩
  simp [pad2]

theorem trimEndZ_digit {a : Str} {d : Char} (hd : d.isDigit = true) (n : Nat) : trimEndZ (a ++ [d] ++ List.replicate n 'Z') = a ++ [d] := by
  have hz : d ≠ 'Z' := by rintro rfl; simp at hd
  unfold trimEndZ
  rw [List.reverse_append, List.reverse_append, List.reverse_replicate]
  have : ∀ n r, (List.replicate n 'Z' ++ r).dropWhile (fun c : Char => decide (c = 'Z')) = r.dropWhile (fun c => decide (c = 'Z')) := by
    intro n r; induction n with
    | zero => rfl
    | succ n ih => simp [List.replicate_succ, ih]
  rw [this]
  simp [hz]

theorem trimEndZ_toStr (t : NaiveDateTime) : trimEndZ t.toStr = t.toStr := by
  obtain ⟨a, d, h, hd⟩ := toStr_last t
  rw [h]; have := trimEndZ_digit (a := a) hd 0; simpa only [List.replicate_zero, List.append_nil] using this

theorem trimEndZ_toStrZ (t : NaiveDateTime) : trimEndZ (t.toStr ++ ['Z']) = t.toStr := by
  obtain ⟨a, d, h, hd⟩ := toStr_last t
  rw [h]; exact trimEndZ_digit (a := a) hd 1

theorem toStr_getLast (t : NaiveDateTime) : t.toStr.getLast? ≠ some 'Z' := by
  obtain ⟨a, d, h, hd⟩ := toStr_last t
  rw [h]; simp; rintro rfl; simp at hd

/-! ## Shifting by an offset -/

namespace NaiveDateTime

theorem toSecs_shift (t : NaiveDateTime) (off : Int) : (t.shift off).toSecs = t.toSecs + off := by
  unfold shift
  simp only [toSecs, NaiveDate.toDays_ofDays]
  omega

theorem frac_shift (t : NaiveDateTime) (off : Int) : (t.shift off).frac = t.frac := rfl

theorem eq_of_toSecs {a b : NaiveDateTime} (ha : a.date.Ok) (hb : b.date.Ok) (h1 : a.secs < 86400) (h2 : b.secs < 86400)
    (hs : a.toSecs = b.toSecs) (hf : a.frac = b.frac) : a = b := by
  unfold toSecs at hs
  have hd : a.date.toDays = b.date.toDays := by omega
  have := NaiveDate.toDays_inj ha hb hd
  cases a; cases b; simp at *; subst this; simp at *; omega

theorem shift_ok (t : NaiveDateTime) (off : Int) : (t.shift off).date.Ok ∧ (t.shift off).secs < 86400 := by
  refine ⟨NaiveDate.ofDays_ok _, ?_⟩
  unfold shift; simp only []; omega

theorem shift_shift (t : NaiveDateTime) (a b : Int) : (t.shift a).shift b = t.shift (a + b) := by
  refine eq_of_toSecs (shift_ok _ _).1 (shift_ok _ _).1 (shift_ok _ _).2 (shift_ok _ _).2 ?_ rfl
  rw [toSecs_shift, toSecs_shift, toSecs_shift]; omega

theorem shift_zero {t : NaiveDateTime} (h : t.date.Ok) (hs : t.secs < 86400) : t.shift 0 = t := by
  refine eq_of_toSecs (shift_ok _ _).1 h (shift_ok _ _).2 hs ?_ rfl
  rw [toSecs_shift]; omega

theorem shift_eq_self {t : NaiveDateTime} (h : t.date.Ok) (hs : t.secs < 86400) (off : Int) : t.shift off = t ↔ off = 0 := by
  constructor
  · intro e
    have := toSecs_shift t off
    rw [e] at this; omega
  · rintro rfl; exact shift_zero h hs

end NaiveDateTime
end Ikal
