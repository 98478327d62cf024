import Verif.Lemmas.Debug
import Verif.Lemmas.Format
import Verif.Spec.DateText
import Verif.Spec.Calendar

/-!
# Lemmas: the text of dates, times and offsets tells them
-/

set_option linter.unusedSectionVars false

namespace Ikal

open Spec

theorem natStr_inj {a b : Nat} (h : natStr a = natStr b) : a = b := by
  rw [← digitsVal_natStr a, h, digitsVal_natStr]

theorem digit_word {c : Char} (h : c.isDigit = true) : wordChar c = true := by
  simp [wordChar, Char.isAlphanum, h]

theorem digit_ne {c d : Char} (h : c.isDigit = true) (hd : d.isDigit = false) : c ≠ d := by
  rintro rfl; rw [h] at hd; cases hd

theorem natStr_head {n : Nat} {c : Char} {r : Str} (hc : c.isDigit = false) : natStr n ≠ c :: r := by
  intro h
  exact digit_ne (natStr_digits n c (by rw [h]; simp)) hc rfl

theorem intStr_inj {a b : Int} (h : intStr a = intStr b) : a = b := by
  unfold intStr at h
  split at h <;> split at h
  · injection h with _ h; have := natStr_inj h; omega
  · exact absurd h.symm (natStr_head (by rfl))
  · exact absurd h (natStr_head (by rfl))
  · have := natStr_inj h; omega

/-! ## Fixed width -/

theorem pad2_length (n : Nat) : (pad2 n).length = 2 := rfl

theorem pad2_append_inj {a b : Nat} {r r' : Str} (ha : a < 100) (hb : b < 100) (h : pad2 a ++ r = pad2 b ++ r') : a = b ∧ r = r' := by
  obtain ⟨h1, h2⟩ := List.append_inj h (by rw [pad2_length, pad2_length])
  exact ⟨by rw [← digitsVal_pad2 ha, h1, digitsVal_pad2 hb], h2⟩

theorem zeros_digits (k n : Nat) : ∀ c ∈ List.replicate k '0' ++ natStr n, c.isDigit = true := by
  intro c hc
  rcases List.mem_append.1 hc with h | h
  · rw [List.eq_of_mem_replicate h]; rfl
  · exact natStr_digits n c h

theorem digitsVal_zeros_natStr (k n : Nat) : digitsVal (List.replicate k '0' ++ natStr n) = n := by
  rw [digitsVal, List.foldl_append]
  have : (List.replicate k '0').foldl (fun v c => v * 10 + digitVal c) 0 = 0 := by
    induction k with
    | zero => rfl
    | succ k ih => rw [List.replicate_succ, List.foldl_cons]; simpa [digitVal] using ih
  rw [this]; exact digitsVal_natStr n

theorem padTo_digits (w n : Nat) : ∀ c ∈ Format.padTo '0' w (natStr n), c.isDigit = true := zeros_digits _ n

theorem padTo_inj {w w' n n' : Nat} (h : Format.padTo '0' w (natStr n) = Format.padTo '0' w' (natStr n')) : n = n' := by
  have := congrArg digitsVal h
  rwa [Format.padTo, Format.padTo, digitsVal_zeros_natStr, digitsVal_zeros_natStr] at this

theorem padTo_length {w n : Nat} (hw : 1 ≤ w) (h : n < 10 ^ w) : (Format.padTo '0' w (natStr n)).length = w := by
  have := natStr_length hw h
  simp [Format.padTo]; omega

/-! ## Dates -/

/-- The year of a date. -/
def yearDebug (y : Int) : Str :=
  if 0 ≤ y ∧ y ≤ 9999 then pad4 y.toNat else (if y < 0 then '-' else '+') :: Format.padTo '0' 4 (natStr y.natAbs)

theorem pad4_inj {a b : Nat} (ha : a < 10000) (hb : b < 10000) (h : pad4 a = pad4 b) : a = b := by
  rw [← digitsVal_pad4 ha, h, digitsVal_pad4 hb]

theorem pad4_cons (n : Nat) : ∃ c s, pad4 n = c :: s ∧ c.isDigit = true := by
  have := pad4_digits n
  cases h : pad4 n with
  | nil => exact absurd (congrArg List.length h) (by simp [pad4])
  | cons c s => rw [h] at this; exact ⟨c, s, rfl, this c (by simp)⟩

theorem noHead_dash (r : Str) : NoHead Char.isDigit ('-' :: r) := by intro c hc; simp at hc; subst hc; rfl

theorem sign_cases (y : Int) : (if y < 0 then '-' else '+').isDigit = false := by split <;> rfl

theorem yearDebug_inj {y y' : Int} {r r' : Str} (h : yearDebug y ++ '-' :: r = yearDebug y' ++ '-' :: r') : y = y' ∧ r = r' := by
  unfold yearDebug at h
  by_cases h1 : 0 ≤ y ∧ y ≤ 9999
  · by_cases h2 : 0 ≤ y' ∧ y' ≤ 9999
    · rw [if_pos h1, if_pos h2] at h
      obtain ⟨h3, h4⟩ := run_inj (pad4_digits _) (pad4_digits _) (noHead_dash _) (noHead_dash _) h
      have := pad4_inj (by omega) (by omega) h3
      simp only [List.cons.injEq, true_and] at h4
      exact ⟨by omega, h4⟩
    · rw [if_pos h1, if_neg h2] at h
      obtain ⟨c, s, hp, hc⟩ := pad4_cons y.toNat
      rw [hp, List.cons_append, List.cons_append] at h
      injection h with h _
      rw [h, sign_cases] at hc; cases hc
  · by_cases h2 : 0 ≤ y' ∧ y' ≤ 9999
    · rw [if_neg h1, if_pos h2] at h
      obtain ⟨c, s, hp, hc⟩ := pad4_cons y'.toNat
      rw [hp, List.cons_append, List.cons_append] at h
      injection h with h _
      rw [← h, sign_cases] at hc; cases hc
    · rw [if_neg h1, if_neg h2, List.cons_append, List.cons_append] at h
      injection h with hs h
      obtain ⟨h3, h4⟩ := run_inj (padTo_digits _ _) (padTo_digits _ _) (noHead_dash _) (noHead_dash _) h
      have := padTo_inj h3
      simp only [List.cons.injEq, true_and] at h4
      refine ⟨?_, h4⟩
      by_cases h5 : y < 0 <;> by_cases h6 : y' < 0
      · omega
      · rw [if_pos h5, if_neg h6] at hs; exact absurd hs (by decide)
      · rw [if_neg h5, if_pos h6] at hs; exact absurd hs (by decide)
      · omega

theorem realDate_bounds {d : NaiveDate} (h : RealDate d) : d.month < 100 ∧ d.day < 100 := by
  obtain ⟨h1, h2, h3, h4⟩ := h
  refine ⟨by omega, ?_⟩
  have : monthLength d.year d.month ≤ 31 := by unfold monthLength; split <;> first | omega | (split <;> omega)
  omega

theorem date_debug_inj {d d' : NaiveDate} {r r' : Str} (hd : RealDate d) (hd' : RealDate d') (h : d.debug ++ r = d'.debug ++ r') : d = d' ∧ r = r' := by
  obtain ⟨m1, m2⟩ := realDate_bounds hd
  obtain ⟨m1', m2'⟩ := realDate_bounds hd'
  have e : ∀ (d : NaiveDate) (r : Str), d.debug ++ r = yearDebug d.year ++ '-' :: (pad2 d.month ++ '-' :: (pad2 d.day ++ r)) := by
    intro d r; simp [NaiveDate.debug, yearDebug]
  rw [e, e] at h
  obtain ⟨h1, h⟩ := yearDebug_inj h
  obtain ⟨h2, h⟩ := pad2_append_inj m1 m1' h
  injection h with _ h
  obtain ⟨h3, h⟩ := pad2_append_inj m2 m2' h
  refine ⟨?_, h⟩
  cases d; cases d'; simp at *; exact ⟨h1, h2, h3⟩

/-! ## Times -/

/-- The fraction of a second. -/
def fracDebug (n : Nat) : Str :=
  if n = 0 then [] else if n % 1000000 = 0 then '.' :: Format.padTo '0' 3 (natStr (n / 1000000))
    else if n % 1000 = 0 then '.' :: Format.padTo '0' 6 (natStr (n / 1000)) else '.' :: Format.padTo '0' 9 (natStr n)

/-- What follows the time: no digit and no point. -/
def AfterTime (r : Str) : Prop := ∀ c, r.head? = some c → c.isDigit = false ∧ c ≠ '.'

theorem AfterTime.noHead {r : Str} (h : AfterTime r) : NoHead Char.isDigit r := fun c hc => (h c hc).1

/-- The digits of a fraction that is not zero. -/
def FracDigits (n : Nat) (s : Str) : Prop :=
  ∃ w v, (w = 3 ∧ n = v * 1000000 ∧ v < 10 ^ 3 ∨ w = 6 ∧ n = v * 1000 ∧ v < 10 ^ 6 ∨ w = 9 ∧ n = v ∧ v < 10 ^ 9) ∧ s = Format.padTo '0' w (natStr v)

theorem fracDebug_cons {n : Nat} (hn : n < 1000000000) (h0 : n ≠ 0) : ∃ s, fracDebug n = '.' :: s ∧ FracDigits n s := by
  unfold fracDebug
  rw [if_neg h0]
  by_cases h1 : n % 1000000 = 0
  · rw [if_pos h1]; exact ⟨_, rfl, 3, n / 1000000, .inl ⟨rfl, by omega, by omega⟩, rfl⟩
  · rw [if_neg h1]
    by_cases h2 : n % 1000 = 0
    · rw [if_pos h2]; exact ⟨_, rfl, 6, n / 1000, .inr (.inl ⟨rfl, by omega, by omega⟩), rfl⟩
    · rw [if_neg h2]; exact ⟨_, rfl, 9, n, .inr (.inr ⟨rfl, rfl, by omega⟩), rfl⟩

theorem FracDigits.digits {n : Nat} {s : Str} (h : FracDigits n s) : ∀ c ∈ s, c.isDigit = true := by
  obtain ⟨w, v, -, rfl⟩ := h; exact padTo_digits _ _

theorem FracDigits.inj {n n' : Nat} {s : Str} (h : FracDigits n s) (h' : FracDigits n' s) : n = n' := by
  obtain ⟨w, v, hw, hs⟩ := h
  obtain ⟨w', v', hw', hs'⟩ := h'
  have hl : w = w' := by
    have h1 : s.length = w := by
      rw [hs]; rcases hw with ⟨rfl, _, h⟩ | ⟨rfl, _, h⟩ | ⟨rfl, _, h⟩ <;> exact padTo_length (by omega) h
    have h2 : s.length = w' := by
      rw [hs']; rcases hw' with ⟨rfl, _, h⟩ | ⟨rfl, _, h⟩ | ⟨rfl, _, h⟩ <;> exact padTo_length (by omega) h
    omega
  have hv : v = v' := padTo_inj (hs.symm.trans hs')
  omega

theorem fracDebug_inj {n n' : Nat} {r r' : Str} (hn : n < 1000000000) (hn' : n' < 1000000000) (hr : AfterTime r) (hr' : AfterTime r')
    (h : fracDebug n ++ r = fracDebug n' ++ r') : n = n' ∧ r = r' := by
  by_cases h0 : n = 0
  · by_cases h0' : n' = 0
    · subst h0; subst h0'; exact ⟨rfl, h⟩
    · subst h0
      obtain ⟨s, hs, -⟩ := fracDebug_cons hn' h0'
      rw [hs] at h
      exact absurd rfl (hr '.' (by rw [show fracDebug 0 ++ r = r from rfl] at h; rw [h]; rfl)).2
  · obtain ⟨s, hs, hd⟩ := fracDebug_cons hn h0
    by_cases h0' : n' = 0
    · subst h0'
      rw [hs] at h
      exact absurd rfl (hr' '.' (by rw [show fracDebug 0 ++ r' = r' from rfl] at h; rw [← h]; rfl)).2
    · obtain ⟨s', hs', hd'⟩ := fracDebug_cons hn' h0'
      rw [hs, hs', List.cons_append, List.cons_append] at h
      injection h with _ h
      obtain ⟨h1, h2⟩ := run_inj hd.digits hd'.digits hr.noHead hr'.noHead h
      subst h1
      exact ⟨hd.inj hd', h2⟩

theorem time_debug_eq (t : NaiveDateTime) (r : Str) : t.debug ++ r = t.date.debug ++ 'T' :: (pad2 (t.secs / 3600) ++ ':' :: (pad2 (t.secs / 60 % 60) ++ ':' ::
    (pad2 (if t.frac < 1000000000 then t.secs % 60 else t.secs % 60 + 1) ++
      (fracDebug (if t.frac < 1000000000 then t.frac else t.frac - 1000000000) ++ r)))) := by
  simp [NaiveDateTime.debug, fracDebug]

theorem time_debug_inj {t t' : NaiveDateTime} {r r' : Str} (ht : AnySecond t) (ht' : AnySecond t') (hr : AfterTime r) (hr' : AfterTime r')
    (h : t.debug ++ r = t'.debug ++ r') : t = t' ∧ r = r' := by
  obtain ⟨hd, hs, hf⟩ := ht
  obtain ⟨hd', hs', hf'⟩ := ht'
  rw [time_debug_eq, time_debug_eq] at h
  obtain ⟨h1, h⟩ := date_debug_inj hd hd' h
  injection h with _ h
  obtain ⟨h2, h⟩ := pad2_append_inj (by omega) (by omega) h
  injection h with _ h
  obtain ⟨h3, h⟩ := pad2_append_inj (by omega) (by omega) h
  injection h with _ h
  obtain ⟨h4, h⟩ := pad2_append_inj (by split <;> omega) (by split <;> omega) h
  obtain ⟨h5, h⟩ := fracDebug_inj (by split <;> omega) (by split <;> omega) hr hr' h
  refine ⟨?_, h⟩
  have hsec : t.secs = t'.secs ∧ t.frac = t'.frac := by
    by_cases g : t.frac < 1000000000 <;> by_cases g' : t'.frac < 1000000000 <;>
      simp only [g, g', if_true, if_false] at h4 h5 <;> omega
  cases t; cases t'; simp at *; exact ⟨h1, hsec⟩

/-! ## Offsets -/

theorem offset_debug_inj {o o' : Int} (h1 : -86400 < o ∧ o < 86400) (h2 : -86400 < o' ∧ o' < 86400) (h : offsetDebug o = offsetDebug o') : o = o' := by
  unfold offsetDebug at h
  injection h with hs h
  obtain ⟨h3, h⟩ := pad2_append_inj (by omega) (by omega) h
  injection h with _ h
  obtain ⟨h4, h⟩ := pad2_append_inj (by omega) (by omega) h
  have h5 : o.natAbs % 60 = o'.natAbs % 60 := by
    split at h <;> split at h
    · omega
    · cases h
    · cases h
    · injection h with _ h
      rw [← List.append_nil (pad2 _), ← List.append_nil (pad2 (o'.natAbs % 60))] at h
      exact (pad2_append_inj (by omega) (by omega) h).1
  have h6 : o.natAbs = o'.natAbs := by omega
  by_cases h7 : o < 0 <;> by_cases h8 : o' < 0
  · omega
  · rw [if_pos h7, if_neg h8] at hs; exact absurd hs (by decide)
  · rw [if_neg h7, if_pos h8] at hs; exact absurd hs (by decide)
  · omega

theorem offset_after (o : Int) : AfterTime (offsetDebug o) := by
  intro c hc
  simp only [offsetDebug, List.head?_cons, Option.some.injEq] at hc
  subst hc
  split <;> exact ⟨rfl, by decide⟩

/-! ## The characters -/

theorem word_append {a b : Str} (ha : ∀ c ∈ a, wordChar c = true) (hb : ∀ c ∈ b, wordChar c = true) : ∀ c ∈ a ++ b, wordChar c = true := by
  intro c hc; rcases List.mem_append.1 hc with h | h
  · exact ha c h
  · exact hb c h

theorem word_cons {a : Char} {b : Str} (ha : wordChar a = true) (hb : ∀ c ∈ b, wordChar c = true) : ∀ c ∈ a :: b, wordChar c = true := by
  intro c hc; rcases List.mem_cons.1 hc with h | h
  · exact h ▸ ha
  · exact hb c h

theorem word_digits {a : Str} (ha : ∀ c ∈ a, c.isDigit = true) : ∀ c ∈ a, wordChar c = true := fun c hc => digit_word (ha c hc)

theorem word_nil : ∀ c ∈ ([] : Str), wordChar c = true := by simp

theorem sign_word (y : Int) : wordChar (if y < 0 then '-' else '+') = true := by split <;> rfl

theorem date_debug_word (d : NaiveDate) : ∀ c ∈ d.debug, wordChar c = true := by
  unfold NaiveDate.debug
  refine word_append ?_ (word_cons rfl (word_append (word_digits (pad2_digits _)) (word_cons rfl (word_digits (pad2_digits _)))))
  split
  · exact word_digits (pad4_digits _)
  · exact word_cons (sign_word _) (word_digits (padTo_digits _ _))

theorem frac_debug_word (n : Nat) : ∀ c ∈ fracDebug n, wordChar c = true := by
  unfold fracDebug
  split
  · exact word_nil
  · split
    · exact word_cons rfl (word_digits (padTo_digits _ _))
    · split
      · exact word_cons rfl (word_digits (padTo_digits _ _))
      · exact word_cons rfl (word_digits (padTo_digits _ _))

theorem time_debug_word (t : NaiveDateTime) : ∀ c ∈ t.debug, wordChar c = true := by
  rw [← List.append_nil t.debug, time_debug_eq, List.append_nil]
  exact word_append (date_debug_word _) (word_cons rfl (word_append (word_digits (pad2_digits _)) (word_cons rfl
    (word_append (word_digits (pad2_digits _)) (word_cons rfl (word_append (word_digits (pad2_digits _)) (frac_debug_word _)))))))

theorem offset_debug_word (o : Int) : ∀ c ∈ offsetDebug o, wordChar c = true := by
  unfold offsetDebug
  refine word_cons (sign_word _) (word_append (word_digits (pad2_digits _)) (word_cons rfl (word_append (word_digits (pad2_digits _)) ?_)))
  split
  · exact word_nil
  · exact word_cons rfl (word_digits (pad2_digits _))

theorem intStr_word (n : Int) : ∀ c ∈ intStr n, wordChar c = true := by
  unfold intStr
  split
  · exact word_cons rfl (word_digits (natStr_digits _))
  · exact word_digits (natStr_digits _)

theorem date_debug_ne (d : NaiveDate) : d.debug ≠ [] := by simp [NaiveDate.debug]
theorem time_debug_ne (t : NaiveDateTime) : t.debug ≠ [] := by simp [NaiveDateTime.debug]

end Ikal
