import Verif.Lemmas.Float
import Verif.Lemmas.Output

/-! # Lemmas: 32-bit floats that are written and read back -/

namespace Ikal.F32
open Spec

/-! ## The text -/

theorem decimal_append (a b : Str) : decimal (a ++ b) = decimal a * 10 ^ b.length + decimal b := by
  simp only [← digitsVal_eq_decimal, digitsVal_append]

theorem decimal_zeros (n : Nat) : decimal (List.replicate n '0') = 0 := by
  induction n with
  | zero => rfl
  | succ n ih => rw [List.replicate_succ, decimal, ih]; simp

theorem digit_zeros {n : Nat} {c : Char} (h : c ∈ List.replicate n '0') : c.isDigit = true := by
  rw [(List.mem_replicate.1 h).2]; rfl

theorem decimalText_plain {c : Nat} {e : Int} (h : c ≠ 0 ∨ e ≤ 0) : PlainDecimal (decimalText c e) c e := by
  unfold decimalText
  by_cases he : 0 ≤ e
  · rw [if_pos he]
    refine .inl ⟨he, Digits_iff.2 ⟨by simp [natStr_ne], ?_⟩, ?_, ?_⟩
    · intro d hd
      rcases List.mem_append.1 hd with hd | hd
      · exact natStr_digits c d hd
      · exact digit_zeros hd
    · rw [decimal_append, decimal_natStr, decimal_zeros, List.length_replicate, Nat.add_zero]
    · intro hh
      have hz : natStr c = ['0'] := by
        refine (numberText_natStr c).2.2 ?_
        cases hc : natStr c with
        | nil => exact absurd hc (natStr_ne c)
        | cons x y => rw [hc] at hh; exact hh
      have hc : c = 0 := by
        have := decimal_natStr c
        rw [hz] at this
        exact this.symm
      have he0 : e = 0 := by
        rcases h with h | h
        · exact absurd hc h
        · omega
      rw [hz, he0]
      rfl
  · rw [if_neg he]
    simp only
    generalize hn : (-e).toNat = n
    have hn1 : 1 ≤ n := by omega
    generalize hs : List.replicate (n + 1 - (natStr c).length) '0' ++ natStr c = s
    have hlen : n + 1 ≤ s.length := by
      rw [← hs, List.length_append, List.length_replicate]; omega
    have hd : ∀ d ∈ s, d.isDigit = true := by
      intro d hd
      rw [← hs] at hd
      rcases List.mem_append.1 hd with hd | hd
      · exact digit_zeros hd
      · exact natStr_digits c d hd
    have hv : decimal s = c := by
      rw [← hs, decimal_append, decimal_zeros, decimal_natStr]; simp
    refine .inr ⟨by omega, s.take (s.length - n), s.drop (s.length - n), rfl, ?_, ?_, ?_, ?_, ?_⟩
    · refine Digits_iff.2 ⟨?_, fun d h => hd d (List.mem_of_mem_take h)⟩
      intro h
      have := congrArg List.length h
      rw [List.length_take] at this
      simp at this
      omega
    · refine Digits_iff.2 ⟨?_, fun d h => hd d (List.mem_of_mem_drop h)⟩
      intro h
      have := congrArg List.length h
      rw [List.length_drop] at this
      simp at this
      omega
    · rw [List.length_drop]; omega
    · rw [List.take_append_drop]; exact hv
    · intro hh
      by_cases hl : s.length = n + 1
      · have h1 : s.length - n = 1 := by omega
        rw [h1] at hh ⊢
        cases s with
        | nil => simp at hl
        | cons x y =>
          simp only [List.take_succ_cons, List.take_zero, List.head?_cons, Option.some.injEq] at hh ⊢
          rw [hh]
      · have h0 : n + 1 - (natStr c).length = 0 := by
          have := congrArg List.length hs
          rw [List.length_append, List.length_replicate] at this
          omega
        rw [h0] at hs
        simp only [List.replicate_zero, List.nil_append] at hs
        have : natStr c = ['0'] := by
          refine (numberText_natStr c).2.2 ?_
          rw [hs]
          cases s with
          | nil => simp at hlen
          | cons x y =>
            have : ∃ k, (x :: y).length - n = k + 1 := ⟨(x :: y).length - n - 1, by omega⟩
            obtain ⟨k, hk⟩ := this
            rw [hk] at hh
            exact hh
        rw [← hs, this] at hlen
        simp at hlen
        omega

/-- A text is determined by the number. -/
theorem plain_unique {s t : Str} {c : Nat} {e : Int} (hs : PlainDecimal s c e) (ht : PlainDecimal t c e) : s = t := by
  rcases hs with ⟨h0, h1, h2, h3⟩ | ⟨h0, i, f, rfl, hi, hf, hl, hv, hz⟩
  · rcases ht with ⟨-, g1, g2, g3⟩ | ⟨g0, -⟩
    · exact (numberText_iff.1 ⟨h1, h2, h3⟩).trans (numberText_iff.1 ⟨g1, g2, g3⟩).symm
    · omega
  · rcases ht with ⟨g0, -⟩ | ⟨-, i', f', rfl, hi', hf', hl', hv', hz'⟩
    · omega
    · have l1 := digitsVal_lt f (Digits_iff.1 hf).2
      have l2 := digitsVal_lt f' (Digits_iff.1 hf').2
      rw [digitsVal_eq_decimal, hl] at l1
      rw [digitsVal_eq_decimal, hl'] at l2
      rw [decimal_append, hl] at hv
      rw [decimal_append, hl'] at hv'
      generalize hp : 10 ^ (-e).toNat = p at *
      have hp0 : 0 < p := by rw [← hp]; exact ten_pos _
      have q1 : c / p = decimal i := by
        rw [← hv, Nat.mul_comm, Nat.mul_add_div hp0, Nat.div_eq_of_lt l1]; omega
      have q2 : c / p = decimal i' := by
        rw [← hv', Nat.mul_comm, Nat.mul_add_div hp0, Nat.div_eq_of_lt l2]; omega
      have ei : i = i' := (numberText_iff.1 ⟨hi, q1.symm, hz⟩).trans (numberText_iff.1 ⟨hi', q2.symm, hz'⟩).symm
      have ef : f = f' := by
        refine digits_eq_of_val (Digits_iff.1 hf).2 (Digits_iff.1 hf').2 (by rw [hl, hl']) ?_
        rw [digitsVal_eq_decimal, digitsVal_eq_decimal]
        rw [← ei] at hv'
        omega
      rw [ei, ef]

theorem minus_sign (neg : Bool) : SignText (minus neg) neg := by
  cases neg
  · exact .inl ⟨rfl, rfl⟩
  · exact .inr (.inr ⟨rfl, rfl⟩)

/-- The end of the text or a semicolon. -/
def Ends (r : Str) : Prop := r = [] ∨ ∃ t, r = ';' :: t

theorem Ends.no_digit {r : Str} (h : Ends r) : NoDigit r := by
  rcases h with rfl | ⟨t, rfl⟩ <;> intro c hc <;> cases hc
  rfl

theorem Ends.not_head {r : Str} (h : Ends r) {c : Char} (hc : c ≠ ';') : r.head? ≠ some c := by
  rcases h with rfl | ⟨t, rfl⟩
  · simp
  · intro h; cases h; exact hc rfl

/-- A plain decimal number is read as the float that is the nearest. -/
theorem parse_plain {t r : Str} {c : Nat} {e : Int} (h : PlainDecimal t c e) (hr : Ends r) (neg : Bool) :
    parse (minus neg ++ (t ++ r)) = some (ofBits neg (nearestDecimal c e), r) := by
  refine parse_iff.2 (.inl ?_)
  have hx : ExponentText [] 0 r := .inl ⟨rfl, rfl, hr.not_head (by decide), hr.not_head (by decide)⟩
  rcases h with ⟨he, hd, hv, -⟩ | ⟨he, i, f, rfl, hi, hf, hl, hv, -⟩
  · refine ⟨minus neg, t, [], [], [], neg, 0, rfl, minus_sign neg, (Digits_iff.1 hd).2, (by intro d h; cases h), .inl hd.1,
      .inr ⟨rfl, rfl, hr.not_head (by decide)⟩, hr.no_digit, hx, ?_⟩
    refine ofBits_iff.1 ?_
    rw [List.append_nil, hv, nearestDecimal_shift]
    congr 2
    simp
    omega
  · refine ⟨minus neg, i, ['.'], f, [], neg, 0, ?_, minus_sign neg, (Digits_iff.1 hi).2, (Digits_iff.1 hf).2, .inl hi.1,
      .inl rfl, hr.no_digit, hx, ?_⟩
    · simp
    · refine ofBits_iff.1 ?_
      rw [hv, hl]
      congr 2
      omega

/-- What a finite number is shown as. -/
theorem display_plain (neg : Bool) (b : Fin f32Inf) : ∃ t c e, display (.fin neg b) = minus neg ++ t ∧ PlainDecimal t c e ∧ nearestDecimal c e = b.val := by
  by_cases h0 : b.val = 0
  · refine ⟨['0'], 0, 0, by rw [display, if_pos h0], ?_, by rw [nearestDecimal_zero, h0]⟩
    exact .inl ⟨by decide, Digits_iff.2 ⟨by decide, by decide⟩, by decide, by decide⟩
  · refine ⟨_, _, _, by rw [display, if_neg h0], decimalText_plain (.inl ?_), shortest_rounds b.val⟩
    intro h
    have := shortest_end b.isLt h0
    rw [h] at this
    exact this rfl

theorem ofBits_fin (neg : Bool) (b : Fin f32Inf) : ofBits neg b.val = .fin neg b := by
  unfold ofBits
  rw [dif_pos b.isLt]

/-- A finite number is read back. -/
theorem parse_display (neg : Bool) (b : Fin f32Inf) {r : Str} (hr : Ends r) : parse (display (.fin neg b) ++ r) = some (.fin neg b, r) := by
  obtain ⟨t, c, e, h1, h2, h3⟩ := display_plain neg b
  rw [h1, List.append_assoc, parse_plain h2 hr, h3, ofBits_fin]

/-! ## The tenths -/

/-- The tenths that are shown. -/
def tenths (b : Nat) : Nat := halfEven (scaled b * 10) (2 ^ 149)

theorem halfEven_iff {a w t : Nat} (hw : 0 < w) : halfEven a w = t ↔
    2 * (a - t * w : Int).natAbs < w ∨ 2 * (a - t * w : Int).natAbs = w ∧ t % 2 = 0 := by
  have h1 : a = w * (a / w) + a % w := (Nat.div_add_mod a w).symm
  have h2 : a % w < w := Nat.mod_lt _ hw
  unfold halfEven
  generalize a / w = q at *
  generalize a % w = m at *
  have key : ∀ t : Nat, (a - t * w : Int).natAbs = ((w : Int) * (q - t : Int) + m).natAbs := by
    intro t
    congr 1
    rw [h1]
    push_cast
    rw [Int.mul_sub, Int.mul_comm (w : Int) (t : Int)]
    omega
  rw [key t]
  -- only the quotient and the next one are near enough
  have far : ∀ d : Int, d ≤ -2 ∨ 1 ≤ d → w < 2 * ((w : Int) * d + m).natAbs ∨ m = 0 ∧ d = 1 ∧ w ≤ ((w : Int) * d + m).natAbs := by
    intro d hd
    rcases hd with hd | hd
    · left
      have := Int.mul_le_mul_of_nonneg_left hd (show (0 : Int) ≤ w by omega)
      omega
    · left
      have := Int.mul_le_mul_of_nonneg_left hd (show (0 : Int) ≤ w by omega)
      omega
  by_cases hq : (q : Int) - t = 0
  · have : q = t := by omega
    subst this
    rw [hq, Int.mul_zero]
    split <;> omega
  · by_cases hq1 : (q : Int) - t = -1
    · have : t = q + 1 := by omega
      subst this
      rw [hq1]
      split <;> omega
    · have := far (q - t) (by omega)
      split <;> omega

theorem tenths_iff {b t : Nat} : tenths b = t ↔
    2 * ((scaled b * 10 : Nat) - (t * 2 ^ 149 : Nat) : Int).natAbs < 2 ^ 149 ∨ 2 * ((scaled b * 10 : Nat) - (t * 2 ^ 149 : Nat) : Int).natAbs = 2 ^ 149 ∧ t % 2 = 0 := by
  have := halfEven_iff (a := scaled b * 10) (w := 2 ^ 149) (t := t) (Nat.two_pow_pos _)
  rw [Int.natCast_mul t]
  exact this

theorem spread {t j : Nat} (h : j ≠ t) (w a : Nat) : w ≤ (a - (t * w : Nat) : Int).natAbs + (a - (j * w : Nat) : Int).natAbs := by
  rcases Nat.lt_or_gt_of_ne h with h | h
  · have := Nat.mul_le_mul_right w h
    rw [Nat.succ_mul] at this
    omega
  · have := Nat.mul_le_mul_right w h
    rw [Nat.succ_mul] at this
    omega

theorem tenths_is (b t : Nat) : tenths b = t ↔ Tenths b t := by
  unfold Tenths TenthsOff
  simp only [units_eq, Nat.mul_comm 10]
  have hw : 0 < 2 ^ 149 := Nat.two_pow_pos _
  have fwd : ∀ t, tenths b = t → (∀ j, ((scaled b * 10 : Nat) - (t * 2 ^ 149 : Nat) : Int).natAbs ≤ ((scaled b * 10 : Nat) - (j * 2 ^ 149 : Nat) : Int).natAbs) ∧
      ∀ j, j ≠ t → ((scaled b * 10 : Nat) - (j * 2 ^ 149 : Nat) : Int).natAbs = ((scaled b * 10 : Nat) - (t * 2 ^ 149 : Nat) : Int).natAbs → t % 2 = 0 := by
    intro t h
    have h := tenths_iff.1 h
    generalize 2 ^ 149 = w at *
    constructor
    · intro j
      by_cases hj : j = t
      · rw [hj]; exact Nat.le_refl _
      · have := spread hj w (scaled b * 10)
        omega
    · intro j hj he
      have := spread hj w (scaled b * 10)
      omega
  constructor
  · exact fwd t
  · intro ⟨h1, h2⟩
    have h0 := tenths_iff.1 (rfl : tenths b = tenths b)
    obtain ⟨g1, g2⟩ := fwd _ rfl
    by_cases ht : tenths b = t
    · exact ht
    · exfalso
      have a1 := h1 (tenths b)
      have a2 := g1 t
      have a3 := h2 _ ht (by omega)
      have a4 := g2 _ (fun h => ht h.symm) (by omega)
      generalize 2 ^ 149 = w at *
      have a5 := spread ht w (scaled b * 10)
      have a6 : tenths b + 2 ≤ t ∨ t + 2 ≤ tenths b := by omega
      generalize tenths b = u at *
      rcases a6 with a6 | a6
      · have := Nat.mul_le_mul_right w a6
        rw [Nat.add_mul] at this
        omega
      · have := Nat.mul_le_mul_right w a6
        rw [Nat.add_mul] at this
        omega

/-! ## The numbers that are rounded to a float -/

/-- Numbers above a float that are rounded to it. -/
theorem nearest_up {n a b : Nat} (hb : 0 < b) (h : scaled n * b ≤ a) :
    nearest a b = n ↔ 2 * a < (scaled n + scaled (n + 1)) * b ∨ 2 * a = (scaled n + scaled (n + 1)) * b ∧ n % 2 = 0 := by
  obtain ⟨lo, h1, h2, h3⟩ := nearest_bounds a hb
  have hs := scaled_succ lo
  have hn : n ≤ lo := by
    refine Classical.byContradiction fun hc => ?_
    have := mul_lt hb (show lo < n by omega)
    have := Nat.mul_le_mul_right b (scaled_le (show lo + 1 ≤ n by omega))
    omega
  rw [Nat.sub_mul] at h3
  rw [Nat.add_mul]
  have m1 := mul_lt hb (Nat.lt_succ_self lo)
  by_cases e : n = lo
  · subst e; simp only [Nat.succ_eq_add_one] at m1; omega
  · have m2 := Nat.mul_le_mul_right b (scaled_le (show n + 1 ≤ lo by omega))
    have m3 := mul_lt hb (show n < n + 1 by omega)
    constructor
    · intro h; omega
    · intro h; omega

/-- Numbers below a float that are rounded to it. -/
theorem nearest_down {n a b : Nat} (hb : 0 < b) (h : a ≤ scaled (n + 1) * b) :
    nearest a b = n + 1 ↔ (scaled n + scaled (n + 1)) * b < 2 * a ∨ 2 * a = (scaled n + scaled (n + 1)) * b ∧ (n + 1) % 2 = 0 := by
  obtain ⟨lo, h1, h2, h3⟩ := nearest_bounds a hb
  have hs := scaled_succ lo
  rw [Nat.sub_mul] at h3
  rw [Nat.add_mul]
  have m1 := mul_lt hb (Nat.lt_succ_self lo)
  simp only [Nat.succ_eq_add_one] at m1
  rcases Nat.lt_trichotomy lo n with hl | hl | hl
  · have m2 := Nat.mul_le_mul_right b (scaled_le (show lo + 1 ≤ n by omega))
    have m3 := mul_lt hb (show n < n + 1 by omega)
    constructor
    · intro h; omega
    · intro h; omega
  · subst hl; omega
  · have m2 := Nat.mul_le_mul_right b (scaled_le (show n + 1 ≤ lo by omega))
    have m3 := mul_lt hb (show n < n + 1 by omega)
    by_cases e : lo = n + 1
    · subst e
      have : a = scaled (n + 1) * b := by omega
      omega
    · have m4 := mul_lt hb (show n + 1 < lo by omega)
      omega

/-- The floats do not get denser. -/
theorem gaps (n : Nat) : 2 * scaled (n + 1) ≤ scaled n + scaled (n + 2) := by
  obtain ⟨k, m, rfl, h1, h2⟩ := form n
  have e0 := scaled_form (k := k) (m := m) (by omega) h2
  have e1 := scaled_form (k := k) (m := m + 1) (by omega) (by omega)
  rw [← Nat.add_assoc] at e1
  rw [e0, e1]
  by_cases h : m + 1 < 2 ^ 24
  · have e2 := scaled_form (k := k) (m := m + 2) (by omega) (by omega)
    rw [← Nat.add_assoc] at e2
    rw [e2]
    simp only [Nat.add_mul]
    omega
  · have hm : m = 2 ^ 24 - 1 := by omega
    have e2 := scaled_form (k := k + 1) (m := 2 ^ 23 + 1) (by omega) (by omega)
    have : (k + 1) * 2 ^ 23 + (2 ^ 23 + 1) = k * 2 ^ 23 + m + 2 := by omega
    rw [this] at e2
    rw [e2, hm, show 2 ^ (k + 1) = 2 ^ k * 2 from Nat.pow_succ _ _]
    clear e0 e1 e2
    generalize 2 ^ k = p
    simp only [Nat.add_mul, ← Nat.mul_assoc, Nat.mul_comm p]
    omega

/-- The gap above a float, bounded from the number. -/
theorem gap_le {n k : Nat} (h : scaled n < 2 ^ (k + 24)) : scaled (n + 1) ≤ scaled n + 2 ^ k := by
  obtain ⟨j, m, rfl, h1, h2⟩ := form n
  have e0 := scaled_form (k := j) (m := m) (by omega) h2
  have e1 := scaled_form (k := j) (m := m + 1) (by omega) (by omega)
  rw [← Nat.add_assoc] at e1
  rw [e0] at h ⊢
  rw [e1, Nat.add_mul, Nat.one_mul]
  refine Nat.add_le_add_left (Nat.pow_le_pow_right (by decide) ?_) _
  rcases h2 with h2 | h2
  · omega
  · refine Classical.byContradiction fun hc => ?_
    have h3 : 2 ^ (k + 1) ≤ 2 ^ j := Nat.pow_le_pow_right (by decide) (by omega)
    have h4 : 2 ^ 23 * 2 ^ (k + 1) ≤ m * 2 ^ j := Nat.mul_le_mul h2 h3
    rw [← Nat.pow_add, show 23 + (k + 1) = k + 24 by omega] at h4
    omega

/-- The gap above a float, bounded by the number. -/
theorem gap_normal {n : Nat} (h : 2 ^ 23 ≤ n) : (scaled (n + 1) - scaled n) * 2 ^ 23 ≤ scaled n := by
  obtain ⟨j, m, rfl, h1, h2⟩ := form n
  have e0 := scaled_form (k := j) (m := m) (by omega) h2
  have e1 := scaled_form (k := j) (m := m + 1) (by omega) (by omega)
  rw [← Nat.add_assoc] at e1
  rw [e0, e1, Nat.add_mul, Nat.one_mul, Nat.add_sub_cancel_left, Nat.mul_comm]
  refine Nat.mul_le_mul_right _ ?_
  rcases h2 with rfl | h2 <;> omega

/-- What is known of a number that is rounded to a float. -/
theorem round_hi {n a b : Nat} (hb : 0 < b) (h : nearest a b = n) : 2 * a ≤ (scaled n + scaled (n + 1)) * b := by
  by_cases hc : scaled n * b ≤ a
  · have := (nearest_up hb hc).1 h
    omega
  · have := mul_lt hb (show n < n + 1 by omega)
    rw [Nat.add_mul]
    omega

theorem round_lo {n a b : Nat} (hb : 0 < b) (h : nearest a b = n + 1) : (scaled n + scaled (n + 1)) * b ≤ 2 * a := by
  by_cases hc : a ≤ scaled (n + 1) * b
  · have := (nearest_down hb hc).1 h
    omega
  · have := mul_lt hb (show n < n + 1 by omega)
    rw [Nat.add_mul]
    omega

/-- If the floats are denser than the multiples of `10^e`, only one of these is rounded to a float. -/
theorem dense_unique {n c c' : Nat} {e : Int} (h : nearestDecimal c e = n) (h' : nearestDecimal c' e = n)
    (hd : (scaled (n + 1) - scaled n) * 10 ^ (-e).toNat < 2 ^ 149 * 10 ^ e.toNat) : c = c' := by
  have key : ∀ c c', nearestDecimal c e = n → nearestDecimal c' e = n → c < c' → False := by
    intro c c' h h' hlt
    unfold nearestDecimal at h h'
    rw [Nat.mul_assoc] at h h'
    have hb := ten_pos (-e).toNat
    generalize 10 ^ (-e).toNat = b at *
    generalize 2 ^ 149 * 10 ^ e.toNat = w at *
    have hi := round_hi hb h'
    have hm := Nat.mul_le_mul_right w hlt
    rw [Nat.succ_mul] at hm
    have hs := mul_lt hb (show n < n + 1 by omega)
    rw [Nat.sub_mul] at hd
    rw [Nat.add_mul] at hi
    cases n with
    | zero =>
      have : scaled 0 = 0 := rfl
      rw [this, Nat.zero_mul] at hi hs hd
      omega
    | succ n =>
      have lo := round_lo hb h
      have hg := Nat.mul_le_mul_right b (gaps n)
      rw [Nat.mul_assoc, Nat.add_mul] at hg
      rw [Nat.add_mul] at lo
      simp only [Nat.add_assoc, Nat.reduceAdd] at *
      omega
  rcases Nat.lt_trichotomy c c' with hc | hc | hc
  · exact (key _ _ h h' hc).elim
  · exact hc
  · exact (key _ _ h' h hc).elim

/-- Then the number is shown as it was. -/
theorem shortest_exact {b c : Nat} {e : Int} (hb : b < f32Inf) (h0 : b ≠ 0) (h : nearestDecimal c e = b)
    (hd : (scaled (b + 1) - scaled b) * 10 ^ (-e).toNat < 2 ^ 149 * 10 ^ e.toNat) :
    e ≤ (shortest b).2 ∧ c = (shortest b).1 * 10 ^ ((shortest b).2 - e).toNat := by
  have he := shortest_coarsest hb h0 h
  refine ⟨he, dense_unique h ?_ hd⟩
  rw [nearestDecimal_shift]
  have : e + (((shortest b).2 - e).toNat : Int) = (shortest b).2 := by omega
  rw [this]
  exact shortest_rounds b

theorem gap_twice {t u v : Nat} (hg : 2 * u ≤ t + v) (hgn : (v - u) * 8388608 ≤ u) (h : u < v) : (v - u) * 16777215 ≤ t + u := by
  obtain ⟨g, rfl⟩ : ∃ g, v = u + g := ⟨v - u, by omega⟩
  rw [Nat.add_sub_cancel_left] at *
  have h1 : u ≤ t + g := by omega
  clear hg h
  have h2 : g * 16777216 ≤ u + u := by
    have : g * 16777216 = g * 8388608 + g * 8388608 := by rw [← Nat.mul_add]
    rw [this]
    exact Nat.add_le_add hgn hgn
  have h3 : g * 16777216 = g * 16777215 + g := rfl
  clear hgn
  exact Nat.le_of_add_le_add_right (b := g) (Nat.le_trans (Nat.le_of_eq h3.symm) (Nat.le_trans h2 (by omega)))

/-- Numbers with at most six digits (and more) are rounded to floats that are denser than they are. -/
theorem dense_digits {b c : Nat} {e : Int} (hn : 2 ^ 23 ≤ b) (h : nearestDecimal c e = b) (hc : c < 2 ^ 23) :
    (scaled (b + 1) - scaled b) * 10 ^ (-e).toNat < 2 ^ 149 * 10 ^ e.toNat := by
  obtain ⟨n, rfl⟩ : ∃ n, b = n + 1 := ⟨b - 1, by omega⟩
  unfold nearestDecimal at h
  rw [Nat.mul_assoc] at h
  have hp := ten_pos (-e).toNat
  have hw : 0 < 2 ^ 149 * 10 ^ e.toNat := Nat.mul_pos (Nat.two_pow_pos _) (ten_pos _)
  generalize 10 ^ (-e).toNat = p at *
  generalize 2 ^ 149 * 10 ^ e.toNat = w at *
  have lo := round_lo hp h
  have hg := gaps n
  have hgn := gap_normal hn
  have s1 := scaled_succ n
  have s2 := scaled_succ (n + 1)
  generalize hu : scaled (n + 1) = u at *
  generalize hv : scaled (n + 1 + 1) = v at *
  generalize scaled n = t at *
  simp only [Nat.reducePow] at hgn hc
  have k1 : (v - u) * 16777215 ≤ t + u := gap_twice hg hgn s2
  have k2 := Nat.mul_le_mul_right p k1
  have k3 : c * w ≤ 8388607 * w := Nat.mul_le_mul_right w (by omega)
  rw [Nat.mul_right_comm] at k2
  generalize (v - u) * p = g at *
  generalize (t + u) * p = x at *
  generalize c * w = y at *
  clear hgn hg hn h hc hu hv s1 s2 k1
  omega

/-- Below a thousand the floats are denser than numbers with four decimals. -/
theorem dense_decimals {b c : Nat} (h : nearestDecimal c (-4) = b) (hc : c < 10 ^ 7) :
    (scaled (b + 1) - scaled b) * 10 ^ (4 : Int).toNat < 2 ^ 149 * 10 ^ (-4 : Int).toNat := by
  have hb : scaled b < 2 ^ (135 + 24) := by
    refine Classical.byContradiction fun hcon => ?_
    have hlt : b < 137 * 2 ^ 23 := by
      have : nearestDecimal (10 ^ 7) (-4) < 137 * 2 ^ 23 := by decide +kernel
      have := nearestDecimal_mono (Nat.le_of_lt hc) (-4)
      omega
    have := scaled_lt hlt
    have e : scaled (137 * 2 ^ 23) ≤ 2 ^ (135 + 24) := by decide +kernel
    omega
  have := gap_le hb
  have e1 : (4 : Int).toNat = 4 := rfl
  have e2 : (-4 : Int).toNat = 0 := rfl
  rw [e1, e2, Nat.pow_zero, Nat.mul_one]
  have e3 : 2 ^ 149 = 2 ^ 135 * 2 ^ 14 := rfl
  rw [e3]
  generalize 2 ^ 135 = p at *
  omega

/-! ## Tenths that are read back -/

theorem tenth_args (c : Nat) : nearestDecimal c (-1) = nearest (c * 2 ^ 149) 10 := by
  show nearest (c * 2 ^ 149 * 10 ^ 0) (10 ^ 1) = _
  rw [Nat.pow_zero, Nat.mul_one, Nat.pow_one]

theorem tenths_close (b : Nat) : 2 * ((scaled b * 10 : Nat) - (tenths b * 2 ^ 149 : Nat) : Int).natAbs ≤ 2 ^ 149 := by
  have := tenths_iff.1 (rfl : tenths b = tenths b)
  omega

/-- What is read from the tenths is shown as the same tenths. -/
theorem tenths_stable {b : Nat} (hb : b < f32Inf) : nearestDecimal (tenths b) (-1) < f32Inf ∧ tenths (nearestDecimal (tenths b) (-1)) = tenths b := by
  have h1 := (nearest_is (tenths b * 2 ^ 149) (b := 10) (by decide)).1 b
  rw [← tenth_args, off_eq, off_eq] at h1
  have h2 := tenths_iff.1 (rfl : tenths b = tenths b)
  refine ⟨?_, tenths_iff.2 (by generalize 2 ^ 149 = w at *; omega)⟩
  refine Classical.byContradiction fun hc => ?_
  have h3 := scaled_le (show f32Inf ≤ nearestDecimal (tenths b) (-1) by omega)
  have h4 := scaled_le (show b ≤ f32Inf - 1 by omega)
  have h5 : scaled (f32Inf - 1) + 2 ^ 149 < scaled f32Inf := by decide +kernel
  generalize 2 ^ 149 = w at *
  omega

/-- Tenths with up to seven digits are shown as they were. -/
theorem tenths_codes {c : Nat} (hc : c < 10 ^ 7) : nearestDecimal c (-1) < f32Inf ∧ tenths (nearestDecimal c (-1)) = c := by
  have hlt : nearestDecimal c (-1) < 147 * 2 ^ 23 := by
    have h1 : nearestDecimal (10 ^ 7) (-1) < 147 * 2 ^ 23 := by decide +kernel
    have h2 := nearestDecimal_mono (Nat.le_of_lt hc) (-1)
    omega
  refine ⟨Nat.lt_of_lt_of_le hlt (by decide), ?_⟩
  have hs : scaled (nearestDecimal c (-1)) < 2 ^ (145 + 24) := Nat.lt_of_lt_of_le (scaled_lt hlt) (by decide +kernel)
  have hg := gap_le hs
  have hn := tenth_args c
  generalize nearestDecimal c (-1) = b at *
  have hi := round_hi (by decide) hn.symm
  refine tenths_iff.2 (.inl ?_)
  generalize hw : 2 ^ 149 = w at *
  have e : w = 16 * 2 ^ 145 := by rw [← hw]
  have hp : 0 < 2 ^ 145 := Nat.two_pow_pos _
  generalize 2 ^ 145 = p at *
  clear hw hs hlt hc
  cases b with
  | zero =>
    have z : scaled 0 = 0 := rfl
    have := scaled_succ 0
    omega
  | succ n =>
    have lo := round_lo (by decide) hn.symm
    have := gaps n
    have := scaled_succ (n + 1)
    simp only [Nat.add_assoc, Nat.reduceAdd] at *
    omega

theorem gap_cases (n : Nat) : scaled n + scaled (n + 2) = 2 * scaled (n + 1) ∨ ∃ k, scaled (n + 1) = 2 ^ (24 + k) ∧ scaled (n + 2) = 2 ^ (24 + k) + 2 ^ (k + 1) := by
  obtain ⟨k, m, rfl, h1, h2⟩ := form n
  have e0 := scaled_form (k := k) (m := m) (by omega) h2
  have e1 := scaled_form (k := k) (m := m + 1) (by omega) (by omega)
  rw [← Nat.add_assoc] at e1
  rw [e0, e1]
  by_cases h : m + 1 < 2 ^ 24
  · have e2 := scaled_form (k := k) (m := m + 2) (by omega) (by omega)
    rw [← Nat.add_assoc] at e2
    rw [e2]
    left
    simp only [Nat.add_mul]
    omega
  · have hm : m = 2 ^ 24 - 1 := by omega
    have e2 := scaled_form (k := k + 1) (m := 2 ^ 23 + 1) (by omega) (by omega)
    have : (k + 1) * 2 ^ 23 + (2 ^ 23 + 1) = k * 2 ^ 23 + m + 2 := by omega
    rw [this] at e2
    rw [e2, show m + 1 = 2 ^ 24 by omega]
    right
    refine ⟨k, by rw [Nat.pow_add], ?_⟩
    have h23 : 2 ^ 23 * 2 ^ (k + 1) = 2 ^ (24 + k) := by rw [← Nat.pow_add]; congr 1; omega
    rw [Nat.add_mul, Nat.one_mul, h23]

/-- If any tenths are read as a float, those that it is shown as are. -/
theorem tenths_back {b c : Nat} (h : nearestDecimal c (-1) = b) : nearestDecimal (tenths b) (-1) = b := by
  have hT := ((tenths_is b (tenths b)).1 rfl).1
  unfold TenthsOff at hT
  simp only [units_eq] at hT
  have hc := hT c
  rw [tenth_args] at h ⊢
  generalize tenths b = t at *
  rcases Nat.lt_trichotomy (t * 2 ^ 149) (scaled b * 10) with ht | ht | ht
  · cases b with
    | zero => rw [show scaled 0 = 0 from rfl] at ht; exact absurd ht (Nat.not_lt_zero _)
    | succ n =>
      rw [nearest_down (by decide) (by omega)]
      by_cases hcs : c * 2 ^ 149 ≤ scaled (n + 1) * 10
      · have := (nearest_down (by decide) hcs).1 h
        generalize 2 ^ 149 = w at *
        omega
      · have hu := (nearest_up (by decide) (by omega)).1 h
        rcases gap_cases n with hg | ⟨k, hg1, hg2⟩
        · simp only [Nat.add_assoc, Nat.reduceAdd] at *
          generalize 2 ^ 149 = w at *
          omega
        · exfalso
          simp only [Nat.add_assoc, Nat.reduceAdd] at *
          have hct : t * 2 ^ 149 + 2 ^ 149 ≤ c * 2 ^ 149 := by
            have : t < c := Nat.lt_of_mul_lt_mul_right (a := 2 ^ 149) (by omega)
            have := Nat.mul_le_mul_right (2 ^ 149) this
            rw [Nat.succ_mul] at this
            exact this
          have hk : 146 ≤ k + 1 := by
            refine Classical.byContradiction fun hk => ?_
            have : 2 ^ (k + 1) ≤ 2 ^ 145 := Nat.pow_le_pow_right (by decide) (by omega)
            have hp : 0 < 2 ^ 145 := Nat.two_pow_pos _
            have e : 2 ^ 149 = 16 * 2 ^ 145 := rfl
            clear hT h hk
            generalize 2 ^ 145 = p at *
            generalize 2 ^ 149 = w at *
            generalize 2 ^ (k + 1) = q at *
            generalize 2 ^ (24 + k) = r at *
            omega
          have hm : 2 ^ (24 + k) = 2 ^ (24 + k - 149) * 2 ^ 149 := by
            rw [← Nat.pow_add, Nat.sub_add_cancel (by omega)]
          have hq := hT (2 ^ (24 + k - 149) * 10)
          rw [Nat.mul_right_comm, ← hm] at hq
          clear hT hm hk hct hg2
          generalize 2 ^ 149 = w at *
          generalize 2 ^ (24 + k) = r at *
          omega
  · rw [ht]; exact nearest_self b (by decide)
  · rw [nearest_up (by decide) (by omega)]
    by_cases hcs : scaled b * 10 ≤ c * 2 ^ 149
    · have := (nearest_up (by decide) hcs).1 h
      generalize 2 ^ 149 = w at *
      omega
    · cases b with
      | zero => rw [show scaled 0 = 0 from rfl] at hcs; omega
      | succ n =>
        have hd := (nearest_down (by decide) (by omega)).1 h
        have hg := gaps n
        simp only [Nat.add_assoc, Nat.reduceAdd] at *
        generalize 2 ^ 149 = w at *
        omega

/-- The tenths are read as the float nearest to them. -/
theorem parse_display1 (neg : Bool) (b : Fin f32Inf) {r : Str} (hr : Ends r) :
    parse (display1 (.fin neg b) ++ r) = some (ofBits neg (nearestDecimal (tenths b) (-1)), r) := by
  show parse (minus neg ++ decimalText (tenths b) (-1) ++ r) = _
  rw [List.append_assoc, parse_plain (decimalText_plain (.inr (by decide))) hr]

end Ikal.F32
