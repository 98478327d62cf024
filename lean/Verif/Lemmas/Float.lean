import Verif.Spec.Float
import Verif.Lemmas.Num

/-! # Lemmas: 32-bit floats -/

namespace Ikal.F32
open Spec

theorem units_eq (b : Nat) : units b = scaled b := by
  unfold units scaled
  by_cases h : b < 2 ^ 23
  · rw [if_pos h, if_pos (Nat.div_eq_of_lt h), Nat.mod_eq_of_lt h]
  · rw [if_neg h, if_neg]
    have := Nat.div_pos (Nat.le_of_not_lt h) (by decide)
    omega

/-- The number with exponent `k` and significand `m`. -/
theorem scaled_form {k m : Nat} (h1 : m ≤ 2 ^ 24) (h2 : k = 0 ∨ 2 ^ 23 ≤ m) : scaled (k * 2 ^ 23 + m) = m * 2 ^ k := by
  unfold scaled
  by_cases hm : m < 2 ^ 23
  · have hk : k = 0 := by omega
    subst hk
    rw [if_pos (by omega)]
    simp
  · rw [if_neg (by omega)]
    rcases Nat.lt_or_ge m (2 ^ 24) with h | h
    · have e1 : (k * 2 ^ 23 + m) / 2 ^ 23 = k + 1 := by omega
      have e2 : (k * 2 ^ 23 + m) % 2 ^ 23 = m - 2 ^ 23 := by omega
      rw [e1, e2, show 2 ^ 23 + (m - 2 ^ 23) = m by omega, Nat.add_sub_cancel]
    · have e0 : m = 2 ^ 24 := by omega
      have e1 : (k * 2 ^ 23 + m) / 2 ^ 23 = k + 2 := by omega
      have e2 : (k * 2 ^ 23 + m) % 2 ^ 23 = 0 := by omega
      rw [e1, e2, e0, show k + 2 - 1 = k + 1 from rfl, Nat.pow_succ]
      omega

theorem form (b : Nat) : ∃ k m, b = k * 2 ^ 23 + m ∧ m < 2 ^ 24 ∧ (k = 0 ∨ 2 ^ 23 ≤ m) := by
  refine ⟨b / 2 ^ 23 - 1, b - (b / 2 ^ 23 - 1) * 2 ^ 23, ?_, ?_, ?_⟩ <;> omega

theorem scaled_succ (b : Nat) : scaled b < scaled (b + 1) := by
  obtain ⟨k, m, rfl, h1, h2⟩ := form b
  rw [Nat.add_assoc, scaled_form (by omega) h2, scaled_form (m := m + 1) (by omega) (by omega)]
  exact Nat.mul_lt_mul_of_pos_right (by omega) (Nat.two_pow_pos k)

theorem scaled_lt {i j : Nat} (h : i < j) : scaled i < scaled j := by
  induction j with
  | zero => omega
  | succ j ih =>
    rcases Nat.lt_or_ge i j with h1 | h1
    · exact Nat.lt_trans (ih h1) (scaled_succ j)
    · rw [show i = j by omega]; exact scaled_succ j

theorem scaled_le {i j : Nat} (h : i ≤ j) : scaled i ≤ scaled j := by
  rcases Nat.lt_or_eq_of_le h with h | rfl
  · exact Nat.le_of_lt (scaled_lt h)
  · exact Nat.le_refl _

/-- The two neighbours of a number, and which of them is taken. -/
theorem nearest_bounds (a : Nat) {b : Nat} (hb : 0 < b) : ∃ lo, scaled lo * b ≤ a ∧ a < scaled (lo + 1) * b ∧
    (nearest a b = lo ∧ (2 * (a - scaled lo * b) < (scaled (lo + 1) - scaled lo) * b ∨ 2 * (a - scaled lo * b) = (scaled (lo + 1) - scaled lo) * b ∧ lo % 2 = 0) ∨
     nearest a b = lo + 1 ∧ ((scaled (lo + 1) - scaled lo) * b < 2 * (a - scaled lo * b) ∨ 2 * (a - scaled lo * b) = (scaled (lo + 1) - scaled lo) * b ∧ lo % 2 = 1)) := by
  let k := Nat.log2 (a / b) - 23
  let w := b * 2 ^ k
  let m := a / w
  have hw : 0 < w := Nat.mul_pos hb (Nat.two_pow_pos k)
  have hm : m = a / b / 2 ^ k := (Nat.div_div_eq_div_mul a b (2 ^ k)).symm
  have hlt : a / b < 2 ^ (Nat.log2 (a / b) + 1) := Nat.lt_log2_self
  have hm1 : m < 2 ^ 24 := by
    rw [hm]
    refine (Nat.div_lt_iff_lt_mul (Nat.two_pow_pos k)).2 (Nat.lt_of_lt_of_le hlt ?_)
    rw [← Nat.pow_add]
    exact Nat.pow_le_pow_right (by decide) (by omega)
  have hm2 : k = 0 ∨ 2 ^ 23 ≤ m := by
    rcases Nat.eq_zero_or_pos k with h | h
    · exact .inl h
    · refine .inr ?_
      have hne : a / b ≠ 0 := by
        intro h0
        simp only [k, h0] at h
        exact absurd h (by decide)
      rw [hm]
      refine (Nat.le_div_iff_mul_le (Nat.two_pow_pos k)).2 ?_
      rw [← Nat.pow_add, show 23 + k = Nat.log2 (a / b) by omega]
      exact Nat.log2_self_le hne
  have s1 : scaled (k * 2 ^ 23 + m) = m * 2 ^ k := scaled_form (by omega) hm2
  have s2 : scaled (k * 2 ^ 23 + m + 1) = (m + 1) * 2 ^ k := by
    rw [Nat.add_assoc]; exact scaled_form (by omega) (by omega)
  have t1 : m * 2 ^ k * b = w * m := by simp only [w]; rw [Nat.mul_comm b, Nat.mul_assoc, Nat.mul_comm m, Nat.mul_assoc, Nat.mul_comm b m]
  have t2 : ((m + 1) * 2 ^ k - m * 2 ^ k) * b = w := by
    rw [Nat.add_mul, Nat.one_mul, Nat.add_sub_cancel_left, Nat.mul_comm]
  have t3 : (m + 1) * 2 ^ k * b = w * m + w := by rw [Nat.add_mul, Nat.one_mul, Nat.add_mul, t1]; simp only [w, Nat.mul_comm]
  have hdiv := Nat.div_add_mod a w
  have hmod := Nat.mod_lt a hw
  refine ⟨k * 2 ^ 23 + m, ?_, ?_, ?_⟩
  · rw [s1, t1]; simp only [m]; omega
  · rw [s2, t3]; simp only [m]; omega
  · rw [s1, s2, t1, t2]
    have hr : a - w * m = a % w := by simp only [m]; omega
    rw [hr]
    have hn : nearest a b = k * 2 ^ 23 + halfEven a w := rfl
    rw [hn]
    have hp : (k * 2 ^ 23 + m) % 2 = m % 2 := by omega
    rw [hp]
    unfold halfEven
    split
    · refine .inr ⟨by simp only [m]; omega, ?_⟩
      simp only [m]; omega
    · refine .inl ⟨rfl, ?_⟩
      simp only [m]; omega

theorem mul_lt {i j b : Nat} (hb : 0 < b) (h : i < j) : scaled i * b < scaled j * b := Nat.mul_lt_mul_of_pos_right (scaled_lt h) hb

theorem off_eq (j a b : Nat) : Off j a b = ((scaled j * b : Nat) - a : Int).natAbs := by unfold Off; rw [units_eq, Int.natCast_mul]

theorem nearest_is (a : Nat) {b : Nat} (hb : 0 < b) : Nearest (nearest a b) a b := by
  obtain ⟨lo, h1, h2, h3⟩ := nearest_bounds a hb
  rw [Nat.sub_mul] at h3
  unfold Nearest
  simp only [off_eq]
  have low : ∀ j, j ≤ lo → scaled j * b ≤ scaled lo * b := fun j hj => Nat.mul_le_mul_right b (scaled_le hj)
  have high : ∀ j, lo + 1 ≤ j → scaled (lo + 1) * b ≤ scaled j * b := fun j hj => Nat.mul_le_mul_right b (scaled_le hj)
  constructor
  · intro j
    rcases Nat.lt_or_ge lo j with hj | hj
    · have := high j hj
      rcases h3 with ⟨h3, h4⟩ | ⟨h3, h4⟩ <;> rw [h3] <;> omega
    · have := low j hj
      rcases h3 with ⟨h3, h4⟩ | ⟨h3, h4⟩ <;> rw [h3] <;> omega
  · intro j hne he
    rcases h3 with ⟨h3, h4⟩ | ⟨h3, h4⟩ <;> rw [h3] at hne he ⊢
    · rcases Nat.lt_trichotomy j (lo + 1) with hj | rfl | hj
      · have := mul_lt hb (show j < lo by omega); omega
      · omega
      · have := mul_lt hb hj; omega
    · rcases Nat.lt_trichotomy j lo with hj | rfl | hj
      · have := mul_lt hb hj; omega
      · omega
      · have := mul_lt hb (show lo + 1 < j by omega); omega

/-- The bits that are computed are those of the nearest number. -/
theorem nearest_iff {n a b : Nat} (hb : 0 < b) : nearest a b = n ↔ Nearest n a b := by
  refine ⟨fun h => h ▸ nearest_is a hb, fun h => ?_⟩
  have h' := nearest_is a hb
  refine Classical.byContradiction fun hne => ?_
  have e : Off n a b = Off (nearest a b) a b := Nat.le_antisymm (h.1 _) (h'.1 _)
  have e1 := h.2 _ hne e.symm
  have e2 := h'.2 _ (fun x => hne x.symm) e
  have key : ∀ {i j : Nat}, i < j → i % 2 = 0 → j % 2 = 0 → Off i a b = Off j a b → (∀ k, Off i a b ≤ Off k a b) → False := by
    intro i j hij hi hj ho hk
    have hk := hk (i + 1)
    have m1 := mul_lt hb (show i < i + 1 by omega)
    have m2 := mul_lt hb (show i + 1 < j by omega)
    simp only [off_eq] at ho hk
    omega
  rcases Nat.lt_or_gt_of_ne hne with hlt | hlt
  · exact key hlt e2 e1 e.symm h'.1
  · exact key hlt e1 e2 e h.1

/-- A number is the nearest to itself. -/
theorem nearest_self (n : Nat) {b : Nat} (hb : 0 < b) : nearest (scaled n * b) b = n := by
  rw [nearest_iff hb]
  unfold Nearest
  simp only [off_eq]
  constructor
  · intro j; omega
  · intro j hne he
    rcases Nat.lt_or_gt_of_ne hne with h | h <;> have := mul_lt hb h <;> omega

/-- Rounding depends on the quotient only. -/
theorem nearest_scale (a : Nat) {b c : Nat} (hb : 0 < b) (hc : 0 < c) : nearest (a * c) (b * c) = nearest a b := by
  rw [nearest_iff (Nat.mul_pos hb hc)]
  obtain ⟨h1, h2⟩ := nearest_is a hb
  have e : ∀ j, Off j (a * c) (b * c) = Off j a b * c := by
    intro j
    simp only [Off]
    rw [← Int.natAbs_natCast c, ← Int.natAbs_mul, Int.natAbs_natCast]
    congr 1
    simp only [Int.natCast_mul]
    rw [Int.sub_mul, Int.mul_assoc]
  unfold Nearest
  simp only [e]
  exact ⟨fun j => Nat.mul_le_mul_right c (h1 j), fun j hne he => h2 j hne (Nat.eq_of_mul_eq_mul_right hc he)⟩

/-- What is between two numbers is rounded to something between what these are rounded to. -/
theorem nearest_mono {a a' b : Nat} (hb : 0 < b) (h : a ≤ a') : nearest a b ≤ nearest a' b := by
  obtain ⟨h1, h2⟩ := nearest_is a hb
  obtain ⟨h3, h4⟩ := nearest_is a' hb
  refine Classical.byContradiction fun hlt => ?_
  have hlt : nearest a' b < nearest a b := by omega
  have m := mul_lt hb hlt
  have k1 := h1 (nearest a' b)
  have k2 := h3 (nearest a b)
  have k3 := h2 (nearest a' b) (by omega)
  have k4 := h4 (nearest a b) (by omega)
  simp only [off_eq] at k1 k2 k3 k4
  have e : a = a' := by omega
  subst e
  omega

theorem ten_pos (n : Nat) : 0 < 10 ^ n := Nat.pow_pos (by decide)

theorem nearestDecimal_iff {c n : Nat} {e : Int} : nearestDecimal c e = n ↔ RoundsTo c e n := nearest_iff (ten_pos _)

/-- A decimal number with more zeros is the same number. -/
theorem nearestDecimal_shift (c k : Nat) (e : Int) : nearestDecimal (c * 10 ^ k) e = nearestDecimal c (e + k) := by
  unfold nearestDecimal
  have key : c * 10 ^ k * 2 ^ 149 * 10 ^ e.toNat = c * 2 ^ 149 * 10 ^ (k + e.toNat) := by
    generalize 2 ^ 149 = z
    rw [Nat.pow_add, Nat.mul_assoc c, Nat.mul_comm (10 ^ k), ← Nat.mul_assoc c, Nat.mul_assoc]
  rw [key]
  rcases Int.le_total 0 e with h | h
  · rw [show (e + k).toNat = k + e.toNat by omega, show (-e).toNat = 0 by omega, show (-(e + k)).toNat = 0 by omega]
  · rw [show e.toNat = 0 by omega, Nat.add_zero]
    rcases Int.le_total 0 (e + k) with h1 | h1
    · rw [show (-(e + k)).toNat = 0 by omega]
      have : k = (e + k).toNat + (-e).toNat := by omega
      generalize (e + k).toNat = x at this
      generalize (-e).toNat = y at this
      subst this
      rw [Nat.pow_add, ← Nat.mul_assoc]
      have := nearest_scale (c * 2 ^ 149 * 10 ^ x) (b := 1) (by decide) (ten_pos y)
      rw [Nat.one_mul] at this
      rw [this, Nat.pow_zero]
    · rw [show (e + k).toNat = 0 by omega]
      have : (-e).toNat = (-(e + k)).toNat + k := by omega
      rw [this, Nat.pow_add, nearest_scale _ (ten_pos _) (ten_pos _), Nat.pow_zero, Nat.mul_one]

theorem nearestDecimal_mono {c c' : Nat} (h : c ≤ c') (e : Int) : nearestDecimal c e ≤ nearestDecimal c' e :=
  nearest_mono (ten_pos _) (Nat.mul_le_mul_right _ (Nat.mul_le_mul_right _ h))

theorem nearestDecimal_zero (e : Int) : nearestDecimal 0 e = 0 := by
  unfold nearestDecimal
  have := nearest_self 0 (ten_pos (-e).toNat)
  rw [show scaled 0 = 0 from rfl] at this
  simp only [Nat.zero_mul] at *
  exact this

/-! ## The shortest decimal number -/

theorem shortestAt_bounds (b : Nat) (e : Int) :
    let lo := scaled b * 10 ^ (-e).toNat / (2 ^ 149 * 10 ^ e.toNat)
    nearestDecimal lo e ≤ b ∧ b ≤ nearestDecimal (lo + 1) e := by
  intro lo
  have hself := nearest_self b (ten_pos (-e).toNat)
  have hden : 0 < 2 ^ 149 * 10 ^ e.toNat := Nat.mul_pos (Nat.two_pow_pos _) (ten_pos _)
  have h1 := Nat.div_mul_le_self (scaled b * 10 ^ (-e).toNat) (2 ^ 149 * 10 ^ e.toNat)
  have h2 := Nat.lt_div_mul_add (a := scaled b * 10 ^ (-e).toNat) hden
  unfold nearestDecimal
  constructor
  · refine Nat.le_trans (nearest_mono (ten_pos _) ?_) (Nat.le_of_eq hself)
    rw [Nat.mul_assoc]; exact h1
  · refine Nat.le_trans (Nat.le_of_eq hself.symm) (nearest_mono (ten_pos _) ?_)
    rw [Nat.mul_assoc, Nat.add_mul, Nat.one_mul]; exact Nat.le_of_lt h2

theorem shortestAt_rounds {b c : Nat} {e : Int} (h : shortestAt b e = some c) : nearestDecimal c e = b := by
  unfold shortestAt at h
  simp only at h
  split at h
  · rename_i h1; cases h; exact h1.1
  · split at h
    · rename_i h1; cases h; exact h1
    · cases h

theorem shortestAt_none {b : Nat} {e : Int} (h : shortestAt b e = none) (c : Nat) : nearestDecimal c e ≠ b := by
  obtain ⟨h1, h2⟩ := shortestAt_bounds b e
  unfold shortestAt at h
  simp only at h
  generalize scaled b * 10 ^ (-e).toNat / (2 ^ 149 * 10 ^ e.toNat) = lo at *
  intro hc
  split at h
  · cases h
  · split at h
    · cases h
    · rename_i h3 h4
      rcases Nat.lt_or_ge lo c with hl | hl
      · have := nearestDecimal_mono (show lo + 1 ≤ c from hl) e
        exact h3 ⟨by omega, .inl h4⟩
      · have := nearestDecimal_mono hl e
        omega

theorem shortestAt_closest {b c : Nat} {e : Int} (h : shortestAt b e = some c) {c' : Nat} (hc : nearestDecimal c' e = b) :
    Off b (c * 2 ^ 149 * 10 ^ e.toNat) (10 ^ (-e).toNat) ≤ Off b (c' * 2 ^ 149 * 10 ^ e.toNat) (10 ^ (-e).toNat) := by
  obtain ⟨h1, h2⟩ := shortestAt_bounds b e
  have hden : 0 < 2 ^ 149 * 10 ^ e.toNat := Nat.mul_pos (Nat.two_pow_pos _) (ten_pos _)
  simp only [off_eq, Nat.mul_assoc _ (2 ^ 149)]
  unfold shortestAt at h
  simp only at h
  have hdm := Nat.div_add_mod (scaled b * 10 ^ (-e).toNat) (2 ^ 149 * 10 ^ e.toNat)
  have hml := Nat.mod_lt (scaled b * 10 ^ (-e).toNat) hden
  generalize scaled b * 10 ^ (-e).toNat = num at *
  generalize 2 ^ 149 * 10 ^ e.toNat = den at *
  generalize hlo : num / den = lo at *
  rw [Nat.mul_comm] at hdm
  have hs : (lo + 1) * den = lo * den + den := by rw [Nat.add_mul, Nat.one_mul]
  have side : c' ≤ lo ∧ c' * den ≤ lo * den ∨ lo + 1 ≤ c' ∧ (lo + 1) * den ≤ c' * den := by
    rcases Nat.lt_or_ge lo c' with hl | hl
    · exact .inr ⟨hl, Nat.mul_le_mul_right _ hl⟩
    · exact .inl ⟨hl, Nat.mul_le_mul_right _ hl⟩
  split at h
  · rename_i h3
    cases h
    rcases side with ⟨hl, hm⟩ | ⟨hl, hm⟩
    · have := nearestDecimal_mono hl e
      rcases h3.2 with h4 | h4
      · omega
      · omega
    · omega
  · rename_i h3
    split at h
    · rename_i h4
      cases h
      rcases side with ⟨hl, hm⟩ | ⟨hl, hm⟩
      · omega
      · have := nearestDecimal_mono hl e
        have h5 : ¬ (den ≤ 2 * (num % den)) := fun h6 => h3 ⟨by omega, .inr h6⟩
        omega
    · cases h

/-- Every number is a multiple of 10^-149. -/
theorem nearestDecimal_exact (b : Nat) : nearestDecimal (scaled b * 5 ^ 149) (-149) = b := by
  have h := nearest_self b (ten_pos 149)
  have e : (10 : Nat) ^ 149 = 5 ^ 149 * 2 ^ 149 := by rw [← Nat.mul_pow]
  unfold nearestDecimal
  rw [show (-149 : Int).toNat = 0 from rfl, show (-(-149 : Int)).toNat = 149 from rfl, Nat.pow_zero, Nat.mul_one, Nat.mul_assoc, ← e]
  exact h

theorem findSome_first {α : Type} (f : Nat → Option α) : ∀ (n : Nat) (x : α), (List.range n).findSome? f = some x → ∃ i, i < n ∧ f i = some x ∧ ∀ j, j < i → f j = none
  | 0, x, h => by simp at h
  | n + 1, x, h => by
    rw [List.range_succ, List.findSome?_append] at h
    cases hf : (List.range n).findSome? f with
    | some y =>
      rw [hf] at h
      simp only [Option.some_or, Option.some.injEq] at h
      subst h
      obtain ⟨i, h1, h2, h3⟩ := findSome_first f n y hf
      exact ⟨i, by omega, h2, h3⟩
    | none =>
      rw [hf] at h
      simp only [Option.none_or, List.findSome?_cons, List.findSome?_nil] at h
      rw [List.findSome?_eq_none_iff] at hf
      refine ⟨n, by omega, ?_, fun j hj => hf j (List.mem_range.2 hj)⟩
      cases h2 : f n with
      | none => rw [h2] at h; simp at h
      | some y => rw [h2] at h; simpa using h

/-- The coarsest power of ten of which a multiple is rounded to the number. -/
theorem shortest_spec (b : Nat) : (∃ i : Nat, i < 188 ∧ (shortest b).2 = 38 - (i : Int)) ∧ shortestAt b (shortest b).2 = some (shortest b).1 ∧
    ∀ e, (shortest b).2 < e → e ≤ 38 → shortestAt b e = none := by
  unfold shortest
  cases h : (List.range 188).findSome? (fun (i : Nat) => (shortestAt b (38 - (i : Int))).map fun c => (c, 38 - (i : Int))) with
  | none =>
    rw [List.findSome?_eq_none_iff] at h
    have h1 := h 187 (by decide)
    simp only [Option.map_eq_none_iff] at h1
    exact absurd (nearestDecimal_exact b) (shortestAt_none h1 _)
  | some x =>
    obtain ⟨i, hi, h1, h2⟩ := findSome_first _ _ _ h
    obtain ⟨c, hc, rfl⟩ := Option.map_eq_some_iff.1 h1
    refine ⟨⟨i, hi, rfl⟩, hc, fun e he1 he2 => ?_⟩
    simp only [Option.getD_some] at he1
    have := h2 (38 - e).toNat (by omega)
    simp only [Option.map_eq_none_iff] at this
    rw [show (38 : Int) - ((38 - e).toNat : Int) = e by omega] at this
    exact this

theorem shortest_rounds (b : Nat) : nearestDecimal (shortest b).1 (shortest b).2 = b := shortestAt_rounds (shortest_spec b).2.1

theorem too_great : f32Inf ≤ nearestDecimal 1 39 := by decide +kernel

/-- No greater power of ten has such a multiple. -/
theorem shortest_coarsest {b : Nat} (hb : b < f32Inf) (h0 : b ≠ 0) {c : Nat} {e : Int} (h : nearestDecimal c e = b) : e ≤ (shortest b).2 := by
  obtain ⟨⟨i, hi, he⟩, -, h3⟩ := shortest_spec b
  refine Classical.byContradiction fun hlt => ?_
  rcases Int.lt_or_le 38 e with h1 | h1
  · rcases Nat.eq_zero_or_pos c with rfl | hc
    · rw [nearestDecimal_zero] at h; exact h0 h.symm
    · have h4 : nearestDecimal (c * 10 ^ (e - 39).toNat) 39 = b := by
        rw [nearestDecimal_shift, show (39 : Int) + ((e - 39).toNat : Int) = e by omega]; exact h
      have h5 := nearestDecimal_mono (show 1 ≤ c * 10 ^ (e - 39).toNat from Nat.mul_pos hc (ten_pos _)) 39
      have := too_great
      omega
  · exact shortestAt_none (h3 e (by omega) h1) c h

/-- No decimal number with fewer digits is rounded to the number. -/
theorem shortest_digits {b : Nat} (hb : b < f32Inf) (h0 : b ≠ 0) {c : Nat} {e : Int} (h : nearestDecimal c e = b) {n : Nat} (hn : c < 10 ^ n) : (shortest b).1 < 10 ^ n := by
  have he := shortest_coarsest hb h0 h
  have hr := shortest_rounds b
  refine Classical.byContradiction fun hlt => ?_
  generalize (shortest b).1 = d at *
  generalize hE : (shortest b).2 = E at *
  have sh : ∀ x : Nat, nearestDecimal (x * 10 ^ (E - e).toNat) e = nearestDecimal x E := by
    intro x
    rw [nearestDecimal_shift, show e + ((E - e).toNat : Int) = E by omega]
  have k1 : c ≤ 10 ^ n * 10 ^ (E - e).toNat := Nat.le_trans (Nat.le_of_lt hn) (Nat.le_mul_of_pos_right _ (ten_pos _))
  have k2 : 10 ^ n * 10 ^ (E - e).toNat ≤ d * 10 ^ (E - e).toNat := Nat.mul_le_mul_right _ (by omega)
  have m1 := nearestDecimal_mono k1 e
  have m2 := nearestDecimal_mono k2 e
  rw [sh] at m1
  rw [sh, sh] at m2
  have m3 : nearestDecimal (10 ^ n) E = b := by omega
  rcases Nat.eq_zero_or_pos n with rfl | hpos
  · have : c = 0 := by simpa using hn
    subst this
    rw [nearestDecimal_zero] at h
    exact h0 h.symm
  · have m4 := nearestDecimal_shift 1 n E
    rw [Nat.one_mul, m3] at m4
    have := shortest_coarsest hb h0 m4.symm
    omega

/-- It has no zero at its end. -/
theorem shortest_end {b : Nat} (hb : b < f32Inf) (h0 : b ≠ 0) : (shortest b).1 % 10 ≠ 0 := by
  intro h
  have hr := shortest_rounds b
  have h1 : (shortest b).1 = (shortest b).1 / 10 * 10 ^ 1 := by omega
  rw [h1, nearestDecimal_shift] at hr
  have := shortest_coarsest hb h0 hr
  omega

/-! ## Reading -/

theorem span_digits : ∀ s : Str, s = s.takeWhile Char.isDigit ++ s.dropWhile Char.isDigit ∧ OnlyDigits (s.takeWhile Char.isDigit) ∧ NoDigit (s.dropWhile Char.isDigit)
  | [] => ⟨rfl, (by intro c h; cases h), (by intro c h; cases h)⟩
  | c :: s => by
    obtain ⟨h1, h2, h3⟩ := span_digits s
    by_cases h : c.isDigit = true
    · simp only [List.takeWhile_cons, List.dropWhile_cons, h, if_true]
      refine ⟨by rw [List.cons_append, ← h1], ?_, h3⟩
      intro d hd
      rcases List.mem_cons.1 hd with rfl | hd
      · exact h
      · exact h2 d hd
    · have h : c.isDigit = false := by simpa using h
      have e1 : (c :: s).takeWhile Char.isDigit = [] := by rw [List.takeWhile_cons, h]; rfl
      have e2 : (c :: s).dropWhile Char.isDigit = c :: s := by rw [List.dropWhile_cons, h]; rfl
      rw [e1, e2]
      refine ⟨rfl, (by intro d hd; cases hd), ?_⟩
      intro d hd
      cases hd
      exact h

theorem span_of {i r : Str} (hi : OnlyDigits i) (hr : NoDigit r) : (i ++ r).takeWhile Char.isDigit = i ∧ (i ++ r).dropWhile Char.isDigit = r := by
  induction i with
  | nil =>
    cases r with
    | nil => exact ⟨rfl, rfl⟩
    | cons c r =>
      have := hr c rfl
      simp [List.takeWhile_cons, List.dropWhile_cons, this]
  | cons c i ih =>
    have hc := hi c (List.mem_cons_self ..)
    obtain ⟨h1, h2⟩ := ih (fun d hd => hi d (List.mem_cons_of_mem _ hd))
    simp [List.takeWhile_cons, List.dropWhile_cons, hc, h1, h2]

theorem sign_text {s r : Str} {neg : Bool} (h : sign s = (neg, r)) : ∃ sg, s = sg ++ r ∧ SignText sg neg := by
  unfold sign at h
  split at h
  · cases h; exact ⟨['+'], rfl, .inr (.inl ⟨rfl, rfl⟩)⟩
  · cases h; exact ⟨['-'], rfl, .inr (.inr ⟨rfl, rfl⟩)⟩
  · cases h; exact ⟨[], rfl, .inl ⟨rfl, rfl⟩⟩

theorem sign_of {sg r : Str} {neg : Bool} (h : SignText sg neg) (h1 : r.head? ≠ some '+') (h2 : r.head? ≠ some '-') : sign (sg ++ r) = (neg, r) := by
  rcases h with ⟨rfl, rfl⟩ | ⟨rfl, rfl⟩ | ⟨rfl, rfl⟩
  · unfold sign
    split
    · rename_i h; rw [List.nil_append] at h; rw [h] at h1; exact absurd rfl h1
    · rename_i h; rw [List.nil_append] at h; rw [h] at h2; exact absurd rfl h2
    · rfl
  · rfl
  · rfl

theorem digit_no_sign {c : Char} (h : c.isDigit = true) : c ≠ '+' ∧ c ≠ '-' ∧ c ≠ '.' ∧ c ≠ 'e' ∧ c ≠ 'E' := by
  refine ⟨?_, ?_, ?_, ?_, ?_⟩ <;> rintro rfl <;> exact absurd h (by decide)

theorem mantissa_iff {s i f r : Str} : mantissa s = some (i, f, r) ↔
    ∃ pt, s = i ++ (pt ++ (f ++ r)) ∧ OnlyDigits i ∧ OnlyDigits f ∧ (i ≠ [] ∨ f ≠ []) ∧ (pt = ['.'] ∨ pt = [] ∧ f = [] ∧ r.head? ≠ some '.') ∧ NoDigit r := by
  constructor
  · intro h
    obtain ⟨h1, h2, h3⟩ := span_digits s
    unfold mantissa at h
    simp only at h
    generalize s.takeWhile Char.isDigit = a at *
    generalize s.dropWhile Char.isDigit = b at *
    split at h
    · rename_i r'
      obtain ⟨h4, h5, h6⟩ := span_digits r'
      split at h
      · cases h
      · rename_i hne
        simp only [Option.some.injEq, Prod.mk.injEq] at h
        obtain ⟨rfl, rfl, rfl⟩ := h
        refine ⟨['.'], ?_, h2, h5, ?_, .inl rfl, h6⟩
        · rw [← h4]; exact h1
        · simp only [Bool.and_eq_true, List.isEmpty_iff] at hne
          by_cases ha : a = []
          · exact .inr fun hb => hne ⟨ha, hb⟩
          · exact .inl ha
    · rename_i hdot
      split at h
      · cases h
      · rename_i hne
        simp only [Option.some.injEq, Prod.mk.injEq] at h
        obtain ⟨rfl, rfl, rfl⟩ := h
        refine ⟨[], h1, h2, (by intro c hc; cases hc), .inl (by simpa using hne), .inr ⟨rfl, rfl, ?_⟩, h3⟩
        intro hd
        cases b with
        | nil => cases hd
        | cons c b => cases hd; exact hdot b rfl
  · rintro ⟨pt, rfl, h1, h2, h3, h4, h5⟩
    rcases h4 with rfl | ⟨rfl, rfl, h4⟩
    · obtain ⟨e1, e2⟩ := span_of (r := ['.'] ++ (f ++ r)) h1 (by intro c hc; cases hc; rfl)
      obtain ⟨e3, e4⟩ := span_of (r := r) h2 h5
      unfold mantissa
      simp only [e1, e2]
      show (if (i.isEmpty && ((f ++ r).takeWhile Char.isDigit).isEmpty) = true then none else some (i, (f ++ r).takeWhile Char.isDigit, (f ++ r).dropWhile Char.isDigit)) = _
      rw [e3, e4, if_neg]
      simp only [Bool.and_eq_true, List.isEmpty_iff]
      rintro ⟨rfl, rfl⟩
      simp at h3
    · obtain ⟨e1, e2⟩ := span_of h1 h5
      unfold mantissa
      simp only [List.nil_append, e1, e2]
      split
      · exact absurd rfl h4
      · rw [if_neg]
        simp only [List.isEmpty_iff]
        rintro rfl
        simp at h3

theorem exponent_iff {s r : Str} {e : Int} : exponent s = some (e, r) ↔ ∃ ex, s = ex ++ r ∧ ExponentText ex e r := by
  constructor
  · intro h
    unfold exponent at h
    split at h
    · rename_i c t
      split at h
      · rename_i hc
        cases hs : sign t with
        | mk neg t' =>
          rw [hs] at h
          simp only at h
          split at h
          · cases h
          · rename_i hne
            obtain ⟨h1, h2, h3⟩ := span_digits t'
            obtain ⟨sg, h4, h5⟩ := sign_text hs
            simp only [Option.some.injEq, Prod.mk.injEq] at h
            obtain ⟨rfl, rfl⟩ := h
            refine ⟨c :: (sg ++ t'.takeWhile Char.isDigit), ?_, .inr ⟨c, sg, _, neg, rfl, hc, h5, Digits_iff.2 ⟨by simpa using hne, h2⟩, h3, ?_⟩⟩
            · rw [List.cons_append, List.append_assoc, ← h1, ← h4]
            · rw [← digitsVal_eq_decimal]
      · rename_i hc
        cases h
        exact ⟨[], rfl, .inl ⟨rfl, rfl, by intro h; cases h; exact hc (.inl rfl), by intro h; cases h; exact hc (.inr rfl)⟩⟩
    · cases h
      exact ⟨[], rfl, .inl ⟨rfl, rfl, by simp, by simp⟩⟩
  · rintro ⟨ex, rfl, h⟩
    rcases h with ⟨rfl, rfl, h1, h2⟩ | ⟨c, sg, d, neg, rfl, hc, hs, hd, hr, rfl⟩
    · rw [List.nil_append]
      cases r with
      | nil => rfl
      | cons c r =>
        simp only [exponent]
        rw [if_neg]
        rintro (rfl | rfl)
        · exact h1 rfl
        · exact h2 rfl
    · obtain ⟨hne, hd'⟩ := Digits_iff.1 hd
      obtain ⟨e1, e2⟩ := span_of hd' hr
      have hsg : sign (sg ++ (d ++ r)) = (neg, d ++ r) := by
        cases d with
        | nil => exact absurd rfl hne
        | cons x d =>
          have := digit_no_sign (hd' x (List.mem_cons_self ..))
          exact sign_of hs (by intro h; cases h; exact this.1 rfl) (by intro h; cases h; exact this.2.1 rfl)
      unfold exponent
      simp only [List.cons_append, List.append_assoc, hsg, if_pos hc, e1, e2]
      rw [if_neg (by simpa using hne), digitsVal_eq_decimal]

theorem tagNoCase_iff {t s r : Str} : tagNoCase t s = some r ↔ BeginsWith t s r := by
  unfold BeginsWith
  induction t generalizing s with
  | nil =>
    simp only [tagNoCase, Option.some.injEq, List.map_eq_nil_iff]
    exact ⟨fun h => ⟨[], by simpa using h, rfl⟩, (by rintro ⟨w, rfl, rfl⟩; rfl)⟩
  | cons x t ih =>
    cases s with
    | nil =>
      simp only [tagNoCase]
      refine ⟨(fun h => by cases h), ?_⟩
      rintro ⟨w, h1, h2⟩
      cases w with
      | nil => simp at h2
      | cons y w => simp at h1
    | cons c s =>
      simp only [tagNoCase]
      by_cases hc : c.toLower = x
      · rw [if_pos hc, ih]
        constructor
        · rintro ⟨w, rfl, h⟩; exact ⟨c :: w, rfl, by rw [List.map_cons, hc, h]⟩
        · rintro ⟨w, h1, h2⟩
          cases w with
          | nil => simp at h2
          | cons y w =>
            simp only [List.cons_append, List.cons.injEq, List.map_cons] at h1 h2
            exact ⟨w, h1.2, h2.2⟩
      · rw [if_neg hc]
        refine ⟨(fun h => by cases h), ?_⟩
        rintro ⟨w, h1, h2⟩
        cases w with
        | nil => simp at h2
        | cons y w =>
          simp only [List.cons_append, List.cons.injEq, List.map_cons] at h1 h2
          rw [h1.1] at hc
          exact absurd h2.1 hc

theorem ofBits_iff {x : F32} {neg : Bool} {c : Nat} {e : Int} : ofBits neg (nearestDecimal c e) = x ↔ Rounded x neg c e := by
  unfold Rounded ofBits
  simp only [← nearestDecimal_iff]
  constructor
  · intro h
    refine ⟨_, rfl, ?_⟩
    split at h
    · rename_i hlt; exact .inl ⟨hlt, h.symm⟩
    · exact .inr ⟨by omega, h.symm⟩
  · rintro ⟨n, rfl, ⟨h, rfl⟩ | ⟨h, rfl⟩⟩
    · rw [dif_pos h]
    · rw [dif_neg (by omega)]

/-- A text that begins with a letter other than `e` is no number. -/
theorem mantissa_letter {s : Str} {c : Char} (h : s.head? = some c) (h1 : c.isDigit = false) (h2 : c ≠ '.') : mantissa s = none := by
  cases hm : mantissa s with
  | none => rfl
  | some x =>
    obtain ⟨i, f, r⟩ := x
    obtain ⟨pt, rfl, h3, h4, h5, h6, h7⟩ := mantissa_iff.1 hm
    cases i with
    | cons d i =>
      cases h
      rw [h3 _ (List.mem_cons_self ..)] at h1
      cases h1
    | nil =>
      rcases h6 with rfl | ⟨rfl, rfl, -⟩
      · cases h; exact absurd rfl h2
      · simp at h5

theorem begins_letter {t s r : Str} {x : Char} (h : BeginsWith (x :: t) s r) (hx : x = 'n' ∨ x = 'i') :
    (sign s = (false, s)) ∧ mantissa s = none := by
  obtain ⟨w, rfl, hw⟩ := h
  cases w with
  | nil => simp at hw
  | cons c w =>
    simp only [List.map_cons, List.cons.injEq] at hw
    have hl : c.isDigit = false ∧ c ≠ '.' ∧ c ≠ '+' ∧ c ≠ '-' := by
      refine ⟨?_, ?_, ?_, ?_⟩
      · cases hd : c.isDigit with
        | false => rfl
        | true =>
          have hnu : c.toLower = c := by
            unfold Char.toLower
            rw [dif_neg]
            simp only [Char.isDigit, Bool.and_eq_true, decide_eq_true_eq] at hd
            intro hc
            have a := hd.2
            have b := hc.1
            simp only [UInt32.le_iff_toNat_le, ge_iff_le] at a b
            have e1 : (57 : UInt32).toNat = 57 := rfl
            have e2 : 'A'.val.toNat = 65 := rfl
            have e3 : '9'.val.toNat = 57 := rfl
            omega
          rw [hnu] at hw
          rcases hx with rfl | rfl <;> rw [hw.1] at hd <;> exact absurd hd (by decide)
      all_goals
        rintro rfl
        rcases hx with rfl | rfl <;> exact absurd hw.1 (by decide)
    refine ⟨?_, mantissa_letter rfl hl.1 hl.2.1⟩
    exact sign_of (sg := []) (.inl ⟨rfl, rfl⟩) (by intro h; cases h; exact hl.2.2.1 rfl) (by intro h; cases h; exact hl.2.2.2 rfl)

/-- What is read, and what is left. -/
theorem parse_iff {s r : Str} {x : F32} : parse s = some (x, r) ↔ FloatText s x r := by
  constructor
  · intro h
    unfold parse at h
    cases hs : sign s with
    | mk neg t =>
      rw [hs] at h
      simp only at h
      cases hm : mantissa t with
      | some y =>
        obtain ⟨i, f, u⟩ := y
        rw [hm] at h
        simp only at h
        cases he : exponent u with
        | none => rw [he] at h; cases h
        | some z =>
          obtain ⟨e, v⟩ := z
          rw [he] at h
          simp only [Option.some.injEq, Prod.mk.injEq] at h
          obtain ⟨h, rfl⟩ := h
          obtain ⟨sg, rfl, h1⟩ := sign_text hs
          obtain ⟨pt, rfl, h2, h3, h4, h5, h6⟩ := mantissa_iff.1 hm
          obtain ⟨ex, rfl, h7⟩ := exponent_iff.1 he
          exact .inl ⟨sg, i, pt, f, ex, neg, e, rfl, h1, h2, h3, h4, h5, h6, h7, by rw [← digitsVal_eq_decimal]; exact ofBits_iff.1 h⟩
      | none =>
        rw [hm] at h
        simp only at h
        cases h1 : tagNoCase c!"nan" s with
        | some u =>
          rw [h1] at h
          cases h
          exact .inr (.inl ⟨rfl, tagNoCase_iff.1 h1⟩)
        | none =>
          rw [h1] at h
          simp only at h
          cases h2 : tagNoCase c!"infinity" s with
          | some u =>
            rw [h2] at h
            cases h
            exact .inr (.inr ⟨rfl, .inl (tagNoCase_iff.1 h2)⟩)
          | none =>
            rw [h2] at h
            simp only [Option.map_eq_some_iff, Prod.mk.injEq] at h
            obtain ⟨u, h3, rfl, rfl⟩ := h
            refine .inr (.inr ⟨rfl, .inr ⟨tagNoCase_iff.1 h3, fun r hr => ?_⟩⟩)
            rw [tagNoCase_iff.2 hr] at h2
            cases h2
  · rintro (h | ⟨rfl, h⟩ | ⟨rfl, h⟩)
    · obtain ⟨sg, i, pt, f, ex, neg, e, rfl, h1, h2, h3, h4, h5, h6, h7, h8⟩ := h
      have hm := mantissa_iff.2 ⟨pt, rfl, h2, h3, h4, h5, h6⟩
      have hs : sign (sg ++ (i ++ (pt ++ (f ++ (ex ++ r))))) = (neg, i ++ (pt ++ (f ++ (ex ++ r)))) := by
        have hh : ∀ c, (i ++ (pt ++ (f ++ (ex ++ r)))).head? = some c → c ≠ '+' ∧ c ≠ '-' := by
          intro c hc
          cases i with
          | cons d i =>
            cases hc
            have := digit_no_sign (h2 _ (List.mem_cons_self ..))
            exact ⟨this.1, this.2.1⟩
          | nil =>
            rcases h5 with rfl | ⟨rfl, rfl, -⟩
            · cases hc; exact ⟨by decide, by decide⟩
            · simp at h4
        exact sign_of h1 (fun h => (hh _ h).1 rfl) (fun h => (hh _ h).2 rfl)
      have he := exponent_iff.2 ⟨ex, rfl, h7⟩
      unfold parse
      simp only [hs, hm, he, digitsVal_eq_decimal, ofBits_iff.2 h8]
    · obtain ⟨h1, h2⟩ := begins_letter h (.inl rfl)
      unfold parse
      simp only [h1, h2, tagNoCase_iff.2 h]
    · have hi : ∃ t, BeginsWith ('i' :: t) s r := by
        rcases h with h | ⟨h, -⟩
        · exact ⟨_, h⟩
        · exact ⟨_, h⟩
      obtain ⟨t, hi⟩ := hi
      obtain ⟨h1, h2⟩ := begins_letter hi (.inr rfl)
      have hnan : tagNoCase c!"nan" s = none := by
        cases hn : tagNoCase c!"nan" s with
        | none => rfl
        | some u =>
          obtain ⟨w, rfl, hw⟩ := tagNoCase_iff.1 hn
          obtain ⟨w', e, hw'⟩ := hi
          cases w with
          | nil => simp at hw
          | cons c w =>
            cases w' with
            | nil => simp at hw'
            | cons c' w' =>
              simp only [List.map_cons, List.cons.injEq, List.cons_append] at hw hw' e
              rw [e.1] at hw
              rw [hw.1] at hw'
              exact absurd hw'.1 (by decide)
      unfold parse
      simp only [h1, h2, hnan]
      rcases h with h | ⟨h, hno⟩
      · rw [tagNoCase_iff.2 h]
      · have : tagNoCase c!"infinity" s = none := by
          cases hn : tagNoCase c!"infinity" s with
          | none => rfl
          | some u => exact absurd (tagNoCase_iff.1 hn) (hno u)
        rw [this, tagNoCase_iff.2 h]
        rfl

end Ikal.F32
