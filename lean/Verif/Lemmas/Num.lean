import Verif.Num
import Verif.Spec.Num
import Verif.Lemmas.Nom

/-! # Decimal numbers -/

namespace Ikal

open Spec

theorem isDigit_iff {c : Char} : c.isDigit = true ↔ '0' ≤ c ∧ c ≤ '9' := by
  simp [Char.isDigit, Char.le_def]

theorem digitChar_isDigit {d : Nat} (h : d < 10) : (digitChar d).isDigit = true := by
  match d, h with
  | 0, _ | 1, _ | 2, _ | 3, _ | 4, _ | 5, _ | 6, _ | 7, _ | 8, _ | 9, _ => decide
  | n + 10, h => omega

@[simp] theorem digitVal_digitChar {d : Nat} (h : d < 10) : digitVal (digitChar d) = d := by
  match d, h with
  | 0, _ | 1, _ | 2, _ | 3, _ | 4, _ | 5, _ | 6, _ | 7, _ | 8, _ | 9, _ => decide
  | n + 10, h => omega

theorem digitVal_lt {c : Char} (h : c.isDigit = true) : digitVal c < 10 := by
  rw [isDigit_iff] at h
  have h2 : c.toNat ≤ 57 := h.2
  unfold digitVal; omega

theorem digitsVal_go (s : Str) (v : Nat) : s.foldl (fun v c => v * 10 + digitVal c) v = v * 10 ^ s.length + digitsVal s := by
  unfold digitsVal
  induction s generalizing v with
  | nil => simp
  | cons c s ih =>
    rw [List.foldl_cons, List.foldl_cons, ih, ih (0 * 10 + digitVal c)]
    simp [Nat.pow_succ, Nat.add_mul, Nat.mul_assoc, Nat.mul_comm 10, Nat.add_assoc]

theorem digitsVal_cons (c : Char) (s : Str) : digitsVal (c :: s) = digitVal c * 10 ^ s.length + digitsVal s := by
  unfold digitsVal; rw [List.foldl_cons, digitsVal_go]; simp [digitsVal]

theorem digitsVal_append (a b : Str) : digitsVal (a ++ b) = digitsVal a * 10 ^ b.length + digitsVal b := by
  unfold digitsVal; rw [List.foldl_append, digitsVal_go]; rfl

@[simp] theorem digitsVal_nil : digitsVal [] = 0 := rfl

theorem digitsVal_concat (s : Str) (c : Char) : digitsVal (s ++ [c]) = digitsVal s * 10 + digitVal c := by
  rw [digitsVal_append, digitsVal_cons]; simp

theorem digitsVal_eq_decimal (s : Str) : digitsVal s = decimal s := by
  induction s with
  | nil => rfl
  | cons c s ih => rw [digitsVal_cons, ih]; rfl

theorem digitsVal_lt (s : Str) (h : ∀ c ∈ s, c.isDigit = true) : digitsVal s < 10 ^ s.length := by
  induction s with
  | nil => simp
  | cons c s ih =>
    rw [digitsVal_cons]
    have h1 := digitVal_lt (h c (by simp))
    have h2 := ih fun d hd => h d (by simp [hd])
    have : digitVal c * 10 ^ s.length ≤ 9 * 10 ^ s.length := Nat.mul_le_mul_right _ (by omega)
    simp only [List.length_cons, Nat.pow_succ]; omega

theorem natStrGo_spec (f n : Nat) (h : n < f) :
    (∀ c ∈ natStrGo f n, c.isDigit = true) ∧ natStrGo f n ≠ [] ∧ digitsVal (natStrGo f n) = n := by
  induction f generalizing n with
  | zero => omega
  | succ f ih =>
    unfold natStrGo
    split
    · next h1 =>
      refine ⟨by simp [digitChar_isDigit h1], by simp, ?_⟩
      rw [digitsVal_cons]; simp [h1]
    · next h1 =>
      obtain ⟨i1, i2, i3⟩ := ih (n / 10) (by omega)
      have hd : n % 10 < 10 := by omega
      refine ⟨?_, by simp, ?_⟩
      · intro c hc
        rcases List.mem_append.1 hc with hc | hc
        · exact i1 c hc
        · simp at hc; rw [hc]; exact digitChar_isDigit hd
      · rw [digitsVal_concat, i3, digitVal_digitChar hd]; omega

theorem natStr_digits (n : Nat) : ∀ c ∈ natStr n, c.isDigit = true := (natStrGo_spec _ n (by omega)).1
theorem natStr_ne (n : Nat) : natStr n ≠ [] := (natStrGo_spec _ n (by omega)).2.1
@[simp] theorem digitsVal_natStr (n : Nat) : digitsVal (natStr n) = n := (natStrGo_spec _ n (by omega)).2.2

theorem Digits_iff {s : Str} : Digits s ↔ s ≠ [] ∧ ∀ c ∈ s, c.isDigit = true := by
  simp [Digits, isDigit_iff]

theorem parseDigits_some {s : Str} {n : Nat} : parseDigits s = some n ↔ Digits s ∧ decimal s = n := by
  unfold parseDigits
  rw [Digits_iff, ← digitsVal_eq_decimal]
  by_cases h1 : s = []
  · simp [h1]
  · by_cases h2 : s.all Char.isDigit = true
    · simp only [List.isEmpty_iff, h1, h2, if_false, if_true, Option.some.injEq]
      simp at h2
      exact ⟨fun h => ⟨⟨h1, h2⟩, h⟩, fun h => h.2⟩
    · simp [h1, h2]; simp at h2
      obtain ⟨c, hc, hd⟩ := h2
      intro h; simp [h c hc] at hd

theorem Digits_head {s : Str} (h : Digits s) : ∃ c r, s = c :: r ∧ '0' ≤ c ∧ c ≤ '9' := by
  cases s with
  | nil => exact absurd rfl h.1
  | cons c r => exact ⟨c, r, rfl, h.2 c (by simp)⟩

theorem not_digits_plus {r : Str} : ¬ Digits ('+' :: r) := fun h => by
  have := h.2 '+' (by simp); revert this; decide

theorem not_digits_minus {r : Str} : ¬ Digits ('-' :: r) := fun h => by
  have := h.2 '-' (by simp); revert this; decide

theorem parseUnsigned_some {hi : Nat} {s : Str} {n : Nat} : parseUnsigned hi s = some n ↔ IsUnsigned s n ∧ n ≤ hi := by
  have key : ∀ ds, (match parseDigits ds with | some n => if n ≤ hi then some n else none | none => none) = some n ↔
      (Digits ds ∧ decimal ds = n) ∧ n ≤ hi := by
    intro ds
    cases h : parseDigits ds with
    | none =>
      simp only [false_iff, reduceCtorEq]
      rintro ⟨h1, _⟩
      rw [parseDigits_some.2 h1] at h; cases h
    | some m =>
      rw [parseDigits_some] at h
      obtain ⟨h1, rfl⟩ := h
      simp only [h1, true_and]
      split <;> simp <;> omega
  unfold parseUnsigned IsUnsigned
  split
  · next r =>
    refine Iff.trans (key _) ?_
    constructor
    · rintro ⟨⟨h1, h2⟩, h3⟩; exact ⟨⟨r, h1, h2, .inr rfl⟩, h3⟩
    · rintro ⟨⟨ds, h1, h2, h4⟩, h3⟩
      rcases h4 with h4 | h4
      · rw [← h4] at h1; exact absurd h1 not_digits_plus
      · cases h4; exact ⟨⟨h1, h2⟩, h3⟩
  · next hs =>
    refine Iff.trans (key _) ?_
    constructor
    · rintro ⟨⟨h1, h2⟩, h3⟩; exact ⟨⟨s, h1, h2, .inl rfl⟩, h3⟩
    · rintro ⟨⟨ds, h1, h2, h4⟩, h3⟩
      rcases h4 with h4 | h4
      · subst h4; exact ⟨⟨h1, h2⟩, h3⟩
      · exact absurd h4 (hs ds)

theorem parseSigned_some {lo hi : Int} {s : Str} {n : Int} : parseSigned lo hi s = some n ↔ IsSigned s n ∧ lo ≤ n ∧ n ≤ hi := by
  have key : ∀ (ds : Str) (f : Nat → Int), (match parseDigits ds with
      | some m => if lo ≤ f m ∧ f m ≤ hi then some (f m) else none | none => none) = some n ↔
      (Digits ds ∧ n = f (decimal ds)) ∧ lo ≤ n ∧ n ≤ hi := by
    intro ds f
    cases h : parseDigits ds with
    | none =>
      simp only [false_iff, reduceCtorEq]
      rintro ⟨⟨h1, _⟩, _⟩
      rw [parseDigits_some.2 ⟨h1, rfl⟩] at h; cases h
    | some m =>
      rw [parseDigits_some] at h
      obtain ⟨h1, rfl⟩ := h
      simp only [h1, true_and]
      constructor
      · intro h
        by_cases h' : lo ≤ f (decimal ds) ∧ f (decimal ds) ≤ hi
        · rw [if_pos h'] at h; simp at h; rw [← h]; exact ⟨rfl, h'⟩
        · rw [if_neg h'] at h; simp at h
      · rintro ⟨rfl, h⟩; rw [if_pos h]
  have e : parseSigned lo hi s = (match s with
      | '+' :: r => (match parseDigits r with | some m => if lo ≤ (m : Int) ∧ (m : Int) ≤ hi then some (m : Int) else none | none => none)
      | '-' :: r => (match parseDigits r with | some m => if lo ≤ -(m : Int) ∧ -(m : Int) ≤ hi then some (-(m : Int)) else none | none => none)
      | _ => (match parseDigits s with | some m => if lo ≤ (m : Int) ∧ (m : Int) ≤ hi then some (m : Int) else none | none => none)) := by
    unfold parseSigned
    split
    next heq =>
      split at heq <;> cases heq <;> first | rfl | (simp; rfl) | simp
  rw [e]; unfold IsSigned
  split
  · next r =>
    refine Iff.trans (key r (fun m => (m : Int))) ?_
    refine and_congr_left fun _ => ?_
    constructor
    · rintro ⟨h1, h2⟩; exact ⟨r, h1, .inl ⟨.inr rfl, by simpa using h2⟩⟩
    · rintro ⟨d, h1, ⟨h2 | h2, h3⟩ | ⟨h2, h3⟩⟩
      · subst h2; exact absurd h1 not_digits_plus
      · cases h2; exact ⟨h1, by simpa using h3⟩
      · cases h2
  · next r =>
    refine Iff.trans (key r (fun m => -(m : Int))) ?_
    refine and_congr_left fun _ => ?_
    constructor
    · rintro ⟨h1, h2⟩; exact ⟨r, h1, .inr ⟨rfl, by simpa using h2⟩⟩
    · rintro ⟨d, h1, ⟨h2 | h2, h3⟩ | ⟨h2, h3⟩⟩
      · subst h2; exact absurd h1 not_digits_minus
      · cases h2
      · cases h2; exact ⟨h1, by simpa using h3⟩
  · next hp hm =>
    refine Iff.trans (key s (fun m => (m : Int))) ?_
    refine and_congr_left fun _ => ?_
    constructor
    · rintro ⟨h1, h2⟩; exact ⟨s, h1, .inl ⟨.inl rfl, by simpa using h2⟩⟩
    · rintro ⟨d, h1, ⟨h2 | h2, h3⟩ | ⟨h2, h3⟩⟩
      · subst h2; exact ⟨h1, by simpa using h3⟩
      · exact absurd h2 (hp d)
      · exact absurd h2 (hm d)

theorem natStr_isDigits (n : Nat) : Digits (natStr n) := Digits_iff.2 ⟨natStr_ne n, natStr_digits n⟩

theorem decimal_natStr (n : Nat) : decimal (natStr n) = n := by rw [← digitsVal_eq_decimal]; simp

theorem isUnsigned_natStr (n : Nat) : IsUnsigned (natStr n) n := ⟨_, natStr_isDigits n, decimal_natStr n, .inl rfl⟩

theorem isSigned_intStr (n : Int) : IsSigned (intStr n) n := by
  unfold intStr
  split
  · exact ⟨_, natStr_isDigits _, .inr ⟨rfl, by rw [decimal_natStr]; omega⟩⟩
  · exact ⟨_, natStr_isDigits _, .inl ⟨.inl rfl, by rw [decimal_natStr]; omega⟩⟩

theorem parseUnsigned_natStr {hi n : Nat} (h : n ≤ hi) : parseUnsigned hi (natStr n) = some n :=
  parseUnsigned_some.2 ⟨isUnsigned_natStr n, h⟩

theorem parseSigned_intStr {lo hi n : Int} (h1 : lo ≤ n) (h2 : n ≤ hi) : parseSigned lo hi (intStr n) = some n :=
  parseSigned_some.2 ⟨isSigned_intStr n, h1, h2⟩

/-! ## nom's signed integers -/

theorem nomIntLoop_pos {lo hi : Int} (hlo : lo ≤ 0) {r : Str} (hr : ∀ c, r.head? = some c → c.isDigit = false) (ds : Str)
    (hd : ∀ c ∈ ds, c.isDigit = true) (v : Nat) (hv : ((v * 10 ^ ds.length + digitsVal ds : Nat) : Int) ≤ hi) :
    nomIntLoop lo hi false v (ds ++ r) = some (((v * 10 ^ ds.length + digitsVal ds : Nat) : Int), r) := by
  induction ds generalizing v with
  | nil =>
    cases r with
    | nil => simp [nomIntLoop]
    | cons c r => simp [nomIntLoop, hr c rfl]
  | cons c ds ih =>
    have hc := hd c (by simp)
    have e : v * 10 ^ (c :: ds).length + digitsVal (c :: ds) = (v * 10 + digitVal c) * 10 ^ ds.length + digitsVal ds := by
      rw [digitsVal_cons, List.length_cons, Nat.pow_succ, Nat.add_mul, Nat.mul_comm (10 ^ ds.length) 10, ← Nat.mul_assoc]; omega
    rw [e] at hv ⊢
    have hle : (v * 10 + digitVal c) ≤ (v * 10 + digitVal c) * 10 ^ ds.length + digitsVal ds := by
      have := Nat.le_mul_of_pos_right (v * 10 + digitVal c) (Nat.pow_pos (n := ds.length) (show 0 < 10 by omega))
      omega
    rw [List.cons_append, nomIntLoop, if_pos hc]
    simp only [Bool.false_eq_true, if_false]
    rw [if_pos (by omega)]
    have := ih (fun d h => hd d (by simp [h])) (v * 10 + digitVal c) hv
    simpa using this

theorem nomIntLoop_neg {lo hi : Int} (hhi : 0 ≤ hi) {r : Str} (hr : ∀ c, r.head? = some c → c.isDigit = false) (ds : Str)
    (hd : ∀ c ∈ ds, c.isDigit = true) (v : Nat) (hv : lo ≤ -((v * 10 ^ ds.length + digitsVal ds : Nat) : Int)) :
    nomIntLoop lo hi true (-(v : Int)) (ds ++ r) = some (-((v * 10 ^ ds.length + digitsVal ds : Nat) : Int), r) := by
  induction ds generalizing v with
  | nil =>
    cases r with
    | nil => simp [nomIntLoop]
    | cons c r => simp [nomIntLoop, hr c rfl]
  | cons c ds ih =>
    have hc := hd c (by simp)
    have e : v * 10 ^ (c :: ds).length + digitsVal (c :: ds) = (v * 10 + digitVal c) * 10 ^ ds.length + digitsVal ds := by
      rw [digitsVal_cons, List.length_cons, Nat.pow_succ, Nat.add_mul, Nat.mul_comm (10 ^ ds.length) 10, ← Nat.mul_assoc]; omega
    rw [e] at hv ⊢
    have hle : (v * 10 + digitVal c) ≤ (v * 10 + digitVal c) * 10 ^ ds.length + digitsVal ds := by
      have := Nat.le_mul_of_pos_right (v * 10 + digitVal c) (Nat.pow_pos (n := ds.length) (show 0 < 10 by omega))
      omega
    rw [List.cons_append, nomIntLoop, if_pos hc]
    simp only [if_true]
    rw [if_pos (by omega)]
    have := ih (fun d h => hd d (by simp [h])) (v * 10 + digitVal c) hv
    rw [← this]; congr 1; omega

/-- A printed `i8` is read back by nom, whatever follows it but a digit. -/
theorem nomI8_intStr {n : Int} (h1 : -128 ≤ n) (h2 : n ≤ 127) {r : Str} (hr : ∀ c, r.head? = some c → c.isDigit = false) :
    nomI8 (intStr n ++ r) = .ok r n := by
  obtain ⟨c, t, hc, hd⟩ := Digits_head (natStr_isDigits n.natAbs)
  have hdig : c.isDigit = true := natStr_digits n.natAbs c (by rw [hc]; simp)
  unfold intStr
  split
  · next hn =>
    have := nomIntLoop_neg (lo := -128) (hi := 127) (by omega) hr (natStr n.natAbs) (natStr_digits _) 0 (by simp; omega)
    simp at this
    rw [hc] at this ⊢
    simp only [nomI8, List.cons_append, hdig, if_true]
    rw [List.cons_append] at this
    rw [this]; simp; omega
  · next hn =>
    have := nomIntLoop_pos (lo := -128) (hi := 127) (by omega) hr (natStr n.natAbs) (natStr_digits _) 0 (by simp; omega)
    simp at this
    rw [hc] at this ⊢
    have hm : c ≠ '-' := by rintro rfl; revert hdig; decide
    have hp : c ≠ '+' := by rintro rfl; revert hdig; decide
    have e : nomI8 (c :: t ++ r) = match nomIntLoop (-128) 127 false 0 (c :: t ++ r) with
        | some (v, r') => .ok r' v
        | none => .err := by
      unfold nomI8
      split
      · next heq =>
        split at heq
        · next h => simp at h; exact absurd h.1 hm
        · next h => simp at h; exact absurd h.1 hp
        · cases heq; simp [hdig]; rfl
    rw [e, this]; simp; omega

theorem nomIntLoop_some {lo hi : Int} {neg : Bool} (s : Str) (v n : Int) (r : Str) (h : nomIntLoop lo hi neg v s = some (n, r)) :
    ∃ ds, s = ds ++ r ∧ (∀ c ∈ ds, c.isDigit = true) ∧ (∀ c, r.head? = some c → c.isDigit = false) ∧
      (n = if neg then v * 10 ^ ds.length - digitsVal ds else v * 10 ^ ds.length + digitsVal ds) ∧ (ds ≠ [] → lo ≤ n ∧ n ≤ hi) := by
  induction s generalizing v with
  | nil => simp only [nomIntLoop, Option.some.injEq, Prod.mk.injEq] at h; obtain ⟨rfl, rfl⟩ := h; exact ⟨[], by simp⟩
  | cons c s ih =>
    unfold nomIntLoop at h
    split at h
    · next hc =>
      have e10 : ∀ ds : Str, (10 : Int) ^ (c :: ds).length = 10 * 10 ^ ds.length := fun ds => by
        rw [List.length_cons, Int.pow_succ, Int.mul_comm]
      cases neg
      · simp only [Bool.false_eq_true, if_false] at h
        by_cases hb : lo ≤ v * 10 ∧ v * 10 ≤ hi ∧ lo ≤ v * 10 + digitVal c ∧ v * 10 + digitVal c ≤ hi
        · rw [if_pos hb] at h
          obtain ⟨ds, h1, h2, h3, h4, h5⟩ := ih _ h
          refine ⟨c :: ds, by rw [h1]; rfl, by simpa [hc] using h2, h3, ?_, fun _ => ?_⟩
          · simp only [Bool.false_eq_true, if_false] at h4 ⊢
            rw [h4, digitsVal_cons, e10, Int.add_mul, Int.mul_assoc]; push_cast; omega
          · by_cases hd : ds = []
            · subst hd; simp at h4; omega
            · exact h5 hd
        · rw [if_neg hb] at h; cases h
      · simp only [if_true] at h
        by_cases hb : lo ≤ v * 10 ∧ v * 10 ≤ hi ∧ lo ≤ v * 10 - digitVal c ∧ v * 10 - digitVal c ≤ hi
        · rw [if_pos hb] at h
          obtain ⟨ds, h1, h2, h3, h4, h5⟩ := ih _ h
          refine ⟨c :: ds, by rw [h1]; rfl, by simpa [hc] using h2, h3, ?_, fun _ => ?_⟩
          · simp only [if_true] at h4 ⊢
            rw [h4, digitsVal_cons, e10, Int.sub_mul, Int.mul_assoc]; push_cast; omega
          · by_cases hd : ds = []
            · subst hd; simp at h4; omega
            · exact h5 hd
        · rw [if_neg hb] at h; cases h
    · next hc =>
      simp only [Option.some.injEq, Prod.mk.injEq] at h
      obtain ⟨rfl, rfl⟩ := h
      exact ⟨[], rfl, by simp, fun d hd => by simp at hd; subst hd; simpa using hc, by simp, by simp⟩

/-- What nom reads as an `i8`. -/
theorem nomI8_ok {i r : Str} {n : Int} : nomI8 i = .ok r n ↔
    ∃ t, IsSigned t n ∧ -128 ≤ n ∧ n ≤ 127 ∧ i = t ++ r ∧ ∀ c, r.head? = some c → c.isDigit = false := by
  have key : ∀ (neg : Bool) (q : Str), ((match q with
      | [] => NRes.err
      | c :: _ =>
        if c.isDigit then
          match nomIntLoop (-128) 127 neg 0 q with
          | some (v, r') => .ok r' v
          | none => .err
        else .err) = .ok r n ↔ ∃ ds, Digits ds ∧ (n = if neg then -(decimal ds : Int) else decimal ds) ∧ -128 ≤ n ∧ n ≤ 127 ∧ q = ds ++ r ∧
          ∀ c, r.head? = some c → c.isDigit = false) := by
    intro neg q
    constructor
    · intro h
      split at h
      · cases h
      · next c q' =>
        split at h
        · next hc =>
          split at h
          · next v r' e =>
            cases h
            obtain ⟨ds, h1, h2, h3, h4, h5⟩ := nomIntLoop_some _ _ _ _ e
            have hne : ds ≠ [] := by
              rintro rfl
              simp only [List.nil_append] at h1
              have := h3 c (by rw [← h1]; rfl)
              rw [this] at hc; cases hc
            refine ⟨ds, Digits_iff.2 ⟨hne, h2⟩, ?_, (h5 hne).1, (h5 hne).2, h1, h3⟩
            rw [h4, ← digitsVal_eq_decimal]; cases neg <;> simp
          · cases h
        · cases h
    · rintro ⟨ds, h1, h2, h3, h4, rfl, h6⟩
      obtain ⟨c, t, hc, hd⟩ := Digits_head h1
      have hdig : c.isDigit = true := (Digits_iff.1 h1).2 c (by rw [hc]; simp)
      have hl : nomIntLoop (-128) 127 neg 0 (ds ++ r) = some (n, r) := by
        cases neg
        · simp only [Bool.false_eq_true, if_false] at h2
          have := nomIntLoop_pos (lo := -128) (hi := 127) (by omega) h6 ds (Digits_iff.1 h1).2 0 (by rw [digitsVal_eq_decimal]; simp; omega)
          rw [digitsVal_eq_decimal] at this
          simpa [← h2] using this
        · simp only [if_true] at h2
          have := nomIntLoop_neg (lo := -128) (hi := 127) (by omega) h6 ds (Digits_iff.1 h1).2 0 (by rw [digitsVal_eq_decimal]; simp; omega)
          rw [digitsVal_eq_decimal] at this
          simpa [← h2] using this
      rw [hc] at hl ⊢
      simp only [List.cons_append] at hl ⊢
      rw [if_pos hdig, hl]
  have hdig : ∀ {ds : Str} {r : Str} {c : Char}, Digits ds → c.isDigit = false → ∀ q, ds ++ r ≠ c :: q := by
    intro ds r c hds hc q e
    obtain ⟨d, t, rfl, h⟩ := Digits_head hds
    simp at e
    have := (Digits_iff.1 hds).2 d (by simp)
    rw [e.1, hc] at this; cases this
  unfold nomI8 IsSigned
  match i with
  | [] =>
    simp only []
    constructor
    · intro h; cases h
    · rintro ⟨t, ⟨ds, h1, (⟨rfl | rfl, h2⟩ | ⟨rfl, h2⟩)⟩, h3, h4, h5, h6⟩
      · simp at h5; exact absurd h5.1 h1.1
      · simp at h5
      · simp at h5
  | c :: q =>
    by_cases hm : c = '-'
    · subst hm
      refine (key true q).trans ?_
      constructor
      · rintro ⟨ds, h1, h2, h3, h4, rfl, h6⟩
        exact ⟨'-' :: ds, ⟨ds, h1, .inr ⟨rfl, by simpa using h2⟩⟩, h3, h4, rfl, h6⟩
      · rintro ⟨t, ⟨ds, h1, (⟨rfl | rfl, h2⟩ | ⟨rfl, h2⟩)⟩, h3, h4, h5, h6⟩
        · exact absurd h5.symm (hdig h1 (by decide) _)
        · simp at h5
        · simp at h5; exact ⟨ds, h1, by simpa using h2, h3, h4, h5, h6⟩
    · by_cases hp : c = '+'
      · subst hp
        refine (key false q).trans ?_
        constructor
        · rintro ⟨ds, h1, h2, h3, h4, rfl, h6⟩
          exact ⟨'+' :: ds, ⟨ds, h1, .inl ⟨.inr rfl, by simpa using h2⟩⟩, h3, h4, rfl, h6⟩
        · rintro ⟨t, ⟨ds, h1, (⟨rfl | rfl, h2⟩ | ⟨rfl, h2⟩)⟩, h3, h4, h5, h6⟩
          · exact absurd h5.symm (hdig h1 (by decide) _)
          · simp at h5; exact ⟨ds, h1, by simpa using h2, h3, h4, h5, h6⟩
          · simp at h5
      · refine Iff.trans ?_ ((key false (c :: q)).trans ?_)
        · split
          next heq =>
            split at heq
            · next h => simp at h; exact absurd h.1 hm
            · next h => simp at h; exact absurd h.1 hp
            · cases heq; exact Iff.rfl
        constructor
        · rintro ⟨ds, h1, h2, h3, h4, h5, h6⟩
          exact ⟨ds, ⟨ds, h1, .inl ⟨.inl rfl, by simpa using h2⟩⟩, h3, h4, h5, h6⟩
        · rintro ⟨t, ⟨ds, h1, (⟨rfl | rfl, h2⟩ | ⟨rfl, h2⟩)⟩, h3, h4, h5, h6⟩
          · exact ⟨_, h1, by simpa using h2, h3, h4, h5, h6⟩
          · simp at h5; exact absurd h5.1 hp
          · simp at h5; exact absurd h5.1 hm

theorem nomI8_alpha {c : Char} (h1 : c ≠ '-') (h2 : c ≠ '+') (h3 : c.isDigit = false) (r : Str) : nomI8 (c :: r) = .err := by
  unfold nomI8
  split
  next heq =>
    split at heq
    · next h => simp at h; exact absurd h.1 h1
    · next h => simp at h; exact absurd h.1 h2
    · cases heq; simp [h3]

theorem mapM'_all2 {α β : Type} {f : α → Res β} {xs : List α} {ys : List β} :
    Res.mapM' f xs = .ok ys ↔ All2 (fun x y => f x = .ok y) xs ys := by
  induction xs generalizing ys with
  | nil => simp [Res.mapM']; exact ⟨fun h => h ▸ .nil, fun h => by cases h; rfl⟩
  | cons x xs ih =>
    unfold Res.mapM'
    constructor
    · intro h
      cases hx : f x with
      | ok m =>
        cases hr : Res.mapM' f xs with
        | ok ms => rw [hx, hr] at h; simp at h; subst h; exact .cons hx (ih.1 hr)
        | err e => rw [hx, hr] at h; simp at h
        | panic => rw [hx, hr] at h; simp at h
      | err e => rw [hx] at h; simp at h
      | panic => rw [hx] at h; simp at h
    · intro h
      cases h with
      | cons h1 h2 => rw [h1, ih.2 h2]

theorem All2.imp {α β : Type} {R S : α → β → Prop} (h : ∀ a b, R a b → S a b) {as : List α} {bs : List β} (hr : All2 R as bs) :
    All2 S as bs := by
  induction hr with
  | nil => exact .nil
  | cons h1 _ ih => exact .cons (h _ _ h1) ih

/-! ## Lists -/

theorem splitOn_none {sep : Char} {s : Str} (h : sep ∉ s) : splitOn sep s = [s] := by
  induction s with
  | nil => rfl
  | cons c s ih =>
    simp at h
    rw [splitOn, if_neg (fun e => h.1 e.symm), ih h.2]

theorem splitOn_append {sep : Char} {a : Str} (h : sep ∉ a) (b : Str) : splitOn sep (a ++ sep :: b) = a :: splitOn sep b := by
  induction a with
  | nil => simp [splitOn]
  | cons c a ih =>
    simp at h
    rw [List.cons_append, splitOn, if_neg (fun e => h.1 e.symm), ih h.2]

theorem pieces_splitOn (s : Str) : CommaPieces s (splitOn ',' s) := by
  induction s with
  | nil => exact .last (by simp)
  | cons c s ih =>
    by_cases hc : c = ','
    · subst hc
      rw [splitOn, if_pos rfl]
      exact .more (s := []) (by simp) ih
    · rw [splitOn, if_neg hc]
      generalize splitOn ',' s = ps at ih ⊢
      cases ih with
      | last h => exact .last (by simp [h, Ne.symm hc])
      | more h h' => exact .more (s := c :: _) (by simp [h, Ne.symm hc]) h'

theorem pieces_iff {s : Str} {ps : List Str} : CommaPieces s ps ↔ ps = splitOn ',' s := by
  constructor
  · intro h
    induction h with
    | last h => rw [splitOn_none h]
    | more h _ ih => rw [splitOn_append h, ih]
  · rintro rfl; exact pieces_splitOn s

theorem listOf_iff {α : Type} {R : Str → α → Prop} {s : Str} {l : List α} : ListOf R s l ↔ All2 R (splitOn ',' s) l := by
  unfold ListOf
  simp only [pieces_iff, exists_eq_left]

/-! ## Fixed width -/

theorem pad2_digits (n : Nat) : ∀ c ∈ pad2 n, c.isDigit = true := by
  intro c hc; simp [pad2] at hc
  rcases hc with rfl | rfl <;> exact digitChar_isDigit (by omega)

theorem pad4_digits (n : Nat) : ∀ c ∈ pad4 n, c.isDigit = true := by
  intro c hc; simp [pad4] at hc
  rcases hc with rfl | rfl | rfl | rfl <;> exact digitChar_isDigit (by omega)

theorem digitsVal_pad2 {n : Nat} (h : n < 100) : digitsVal (pad2 n) = n := by
  simp [pad2, digitsVal_cons, digitVal_digitChar (show n / 10 % 10 < 10 by omega), digitVal_digitChar (show n % 10 < 10 by omega)]
  omega

theorem digitsVal_pad4 {n : Nat} (h : n < 10000) : digitsVal (pad4 n) = n := by
  simp [pad4, digitsVal_cons, digitVal_digitChar (show n / 10 % 10 < 10 by omega), digitVal_digitChar (show n % 10 < 10 by omega),
    digitVal_digitChar (show n / 100 % 10 < 10 by omega), digitVal_digitChar (show n / 1000 % 10 < 10 by omega)]
  omega

end Ikal
