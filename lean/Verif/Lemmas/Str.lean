import Verif.Line

/-! # Lemmas on strings -/

namespace Ikal

@[simp] theorem byteLen_nil : byteLen [] = 0 := rfl
@[simp] theorem byteLen_cons (c : Char) (s : Str) : byteLen (c :: s) = c.utf8Size + byteLen s := by
  simp [byteLen]
@[simp] theorem byteLen_append (s t : Str) : byteLen (s ++ t) = byteLen s + byteLen t := by
  simp [byteLen]

theorem byteLen_pos {s : Str} (h : s ≠ []) : 0 < byteLen s := by
  cases s with
  | nil => contradiction
  | cons c s => simp; have := c.utf8Size_pos; omega

theorem byteLen_eq_zero {s : Str} : byteLen s = 0 ↔ s = [] := by
  constructor
  · intro h
    cases s with
    | nil => rfl
    | cons c s => have := byteLen_pos (s := c :: s) (by simp); omega
  · rintro rfl; rfl

theorem utf8Size_ascii {c : Char} (h : c.toNat < 128) : c.utf8Size = 1 := by
  have : c.val ≤ 0x7F := by
    rw [UInt32.le_iff_toNat_le]; change c.toNat ≤ _; simp; omega
  simp [Char.utf8Size, this]

theorem splitAtBytes_some {n : Nat} {s a b : Str} :
    splitAtBytes n s = some (a, b) ↔ s = a ++ b ∧ byteLen a = n := by
  induction s generalizing n a b with
  | nil =>
    simp only [splitAtBytes]
    split
    · simp; rintro rfl rfl; simp_all
    · simp; rintro rfl rfl h; simp at h; omega
  | cons c cs ih =>
    simp only [splitAtBytes]
    split
    · rename_i hn
      subst hn
      simp; constructor
      · rintro ⟨rfl, rfl⟩; simp
      · rintro ⟨h1, h2⟩
        have := byteLen_eq_zero.1 h2
        subst this
        simpa using h1
    · split
      · simp only [Option.map_eq_some_iff, Prod.exists, Prod.mk.injEq]
        constructor
        · rintro ⟨a', b', h, rfl, rfl⟩
          obtain ⟨rfl, h⟩ := ih.1 h
          simp; omega
        · rintro ⟨h1, h2⟩
          cases a with
          | nil => simp at h2; omega
          | cons c' a' =>
            simp at h1 h2
            obtain ⟨rfl, rfl⟩ := h1
            exact ⟨a', b, ih.2 ⟨rfl, by omega⟩, rfl, rfl⟩
      · simp
        intro h1 h2
        cases a with
        | nil => simp at h2; omega
        | cons c' a' => simp at h1 h2; obtain ⟨rfl, rfl⟩ := h1; omega

theorem splitAtBytes_none {n : Nat} {s : Str} :
    splitAtBytes n s = none ↔ ¬ ∃ a, a <+: s ∧ byteLen a = n := by
  constructor
  · intro h ⟨a, ⟨b, hb⟩, ha⟩
    have := splitAtBytes_some.2 ⟨hb.symm, ha⟩
    simp [h] at this
  · intro h
    match hs : splitAtBytes n s with
    | none => rfl
    | some (a, b) =>
      have := splitAtBytes_some.1 hs
      exact absurd ⟨a, ⟨b, this.1.symm⟩, this.2⟩ h

/-! ## join -/

@[simp] theorem join_nil (sep : Str) : join sep [] = [] := rfl
@[simp] theorem join_single (sep s : Str) : join sep [s] = s := rfl
@[simp] theorem join_cons_cons (sep s t : Str) (r : List Str) :
    join sep (s :: t :: r) = s ++ sep ++ join sep (t :: r) := rfl

theorem join_cons (sep s : Str) (r : List Str) (h : r ≠ []) :
    join sep (s :: r) = s ++ sep ++ join sep r := by
  cases r with
  | nil => contradiction
  | cons t r => rfl

/-! ## Unfolding -/

theorem unfold_cons_ne (c : Char) (r : Str) (h : c ≠ '\r') : unfold (c :: r) = c :: unfold r := by
  rw [unfold]
  intro r' hc
  exact absurd hc h

@[simp] theorem unfold_nil : unfold [] = [] := by simp [unfold]

theorem unfold_crlfsp (r : Str) : unfold ('\r' :: '\n' :: ' ' :: r) = unfold r := by
  rw [unfold]

theorem unfold_cr_ne (r : Str) (h : ¬ ∃ t, r = '\n' :: ' ' :: t) :
    unfold ('\r' :: r) = '\r' :: unfold r := by
  rw [unfold]
  intro r' _ hr
  exact h ⟨r', hr⟩

/-- `CR LF SPACE`. -/
abbrev crlfsp : Str := c!"\r\n "

theorem unfold_eq_self {s : Str} (h : ¬ crlfsp <:+: s) : unfold s = s := by
  induction s with
  | nil => simp
  | cons c s ih =>
    have hs : ¬ crlfsp <:+: s := fun ⟨a, b, e⟩ => h ⟨c :: a, b, by simp [← e]⟩
    by_cases hc : c = '\r'
    · subst hc
      rw [unfold_cr_ne, ih hs]
      rintro ⟨t, rfl⟩
      exact h ⟨[], t, rfl⟩
    · rw [unfold_cons_ne _ _ hc, ih hs]

/-- An inserted fold in front of which there is no fold is removed, wherever it is. -/
theorem unfold_fold {a b : Str} (h : ¬ crlfsp <:+: a) :
    unfold (a ++ (crlfsp ++ b)) = a ++ unfold b := by
  induction a with
  | nil => exact unfold_crlfsp b
  | cons c a ih =>
    have ha : ¬ crlfsp <:+: a := fun ⟨x, y, e⟩ => h ⟨c :: x, y, by simp [← e]⟩
    by_cases hc : c = '\r'
    · subst hc
      rw [List.cons_append, unfold_cr_ne, ih ha]; rfl
      rintro ⟨t, ht⟩
      match a, ht with
      | [], ht => simp at ht
      | [x], ht => simp at ht
      | x :: y :: a', ht =>
        simp at ht
        exact h ⟨[], a', by simp [ht.1, ht.2.1]⟩
    · rw [List.cons_append, unfold_cons_ne _ _ hc, ih ha]; rfl

/-- Unfolding acts on two texts separately when the second begins with neither LF nor SPACE. -/
theorem unfold_append (a b : Str) (h1 : b.head? ≠ some '\n') (h2 : b.head? ≠ some ' ') :
    unfold (a ++ b) = unfold a ++ unfold b := by
  fun_induction unfold a with
  | case1 => simp
  | case2 r ih => simp [unfold_crlfsp, ih]
  | case3 c r hr ih =>
    by_cases hc : c = '\r'
    · subst hc
      rw [List.cons_append, unfold_cr_ne, ih]; rfl
      rintro ⟨t, ht⟩
      match r, ht with
      | [], ht => simp at ht; simp [ht] at h1
      | [x], ht => simp at ht; simp [ht] at h2
      | x :: y :: r', ht => simp at ht; exact hr r' rfl (by simp [ht.1, ht.2.1])
    · rw [List.cons_append, unfold_cons_ne _ _ hc, ih]; rfl

end Ikal
