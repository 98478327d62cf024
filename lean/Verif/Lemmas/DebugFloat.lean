import Verif.Lemmas.FloatText
import Verif.Lemmas.DebugValues
import Verif.Spec.Debug

/-!
# Lemmas: `Debug` of floats
-/

set_option linter.unusedSectionVars false

namespace Ikal.F32

open Spec

theorem exponentText_intStr (n : Int) {r : Str} (hr : Ends r) : ExponentText ('e' :: intStr n) n r := by
  refine .inr ?_
  unfold intStr
  split
  · refine ⟨'e', ['-'], natStr n.natAbs, true, rfl, .inl rfl, .inr (.inr ⟨rfl, rfl⟩), natStr_isDigits _, hr.no_digit, ?_⟩
    rw [decimal_natStr]; simp; omega
  · refine ⟨'e', [], natStr n.natAbs, false, rfl, .inl rfl, .inl ⟨rfl, rfl⟩, natStr_isDigits _, hr.no_digit, ?_⟩
    rw [decimal_natStr]; simp; omega

theorem parse_scientific (neg : Bool) (c : Nat) (e : Int) {r : Str} (hr : Ends r) :
    parse (minus neg ++ (scientific c e ++ r)) = some (ofBits neg (nearestDecimal c e), r) := by
  refine parse_iff.2 (.inl ?_)
  obtain ⟨d, s, hs⟩ : ∃ d s, natStr c = d :: s := by
    cases h : natStr c with
    | nil => exact absurd h (natStr_ne c)
    | cons d s => exact ⟨d, s, rfl⟩
  have hdig : ∀ x ∈ d :: s, x.isDigit = true := hs ▸ natStr_digits c
  have hval : decimal (d :: s) = c := hs ▸ decimal_natStr c
  have hx := exponentText_intStr (e + ((natStr c).length - 1 : Nat)) hr
  have hn : NoDigit ('e' :: intStr (e + ((natStr c).length - 1 : Nat)) ++ r) := by intro x hx; simp at hx; subst hx; rfl
  cases s with
  | nil =>
    refine ⟨minus neg, [d], [], [], _, neg, _, ?_, minus_sign neg, ?_, (by intro x h; cases h), .inl (by simp), .inr ⟨rfl, rfl, by simp⟩, hn, hx, ?_⟩
    · simp [scientific, hs]
    · intro x h; exact hdig x h
    · refine ofBits_iff.1 ?_
      rw [List.append_nil, hval, hs]; congr 2; simp
  | cons d' s =>
    refine ⟨minus neg, [d], ['.'], d' :: s, _, neg, _, ?_, minus_sign neg, ?_, ?_, .inl (by simp), .inl rfl, hn, hx, ?_⟩
    · simp [scientific, hs]
    · intro x h; exact hdig x (by simp at h; simp [h])
    · intro x h; exact hdig x (List.mem_cons_of_mem _ h)
    · refine ofBits_iff.1 ?_
      rw [show [d] ++ d' :: s = d :: d' :: s from rfl, hval, hs]; congr 2; simp

theorem shortest_ne (b : Fin f32Inf) (h0 : b.val ≠ 0) : (shortest b.val).1 ≠ 0 := by
  intro h
  have := shortest_end b.isLt h0
  rw [h] at this
  exact this rfl

/-- The numbers in decimal notation. -/
theorem parse_pointed (neg : Bool) {c : Nat} (hc : c ≠ 0) (e : Int) {r : Str} (hr : Ends r) :
    parse (minus neg ++ ((decimalText c e ++ if 0 ≤ e then c!".0" else []) ++ r)) = some (ofBits neg (nearestDecimal c e), r) := by
  have hx : ExponentText [] 0 r := .inl ⟨rfl, rfl, hr.not_head (by decide), hr.not_head (by decide)⟩
  have hp := decimalText_plain (c := c) (e := e) (.inl hc)
  by_cases he : 0 ≤ e
  · rw [if_pos he]
    rcases hp with ⟨-, hd, hv, -⟩ | ⟨h, -⟩
    · refine parse_iff.2 (.inl ⟨minus neg, decimalText c e, ['.'], ['0'], [], neg, 0, (by simp), minus_sign neg, (Digits_iff.1 hd).2,
        (by intro c h; simp at h; subst h; rfl), .inl hd.1, .inl rfl, hr.no_digit, hx, ofBits_iff.1 ?_⟩)
      have h1 : decimal (decimalText c e ++ ['0']) = c * 10 ^ (e.toNat + 1) := by
        rw [decimal_append, hv, Nat.pow_succ]; simp [decimal, Nat.mul_assoc]
      have h2 : (0 - ((['0'] : Str).length : Int) + ((e.toNat + 1 : Nat) : Int)) = e := by simp; omega
      rw [h1, nearestDecimal_shift, h2]
    · omega
  · rw [if_neg he, List.append_nil, parse_plain hp hr]

/-- A finite number is read back from its `Debug` text. -/
theorem parse_debug (neg : Bool) (b : Fin f32Inf) {r : Str} (hr : Ends r) : parse (debug (.fin neg b) ++ r) = some (.fin neg b, r) := by
  have hx : ExponentText [] 0 r := .inl ⟨rfl, rfl, hr.not_head (by decide), hr.not_head (by decide)⟩
  rw [debug]
  by_cases h0 : b.val = 0
  · rw [if_pos h0, List.append_assoc]
    refine parse_iff.2 (.inl ⟨minus neg, ['0'], ['.'], ['0'], [], neg, 0, rfl, minus_sign neg, (by intro c h; simp at h; subst h; rfl),
      (by intro c h; simp at h; subst h; rfl), .inl (by simp), .inl rfl, hr.no_digit, hx, ofBits_iff.1 ?_⟩)
    rw [show decimal (['0'] ++ ['0']) = 0 from rfl, nearestDecimal_zero, ← h0, ofBits_fin]
  · rw [if_neg h0]
    have hc := shortest_ne b h0
    have hs := shortest_rounds b.val
    generalize shortest b.val = p at hc hs
    by_cases hb : nearestDecimal 1 16 ≤ b.val ∨ b.val < nearestDecimal 1 (-4)
    · rw [if_pos hb, List.append_assoc, parse_scientific neg p.1 p.2 hr, hs, ofBits_fin]
    · rw [if_neg hb, List.append_assoc, parse_pointed neg hc p.2 hr, hs, ofBits_fin]

/-- The characters of a number. -/
def numChar (c : Char) : Prop := c.isAlphanum = true ∨ c = '-' ∨ c = '+' ∨ c = '.'

theorem digit_num {c : Char} (h : c.isDigit = true) : numChar c := .inl (by simp [Char.isAlphanum, h])

theorem minus_num (neg : Bool) : ∀ c ∈ minus neg, numChar c := by
  cases neg
  · intro c h; cases h
  · intro c h; simp [minus] at h; exact .inr (.inl h)

theorem num_append {a b : Str} (ha : ∀ c ∈ a, numChar c) (hb : ∀ c ∈ b, numChar c) : ∀ c ∈ a ++ b, numChar c := by
  intro c hc; rcases List.mem_append.1 hc with h | h
  · exact ha c h
  · exact hb c h

theorem intStr_num (n : Int) : ∀ c ∈ intStr n, numChar c := by
  unfold intStr
  split
  · intro c hc
    rcases List.mem_cons.1 hc with h | h
    · exact .inr (.inl h)
    · exact digit_num (natStr_digits _ c h)
  · intro c hc; exact digit_num (natStr_digits _ c hc)

theorem scientific_num (c : Nat) (e : Int) : ∀ x ∈ scientific c e, numChar x := by
  unfold scientific
  refine num_append (num_append ?_ ?_) ?_
  · intro x hx; exact digit_num (natStr_digits c x (List.mem_of_mem_take hx))
  · split
    · intro x h; cases h
    · intro x h
      rcases List.mem_cons.1 h with h | h
      · exact .inr (.inr (.inr h))
      · exact digit_num (natStr_digits c x (List.mem_of_mem_drop h))
  · intro x h
    rcases List.mem_cons.1 h with h | h
    · subst h; exact .inl rfl
    · exact intStr_num _ x h

theorem plain_num {t : Str} {c : Nat} {e : Int} (h : PlainDecimal t c e) : t ≠ [] ∧ ∀ x ∈ t, numChar x := by
  rcases h with ⟨-, hd, -⟩ | ⟨-, i, f, rfl, hi, hf, -⟩
  · exact ⟨hd.1, fun x hx => digit_num ((Digits_iff.1 hd).2 x hx)⟩
  · refine ⟨by simp, num_append (fun x hx => digit_num ((Digits_iff.1 hi).2 x hx)) ?_⟩
    intro x h
    rcases List.mem_cons.1 h with h | h
    · exact .inr (.inr (.inr h))
    · exact digit_num ((Digits_iff.1 hf).2 x h)

theorem debug_num (x : F32) : debug x ≠ [] ∧ ∀ c ∈ debug x, numChar c := by
  cases x with
  | nan => exact ⟨by decide, by intro c h; left; revert c; decide⟩
  | inf neg => exact ⟨by simp [debug], num_append (minus_num neg) (by intro c h; left; revert c; decide)⟩
  | fin neg b =>
    rw [debug]
    by_cases h0 : b.val = 0
    · rw [if_pos h0]
      refine ⟨by simp, num_append (minus_num neg) ?_⟩
      intro c h
      simp at h
      rcases h with h | h | h <;> subst h
      · exact .inl rfl
      · exact .inr (.inr (.inr rfl))
      · exact .inl rfl
    · rw [if_neg h0]
      have hc := shortest_ne b h0
      generalize shortest b.val = p at hc
      by_cases hb : nearestDecimal 1 16 ≤ b.val ∨ b.val < nearestDecimal 1 (-4)
      · rw [if_pos hb]; exact ⟨by simp [scientific], num_append (minus_num neg) (scientific_num _ _)⟩
      · rw [if_neg hb]
        obtain ⟨h1, h2⟩ := plain_num (decimalText_plain (c := p.1) (e := p.2) (.inl hc))
        refine ⟨by simp [h1], num_append (minus_num neg) (num_append h2 ?_)⟩
        split
        · intro c h
          simp at h
          rcases h with h | h <;> subst h
          · exact .inr (.inr (.inr rfl))
          · exact .inl rfl
        · intro c h; cases h

theorem debug_inj {x y : F32} (h : debug x = debug y) : x = y := by
  have key : ∀ (neg : Bool) (b : Fin f32Inf) (y : F32), debug (.fin neg b) = debug y → .fin neg b = y := by
    intro neg b y h
    have hp := parse_debug neg b (r := []) (.inl rfl)
    rw [h, List.append_nil] at hp
    cases y with
    | fin neg' b' =>
      have hq := parse_debug neg' b' (r := []) (.inl rfl)
      rw [List.append_nil, hp] at hq
      simpa using hq
    | nan => exact absurd hp (by simp [debug, show parse c!"NaN" = some (.nan, []) from rfl])
    | inf neg' =>
      cases neg'
      · exact absurd hp (by simp [debug, minus, show parse c!"inf" = some (.inf false, []) from rfl])
      · exact absurd hp (by simp [debug, minus, show parse c!"-inf" = none from rfl])
  cases x with
  | fin neg b => exact key neg b y h
  | nan =>
    cases y with
    | nan => rfl
    | fin neg b => exact (key neg b _ h.symm).symm
    | inf neg => cases neg <;> exact absurd h (by decide)
  | inf neg =>
    cases y with
    | nan => cases neg <;> exact absurd h (by decide)
    | fin neg b => exact (key neg b _ h.symm).symm
    | inf neg' => cases neg <;> cases neg' <;> first | rfl | exact absurd h (by decide)

/-- The floats of `Verif/Float.lean` are told by their `Debug` text. -/
theorem ieee_lawful (P : Platform) : @Spec.LawfulFloatDebug (ieee P) (ieeeDebug P) :=
  @Spec.LawfulFloatDebug.mk (ieee P) (ieeeDebug P) debug_num (fun _ _ h => debug_inj h)

end Ikal.F32
