import Verif.Reasons
import Verif.Spec.Reasons
import Verif.Lemmas.Scan
import Verif.Lemmas.Num

/-! # What is said about integers -/

namespace Ikal
open Spec

theorem decimal_snoc (s : Str) (c : Char) : decimal (s ++ [c]) = decimal s * 10 + digitVal c := by
  rw [← digitsVal_eq_decimal, ← digitsVal_eq_decimal]
  simp [digitsVal, List.foldl_append]

theorem signedValue_snoc (neg : Bool) (s : Str) (c : Char) :
    signedValue neg (s ++ [c]) = if neg then signedValue neg s * 10 - digitVal c else signedValue neg s * 10 + digitVal c := by
  unfold signedValue
  rw [decimal_snoc]
  cases neg <;> simp <;> omega

/-- In the range. -/
def Within (lo hi : Int) (v : Int) : Prop := lo ≤ v ∧ v ≤ hi

instance (lo hi v : Int) : Decidable (Within lo hi v) := by unfold Within; infer_instance

theorem intLoop_cons {neg : Bool} {lo hi : Int} (h1 : lo ≤ 0) (h2 : 0 ≤ hi) (pre : Str) {c : Char} (hc : c.isDigit = true) (s : Str) :
    intLoop neg lo hi (signedValue neg pre) (c :: s) =
      if Within lo hi (signedValue neg (pre ++ [c])) then intLoop neg lo hi (signedValue neg (pre ++ [c])) s
      else .error (if neg then .negOverflow else .posOverflow) := by
  rw [intLoop, if_pos hc]
  simp only
  rw [signedValue_snoc]
  have hn : if neg then signedValue neg pre ≤ 0 else 0 ≤ signedValue neg pre := by
    unfold signedValue; cases neg <;> simp
  unfold Within
  cases neg
  · simp only [Bool.false_eq_true, if_false] at hn ⊢
    by_cases hh : lo ≤ signedValue false pre * 10 + ↑(digitVal c) ∧ signedValue false pre * 10 + ↑(digitVal c) ≤ hi
    · rw [if_pos (by omega), if_pos hh]
    · rw [if_neg (by omega), if_neg hh]
  · simp only [if_true] at hn ⊢
    by_cases hh : lo ≤ signedValue true pre * 10 - ↑(digitVal c) ∧ signedValue true pre * 10 - ↑(digitVal c) ≤ hi
    · rw [if_pos (by omega), if_pos hh]
    · rw [if_neg (by omega), if_neg hh]

theorem intLoop_bad (neg : Bool) (lo hi v : Int) {c : Char} (hc : c.isDigit = false) (s : Str) : intLoop neg lo hi v (c :: s) = .error .invalidDigit := by
  rw [intLoop, if_neg (by simp [hc])]

theorem decimal_le_append (s t : Str) : decimal s ≤ decimal (s ++ t) := by
  induction t generalizing s with
  | nil => simp
  | cons c t ih =>
    have := ih (s ++ [c])
    rw [decimal_snoc] at this
    simp only [List.append_assoc, List.cons_append, List.nil_append] at this
    omega

theorem within_prefix {neg : Bool} {lo hi : Int} (h1 : lo ≤ 0) (h2 : 0 ≤ hi) {s t : Str} (h : Within lo hi (signedValue neg (s ++ t))) : Within lo hi (signedValue neg s) := by
  have := decimal_le_append s t
  unfold Within signedValue at *
  cases neg <;> simp at h ⊢ <;> omega

theorem intLoop_run {neg : Bool} {lo hi : Int} (h1 : lo ≤ 0) (h2 : 0 ≤ hi) (ds r : Str) (hd : ∀ c ∈ ds, c.isDigit = true) : ∀ pre,
    Within lo hi (signedValue neg (pre ++ ds)) → intLoop neg lo hi (signedValue neg pre) (ds ++ r) = intLoop neg lo hi (signedValue neg (pre ++ ds)) r := by
  induction ds with
  | nil => intro pre _; simp
  | cons c ds ih =>
    intro pre h
    have e : pre ++ c :: ds = (pre ++ [c]) ++ ds := by simp
    rw [e] at h ⊢
    rw [List.cons_append, intLoop_cons h1 h2 pre (hd c (by simp)), if_pos (within_prefix h1 h2 h)]
    exact ih (fun x hx => hd x (by simp [hx])) _ h

theorem intLoop_over {neg : Bool} {lo hi : Int} (h1 : lo ≤ 0) (h2 : 0 ≤ hi) (ds r : Str) (hd : ∀ c ∈ ds, c.isDigit = true) : ∀ pre,
    Within lo hi (signedValue neg pre) → ¬ Within lo hi (signedValue neg (pre ++ ds)) →
    intLoop neg lo hi (signedValue neg pre) (ds ++ r) = .error (if neg then .negOverflow else .posOverflow) := by
  induction ds with
  | nil => intro pre h h'; simp at h'; exact absurd h h'
  | cons c ds ih =>
    intro pre _ h'
    have e : pre ++ c :: ds = (pre ++ [c]) ++ ds := by simp
    rw [e] at h'
    rw [List.cons_append, intLoop_cons h1 h2 pre (hd c (by simp))]
    by_cases hw : Within lo hi (signedValue neg (pre ++ [c]))
    · rw [if_pos hw]; exact ih (fun x hx => hd x (by simp [hx])) _ hw h'
    · rw [if_neg hw]

/-- What the loop returns. -/
theorem intLoop_sound {neg : Bool} {lo hi : Int} (h1 : lo ≤ 0) (h2 : 0 ≤ hi) (s : Str) : ∀ pre, Within lo hi (signedValue neg pre) →
    (∃ v, intLoop neg lo hi (signedValue neg pre) s = .ok v ∧ v = signedValue neg (pre ++ s) ∧ Within lo hi v ∧ ∀ c ∈ s, c.isDigit = true) ∨
    (intLoop neg lo hi (signedValue neg pre) s = .error .invalidDigit ∧ ∃ ds c r, s = ds ++ c :: r ∧ (∀ c ∈ ds, c.isDigit = true) ∧
      Within lo hi (signedValue neg (pre ++ ds)) ∧ c.isDigit = false) ∨
    (intLoop neg lo hi (signedValue neg pre) s = .error (if neg then .negOverflow else .posOverflow) ∧ ∃ ds r, s = ds ++ r ∧ (∀ c ∈ ds, c.isDigit = true) ∧
      ¬ Within lo hi (signedValue neg (pre ++ ds))) := by
  induction s with
  | nil => intro pre h; exact .inl ⟨_, rfl, by simp, h, by simp⟩
  | cons c s ih =>
    intro pre h
    cases hc : c.isDigit with
    | false => exact .inr (.inl ⟨intLoop_bad _ _ _ _ hc _, [], c, s, rfl, by simp, by simpa using h, hc⟩)
    | true =>
      rw [intLoop_cons h1 h2 pre hc]
      by_cases hw : Within lo hi (signedValue neg (pre ++ [c]))
      · rw [if_pos hw]
        rcases ih _ hw with ⟨v, e, e', hv, hd⟩ | ⟨e, ds, x, r, rfl, hd, hr, hx⟩ | ⟨e, ds, r, rfl, hd, hr⟩
        · exact .inl ⟨v, e, by simpa using e', hv, by simpa [hc] using hd⟩
        · exact .inr (.inl ⟨e, c :: ds, x, r, rfl, by simpa [hc] using hd, by simpa using hr, hx⟩)
        · exact .inr (.inr ⟨e, c :: ds, r, rfl, by simpa [hc] using hd, by simpa using hr⟩)
      · rw [if_neg hw]
        exact .inr (.inr ⟨rfl, [c], s, rfl, by simpa using hc, hw⟩)

/-- The sign, as the code finds it. -/
theorem readInt_sign {signed : Bool} {lo hi : Int} {s ds : Str} {neg : Bool} (h : AfterSign signed s neg ds) (hn : ds ≠ []) (h0 : s ≠ ['-']) :
    readInt signed lo hi s = intLoop neg lo hi 0 ds := by
  cases h with
  | plus =>
    obtain ⟨d, r, rfl⟩ : ∃ d r, ds = d :: r := by cases ds with | nil => exact absurd rfl hn | cons d r => exact ⟨d, r, rfl⟩
    simp [readInt]
  | minus hs =>
    obtain ⟨d, r, rfl⟩ : ∃ d r, ds = d :: r := by cases ds with | nil => exact absurd rfl hn | cons d r => exact ⟨d, r, rfl⟩
    simp [readInt, hs]
  | none h1 h2 =>
    cases s with
    | nil => exact absurd rfl hn
    | cons c r =>
      have hc : c ≠ '+' := by simpa using h1
      have hm : ¬ (c = '-' ∧ signed = true) := by rintro ⟨rfl, hs⟩; exact h2 hs rfl
      have hl : ¬ (r.isEmpty = true ∧ (c = '+' ∨ c = '-')) := by
        rintro ⟨he, rfl | rfl⟩
        · exact hc rfl
        · simp at he; subst he; exact h0 rfl
      simp only [readInt]
      rw [if_neg hl, if_neg hc, if_neg hm]

theorem afterSign_exists (signed : Bool) (s : Str) : ∃ neg ds, AfterSign signed s neg ds ∧ (ds = s ∨ ∃ c, s = c :: ds ∧ (c = '+' ∨ c = '-')) := by
  by_cases h1 : s.head? = some '+'
  · cases s with
    | nil => cases h1
    | cons c s => simp at h1; subst h1; exact ⟨_, _, .plus, .inr ⟨_, rfl, .inl rfl⟩⟩
  · by_cases h2 : signed = true ∧ s.head? = some '-'
    · cases s with
      | nil => cases h2.2
      | cons c s => have := h2.2; simp at this; subst this; exact ⟨_, _, .minus h2.1, .inr ⟨_, rfl, .inr rfl⟩⟩
    · exact ⟨_, _, .none h1 (fun h h' => h2 ⟨h, h'⟩), .inl rfl⟩

theorem signedValue_nil (neg : Bool) : signedValue neg [] = 0 := by cases neg <;> rfl

theorem readInt_error {signed : Bool} {lo hi : Int} (h1 : lo ≤ 0) (h2 : 0 ≤ hi) (s m : Str) :
    (∃ r, readInt signed lo hi s = .error r ∧ r.text = m) ↔ NoInteger signed lo hi s m := by
  have hw : ∀ neg, Within lo hi (signedValue neg []) := fun neg => by rw [signedValue_nil]; exact ⟨h1, h2⟩
  have isD : ∀ {ds : Str}, (∀ d ∈ ds, '0' ≤ d ∧ d ≤ '9') → ∀ d ∈ ds, d.isDigit = true := fun h d hd => digit_iff.1 (h d hd)
  have isD' : ∀ {ds : Str}, (∀ d ∈ ds, d.isDigit = true) → ∀ d ∈ ds, '0' ≤ d ∧ d ≤ '9' := fun h d hd => digit_iff.2 (h d hd)
  constructor
  · rintro ⟨r, hr, rfl⟩
    cases s with
    | nil => simp [readInt] at hr; subst hr; exact .empty
    | cons c t =>
      by_cases hl : t.isEmpty = true ∧ (c = '+' ∨ c = '-')
      · simp only [readInt] at hr
        rw [if_pos hl] at hr
        simp at hr; subst hr
        obtain ⟨he, hc⟩ := hl
        simp at he; subst he
        exact .sign hc
      · obtain ⟨neg, ds, ha, hds⟩ := afterSign_exists signed (c :: t)
        have hne : ds ≠ [] := by
          rintro rfl
          rcases hds with h | ⟨x, h, hx⟩
          · cases h
          · simp at h; obtain ⟨rfl, rfl⟩ := h; exact hl ⟨rfl, hx⟩
        have h0 : c :: t ≠ ['-'] := by intro h; simp at h; exact hl ⟨by simp [h.2], .inr h.1⟩
        rw [readInt_sign ha hne h0, ← signedValue_nil neg] at hr
        rcases intLoop_sound h1 h2 ds [] (hw neg) with ⟨v, e, -⟩ | ⟨e, ds', x, q, rfl, hd, hin, hx⟩ | ⟨e, ds', q, rfl, hd, hout⟩
        · rw [e] at hr; cases hr
        · rw [e] at hr; cases hr
          exact .digit ha (isD' hd) hin.1 hin.2 (not_digit_iff.2 hx)
        · rw [e] at hr; cases hr
          cases neg
          · refine .large ha (isD' hd) ?_
            unfold Within signedValue at hout
            simp at hout
            have := hout (by omega)
            omega
          · refine .small ha (isD' hd) ?_
            unfold Within signedValue at hout
            simp at hout
            by_cases h : lo ≤ -(decimal ds' : Int)
            · have := hout h; omega
            · omega
  · intro h
    cases h with
    | empty => exact ⟨.empty, rfl, rfl⟩
    | sign hc => exact ⟨.invalidDigit, by simp [readInt, hc], rfl⟩
    | @digit _ ds r neg c ha hd hl hh hx =>
      by_cases h0 : s = ['-']
      · subst h0; exact ⟨.invalidDigit, by simp [readInt], rfl⟩
      · refine ⟨.invalidDigit, ?_, rfl⟩
        rw [readInt_sign ha (by simp) h0, ← signedValue_nil neg, intLoop_run h1 h2 ds _ (isD hd) [] (by simpa using ⟨hl, hh⟩), intLoop_bad _ _ _ _ (not_digit_iff.1 hx)]
    | @large _ ds r ha hd hv =>
      have hne : ds ++ r ≠ [] := by
        intro h
        have : ds = [] := (List.append_eq_nil_iff.1 h).1
        subst this; simp [decimal] at hv; omega
      have h0 : s ≠ ['-'] := by
        rintro rfl
        generalize hq : ds ++ r = q at ha
        cases ha with
        | none _ _ =>
          have h := hq
          cases ds with
          | nil => simp [decimal] at hv; omega
          | cons d ds => simp at h; have := hd d (by simp); rw [h.1] at this; exact absurd this.1 (by decide)
      refine ⟨.posOverflow, ?_, rfl⟩
      rw [readInt_sign ha hne h0, ← signedValue_nil false, intLoop_over h1 h2 ds _ (isD hd) [] (hw _)]
      · rfl
      · unfold Within signedValue; simp; omega
    | @small _ ds r ha hd hv =>
      have hne : ds ++ r ≠ [] := by
        intro h
        have : ds = [] := (List.append_eq_nil_iff.1 h).1
        subst this; simp [decimal] at hv; omega
      have h0 : s ≠ ['-'] := by
        rintro rfl
        generalize hq : ds ++ r = q at ha
        cases ha with
        | minus _ => exact hne hq
      refine ⟨.negOverflow, ?_, rfl⟩
      rw [readInt_sign ha hne h0, ← signedValue_nil true, intLoop_over h1 h2 ds _ (isD hd) [] (hw _)]
      · rfl
      · unfold Within signedValue; simp; omega

theorem readInt_ok {signed : Bool} {lo hi : Int} (h1 : lo ≤ 0) (h2 : 0 ≤ hi) (s : Str) (v : Int) :
    readInt signed lo hi s = .ok v ↔ ∃ neg ds, AfterSign signed s neg ds ∧ Digits ds ∧ v = signedValue neg ds ∧ lo ≤ v ∧ v ≤ hi := by
  have hw : ∀ neg, Within lo hi (signedValue neg []) := fun neg => by rw [signedValue_nil]; exact ⟨h1, h2⟩
  constructor
  · intro hr
    cases s with
    | nil => cases hr
    | cons c t =>
      by_cases hl : t.isEmpty = true ∧ (c = '+' ∨ c = '-')
      · simp only [readInt] at hr
        rw [if_pos hl] at hr
        cases hr
      · obtain ⟨neg, ds, ha, hds⟩ := afterSign_exists signed (c :: t)
        have hne : ds ≠ [] := by
          rintro rfl
          rcases hds with h | ⟨x, h, hx⟩
          · cases h
          · simp at h; obtain ⟨rfl, rfl⟩ := h; exact hl ⟨rfl, hx⟩
        have h0 : c :: t ≠ ['-'] := by intro h; simp at h; exact hl ⟨by simp [h.2], .inr h.1⟩
        rw [readInt_sign ha hne h0, ← signedValue_nil neg] at hr
        rcases intLoop_sound h1 h2 ds [] (hw neg) with ⟨v', e, e', hv, hd⟩ | ⟨e, -⟩ | ⟨e, -⟩
        · rw [e] at hr; cases hr
          exact ⟨neg, ds, ha, Digits_iff.2 ⟨hne, hd⟩, e', hv.1, hv.2⟩
        · rw [e] at hr; cases hr
        · rw [e] at hr; cases hr
  · rintro ⟨neg, ds, ha, hd, rfl, hl, hh⟩
    have hd' := Digits_iff.1 hd
    have h0 : s ≠ ['-'] := by
      rintro rfl
      cases ha with
      | minus _ => exact hd.1 rfl
      | none _ _ => exact absurd (hd'.2 '-' (by simp)) (by decide)
    rw [readInt_sign ha hd.1 h0, ← signedValue_nil neg]
    have := intLoop_run h1 h2 ds [] hd'.2 [] (neg := neg) (by simpa using ⟨hl, hh⟩)
    rw [List.append_nil] at this
    rw [this]; rfl

theorem digits_head_ne {ds : Str} (hd : Digits ds) {c : Char} (hc : c.isDigit = false) : ds.head? ≠ some c := by
  intro h
  cases ds with
  | nil => cases h
  | cons d r => simp at h; subst h; rw [(Digits_iff.1 hd).2 d (by simp)] at hc; cases hc

theorem readSigned_eq {lo hi : Int} (h1 : lo ≤ 0) (h2 : 0 ≤ hi) (s : Str) : (readInt true lo hi s).toOption = parseSigned lo hi s := by
  have key : ∀ v, readInt true lo hi s = .ok v ↔ parseSigned lo hi s = some v := by
    intro v
    rw [readInt_ok h1 h2, parseSigned_some]
    constructor
    · rintro ⟨neg, ds, ha, hd, rfl, hl, hh⟩
      refine ⟨⟨ds, hd, ?_⟩, hl, hh⟩
      cases ha with
      | plus => exact .inl ⟨.inr rfl, rfl⟩
      | minus _ => exact .inr ⟨rfl, rfl⟩
      | none _ _ => exact .inl ⟨.inl rfl, rfl⟩
    · rintro ⟨⟨ds, hd, (⟨rfl | rfl, rfl⟩ | ⟨rfl, rfl⟩)⟩, hl, hh⟩
      · exact ⟨_, _, .none (digits_head_ne hd (by decide)) (fun _ => digits_head_ne hd (by decide)), hd, rfl, hl, hh⟩
      · exact ⟨_, _, .plus, hd, rfl, hl, hh⟩
      · exact ⟨_, _, .minus rfl, hd, rfl, hl, hh⟩
  cases hr : readInt true lo hi s with
  | ok v => exact ((key v).1 hr).symm
  | error r =>
    cases hp : parseSigned lo hi s with
    | none => rfl
    | some v => rw [(key v).2 hp] at hr; cases hr

theorem readUnsigned_eq (hi : Nat) (s : Str) : (readInt false 0 hi s).toOption.map Int.toNat = parseUnsigned hi s := by
  have key : ∀ n : Nat, readInt false 0 hi s = .ok n ↔ parseUnsigned hi s = some n := by
    intro n
    rw [readInt_ok (by omega) (by omega), parseUnsigned_some]
    constructor
    · rintro ⟨neg, ds, ha, hd, hv, hl, hh⟩
      cases ha with
      | plus => refine ⟨⟨ds, hd, ?_, .inr rfl⟩, by omega⟩; unfold signedValue at hv; simp at hv; omega
      | minus h => cases h
      | none _ _ => refine ⟨⟨_, hd, ?_, .inl rfl⟩, by omega⟩; unfold signedValue at hv; simp at hv; omega
    · rintro ⟨⟨ds, hd, rfl, (rfl | rfl)⟩, hh⟩
      · exact ⟨_, _, .none (digits_head_ne hd (by decide)) (fun h => by cases h), hd, rfl, by omega, by omega⟩
      · exact ⟨_, _, .plus, hd, rfl, by omega, by omega⟩
  cases hr : readInt false 0 hi s with
  | ok v =>
    have h0 : 0 ≤ v := by
      obtain ⟨_, _, _, _, _, h, _⟩ := (readInt_ok (by omega) (by omega) s v).1 hr
      exact h
    obtain ⟨n, rfl⟩ : ∃ n : Nat, v = n := ⟨v.toNat, by omega⟩
    rw [(key n).1 hr]; rfl
  | error r =>
    cases hp : parseUnsigned hi s with
    | none => rfl
    | some v => rw [(key v).2 hp] at hr; cases hr

end Ikal
