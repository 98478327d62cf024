import Verif.Lemmas.ReasonsRead
import Verif.Lemmas.ReasonsInt

/-! # Lemmas: why a text is no offset or no duration -/

namespace Ikal
open Spec

/-! ## Offsets -/

theorem two_ok {a b : Char} (h : TwoDigits [a, b]) (r : Str) : twoDigitsOf (a :: b :: r) = .ok (digitVal a, digitVal b, r) := by
  obtain ⟨x, y, t, e, hx, hy⟩ := h
  cases e
  unfold twoDigitsOf
  rw [if_neg (by have := a.utf8Size_pos; have := b.utf8Size_pos; simp; omega)]
  simp only
  rw [if_pos]
  rw [Bool.and_eq_true]
  exact ⟨(digit_iff).1 hx, (digit_iff).1 hy⟩

theorem noRoom_iff {s : Str} : NoRoom s ↔ byteLen s < 2 := by
  constructor
  · rintro (rfl | ⟨c, rfl, hc⟩)
    · simp
    · simp [utf8Size_ascii hc]
  · intro h
    match s with
    | [] => exact .inl rfl
    | [c] =>
      refine .inr ⟨c, rfl, ?_⟩
      simp at h
      exact Classical.byContradiction fun hn => by
        have : c.utf8Size ≠ 1 := by
          have hv : ¬ c.val ≤ 0x7f := by
            intro hv
            have := UInt32.le_iff_toNat_le.1 hv
            exact hn (by show c.val.toNat < 128; simpa using Nat.lt_succ_of_le this)
          simp only [Char.utf8Size]
          split
          · next h => exact absurd h hv
          · split
            · decide
            · split <;> decide
        have := c.utf8Size_pos
        omega
    | a :: b :: r => have := a.utf8Size_pos; have := b.utf8Size_pos; simp at h; omega

theorem two_err {s m : Str} (h : NoTwoDigits s m) : ∃ k, twoDigitsOf s = .error k ∧ k.text = m := by
  unfold twoDigitsOf
  cases h with
  | short h => rw [if_pos (noRoom_iff.1 h)]; exact ⟨_, rfl, rfl⟩
  | char h1 h2 =>
    rw [if_neg (fun h => h1 (noRoom_iff.2 h))]
    refine ⟨.invalid, ?_, rfl⟩
    split
    · next a b r =>
      rw [if_neg]
      intro hd
      rw [Bool.and_eq_true] at hd
      exact h2 ⟨a, b, r, rfl, digit_iff.2 hd.1, digit_iff.2 hd.2⟩
    · rfl

theorem two_cases (s : Str) : TwoDigits s ∨ ∃ m, NoTwoDigits s m := by
  by_cases h : TwoDigits s
  · exact .inl h
  · by_cases hr : NoRoom s
    · exact .inr ⟨_, .short hr⟩
    · exact .inr ⟨_, .char hr h⟩

/-- What is read after the sign. -/
def offsetRest (neg : Bool) (r : Str) : Except DateReason FixedOffset := do
  let (h1, h2, r) ← twoDigitsOf r
  let (m1, m2, _) ← twoDigitsOf (r.dropWhile fun c => c = ':' || isWhitespace c)
  if m1 ≤ 5 then
    let secs : Int := ((h1 * 10 + h2) * 3600 + (m1 * 10 + m2) * 60 : Nat)
    match FixedOffset.eastOpt (if neg then -secs else secs) with
    | some o => .ok o
    | none => .error .outOfRange
  else .error .outOfRange

theorem readOffset_signed {s r : Str} {neg : Bool} (h : offsetSign s = .ok (neg, r)) : readOffset s = offsetRest neg r := by
  unfold readOffset
  rw [h]
  rfl

theorem sign_plus (r : Str) : offsetSign ('+' :: r) = .ok (false, r) := rfl
theorem sign_minus (r : Str) : offsetSign ('-' :: r) = .ok (true, r) := rfl
theorem sign_long (r : Str) : offsetSign ('\u2212' :: r) = .ok (true, r) := by simp [offsetSign]

theorem readOffset_sign {c : Char} (h : IsSign c) (r : Str) : ∃ neg, readOffset (c :: r) = offsetRest neg r := by
  rcases h with rfl | rfl | rfl
  · exact ⟨_, readOffset_signed (sign_plus r)⟩
  · exact ⟨_, readOffset_signed (sign_minus r)⟩
  · exact ⟨_, readOffset_signed (sign_long r)⟩

theorem drop_colons {ws q : Str} (h1 : Colons ws) (h2 : ∀ d, q.head? = some d → ¬ (d = ':' ∨ isWhitespace d = true)) :
    (ws ++ q).dropWhile (fun c => c = ':' || isWhitespace c) = q := by
  have := Nom.takeWhile_append (p := fun c => c = ':' || isWhitespace c) (a := ws) (b := q) (fun c hc => by simpa using h1 c hc)
    (fun c hc => by simpa using h2 c hc)
  unfold Nom.takeWhile at this
  injection this

theorem split_colons (s : Str) : ∃ ws q, s = ws ++ q ∧ Colons ws ∧ ∀ d, q.head? = some d → ¬ (d = ':' ∨ isWhitespace d = true) := by
  induction s with
  | nil => exact ⟨[], [], rfl, (by intro c h; cases h), (by intro d h; cases h)⟩
  | cons c r ih =>
    by_cases h : c = ':' ∨ isWhitespace c = true
    · obtain ⟨ws, q, rfl, h1, h2⟩ := ih
      exact ⟨c :: ws, q, rfl, (fun d hd => (List.mem_cons.1 hd).elim (fun e => e ▸ h) (h1 d)), h2⟩
    · exact ⟨[], c :: r, rfl, (by intro c h; cases h), (by intro d hd; cases hd; exact h)⟩

theorem digit_no_colon {x y : Char} (h : TwoDigits [x, y]) (q : Str) : ∀ d, (x :: y :: q).head? = some d → ¬ (d = ':' ∨ isWhitespace d = true) := by
  intro d hd
  cases hd
  obtain ⟨a, b, t, e, hx, hy⟩ := h
  cases e
  have hx := digit_iff.1 hx
  rintro (rfl | hw)
  · exact absurd hx (by decide)
  · rw [not_ws_of_digit hx] at hw; cases hw

theorem decimal_two (a b : Char) : decimal [a, b] = digitVal a * 10 + digitVal b := by
  rw [show [a, b] = [a] ++ [b] from rfl, decimal_snoc, show [a] = [] ++ [a] from rfl, decimal_snoc]
  show (0 * 10 + digitVal a) * 10 + digitVal b = _
  omega

theorem rest_digits {a b x y : Char} {ws q : Str} (h1 : TwoDigits [a, b]) (h2 : Colons ws) (h3 : TwoDigits [x, y]) (neg : Bool) :
    offsetRest neg (a :: b :: (ws ++ x :: y :: q)) =
      if digitVal x ≤ 5 then (match FixedOffset.eastOpt (if neg then -((decimal [a, b] * 3600 + decimal [x, y] * 60 : Nat) : Int) else ((decimal [a, b] * 3600 + decimal [x, y] * 60 : Nat) : Int)) with
        | some o => .ok o
        | none => .error .outOfRange)
      else .error .outOfRange := by
  unfold offsetRest
  rw [two_ok h1]
  show (do
    let (m1, m2, _) ← twoDigitsOf ((ws ++ x :: y :: q).dropWhile fun c => c = ':' || isWhitespace c)
    _ : Except DateReason FixedOffset) = _
  rw [drop_colons h2 (digit_no_colon h3 q), two_ok h3]
  rw [decimal_two, decimal_two]
  rfl

theorem digit_small {c : Char} (h : '0' ≤ c ∧ c ≤ '9') : digitVal c ≤ 9 := by
  have := digitVal_lt (digit_iff.1 h)
  omega

theorem two_small {a b : Char} (h : TwoDigits [a, b]) : digitVal a ≤ 9 ∧ digitVal b ≤ 9 := by
  obtain ⟨x, y, t, e, hx, hy⟩ := h
  cases e
  exact ⟨digit_small hx, digit_small hy⟩

theorem offset_says {s m : Str} (h : NoOffset s m) : ∃ k, readOffset s = .error k ∧ k.text = m := by
  cases h with
  | empty => exact ⟨_, rfl, rfl⟩
  | @sign c r h =>
    refine ⟨.invalid, ?_, rfl⟩
    have e : offsetSign (c :: r) = .error .invalid := by
      unfold offsetSign
      split
      · next e => cases e
      · next e => exact absurd (.inl (List.cons.inj e).1) h
      · next e => exact absurd (.inr (.inl (List.cons.inj e).1)) h
      · next e => exact absurd (.inr (.inr (List.cons.inj e).1)) h
      · rfl
    unfold readOffset
    rw [e]
    rfl
  | hours h1 h2 =>
    obtain ⟨neg, e⟩ := readOffset_sign h1 _
    obtain ⟨k, hk, ht⟩ := two_err h2
    refine ⟨k, ?_, ht⟩
    rw [e]
    unfold offsetRest
    rw [hk]
    rfl
  | minutes h1 h2 h3 h4 h5 =>
    obtain ⟨neg, e⟩ := readOffset_sign h1 _
    obtain ⟨k, hk, ht⟩ := two_err h5
    refine ⟨k, ?_, ht⟩
    rw [e]
    unfold offsetRest
    rw [two_ok h2]
    show (do
      let (m1, m2, _) ← twoDigitsOf (List.dropWhile (fun c => c = ':' || isWhitespace c) _)
      _ : Except DateReason FixedOffset) = _
    rw [drop_colons h3 h4, hk]
    rfl
  | @range c a b x y ws r h1 h2 h3 h4 h5 =>
    obtain ⟨neg, e⟩ := readOffset_sign h1 (a :: b :: (ws ++ x :: y :: r))
    refine ⟨.outOfRange, ?_, rfl⟩
    rw [e, rest_digits h2 h3 h4]
    by_cases hx : digitVal x ≤ 5
    · rw [if_pos hx]
      have := two_small h4
      have hm := decimal_two x y
      have he : ∀ n : Int, n ≤ -86400 ∨ 86400 ≤ n → FixedOffset.eastOpt n = none := by
        intro n hn
        unfold FixedOffset.eastOpt
        rw [if_neg (by omega)]
      rw [he]
      cases neg
      · simp only [Bool.false_eq_true, if_false]; omega
      · simp only [if_true]; omega
    · rw [if_neg hx]

theorem offset_cases (s : Str) : (∃ o, readOffset s = .ok o) ∨ ∃ m, NoOffset s m := by
  cases s with
  | nil => exact .inr ⟨_, .empty⟩
  | cons c r =>
    by_cases hc : IsSign c
    · rcases two_cases r with h | ⟨m, h⟩
      · obtain ⟨a, b, t, rfl, ha, hb⟩ := h
        obtain ⟨ws, q, rfl, hw, hq⟩ := split_colons t
        have h2 : TwoDigits [a, b] := ⟨a, b, [], rfl, ha, hb⟩
        rcases two_cases q with h | ⟨m, h⟩
        · obtain ⟨x, y, t, rfl, hx, hy⟩ := h
          have h4 : TwoDigits [x, y] := ⟨x, y, [], rfl, hx, hy⟩
          by_cases hr : 24 ≤ decimal [a, b] ∨ 60 ≤ decimal [x, y]
          · exact .inr ⟨_, .range hc h2 hw h4 hr⟩
          · obtain ⟨neg, e⟩ := readOffset_sign hc (a :: b :: (ws ++ x :: y :: t))
            rw [e, rest_digits h2 hw h4]
            have hm := decimal_two x y
            rw [if_pos (by omega)]
            have he : ∀ n : Int, -86400 < n ∧ n < 86400 → FixedOffset.eastOpt n = some ⟨n⟩ := fun n hn => if_pos hn
            rw [he]
            · exact .inl ⟨_, rfl⟩
            · cases neg
              · simp only [Bool.false_eq_true, if_false]; omega
              · simp only [if_true]; omega
        · exact .inr ⟨_, .minutes hc h2 hw hq h⟩
      · exact .inr ⟨_, .hours hc h⟩
    · exact .inr ⟨_, .sign hc⟩

theorem readOffset_err {s m : Str} : (∃ k, readOffset s = .error k ∧ k.text = m) ↔ NoOffset s m := by
  refine ⟨?_, offset_says⟩
  rintro ⟨k, h, rfl⟩
  rcases offset_cases s with ⟨o, e⟩ | ⟨m, hm⟩
  · rw [h] at e; cases e
  · obtain ⟨k', e, ht⟩ := offset_says hm
    rw [h] at e
    cases e
    rw [ht]
    exact hm

theorem twoDigitsOf_eq (s : Str) : (twoDigitsOf s).toOption = FixedOffset.twoDigits s := by
  rcases two_cases s with h | ⟨m, h⟩
  · obtain ⟨a, b, t, rfl, ha, hb⟩ := h
    rw [two_ok ⟨a, b, [], rfl, ha, hb⟩]
    unfold FixedOffset.twoDigits
    simp [digit_iff.1 ha, digit_iff.1 hb, Except.toOption]
  · obtain ⟨k, e, -⟩ := two_err h
    rw [e]
    unfold FixedOffset.twoDigits
    split
    · next a b r =>
      have : ¬ TwoDigits (a :: b :: r) := by
        intro hd
        obtain ⟨x, y, t, e', hx, hy⟩ := hd
        cases e'
        rw [two_ok ⟨a, b, [], rfl, hx, hy⟩] at e
        cases e
      rw [if_neg]
      · rfl
      · intro hd
        rw [Bool.and_eq_true] at hd
        exact this ⟨a, b, r, rfl, digit_iff.2 hd.1, digit_iff.2 hd.2⟩
    · rfl

theorem toOption_bind {ε α β : Type} (x : Except ε α) (f : α → Except ε β) : (x >>= f).toOption = x.toOption.bind fun a => (f a).toOption := by
  cases x <;> rfl

theorem readOffset_eq (s : Str) : (readOffset s).toOption = FixedOffset.parse s := by
  have hrest : ∀ neg r, (offsetRest neg r).toOption = offsetTail neg r := by
    intro neg r
    unfold offsetRest offsetTail
    rw [toOption_bind, twoDigitsOf_eq]
    cases FixedOffset.twoDigits r with
    | none => rfl
    | some v =>
      obtain ⟨h1, h2, t⟩ := v
      simp only [Option.bind_some]
      rw [toOption_bind, twoDigitsOf_eq]
      cases FixedOffset.twoDigits _ with
      | none => rfl
      | some v =>
        obtain ⟨m1, m2, q⟩ := v
        simp only [Option.bind_some]
        by_cases hm : m1 ≤ 5
        · simp only [hm, if_true]
          cases FixedOffset.eastOpt _ <;> rfl
        · simp only [hm, if_false]; rfl
  match s with
  | [] => rfl
  | c :: r =>
    by_cases h1 : c = '+'
    · subst h1; rw [readOffset_signed (sign_plus r)]; exact hrest false r
    · by_cases h2 : c = '-'
      · subst h2; rw [readOffset_signed (sign_minus r)]; exact hrest true r
      · by_cases h3 : c = '\u2212'
        · subst h3; rw [readOffset_signed (sign_long r), hrest]; unfold FixedOffset.parse offsetTail; simp; rfl
        · obtain ⟨k, e, -⟩ := offset_says (.sign (r := r) (show ¬ IsSign c from by rintro (h | h | h) <;> contradiction))
          rw [e]
          unfold FixedOffset.parse
          simp only []
          split
          · rfl
          · next e' =>
            split at e'
            · next e => exact absurd (List.cons.inj e).1 h1
            · next e => exact absurd (List.cons.inj e).1 h2
            · next e => exact absurd (List.cons.inj e).1 h3
            · cases e'

/-! ## Durations -/

section
variable [Platform] [DebugChars]
set_option linter.unusedSectionVars false

theorem secondsDelta_inj {m n : Int} (h : secondsDelta m = secondsDelta n) : m = n := by
  unfold secondsDelta at h
  simp only [TimeDelta.mk.injEq] at h
  omega

theorem unit_ok {u : MacroUnit} (hd : ∀ c ∈ u.number, c.isDigit = true) {d : TimeDelta} :
    tellUnit u.time u.letter u.number = .ok d ↔ ∃ n, d = secondsDelta n ∧ UnitWorth u (.ok n) := by
  constructor
  · intro h
    have hf := forget_unit u.time u.letter u.number
    rw [h] at hf
    obtain ⟨r, hr⟩ := unit_exists u
    rw [unit_sound hd hr] at hf
    cases r with
    | ok n => cases hf; exact ⟨n, rfl, hr⟩
    | err e => cases hf
    | panic => cases hf
  · rintro ⟨n, rfl, hw⟩
    have hf := forget_unit u.time u.letter u.number
    rw [unit_sound hd hw] at hf
    cases ht : tellUnit u.time u.letter u.number with
    | ok d => rw [ht] at hf; cases hf; rfl
    | err r => rw [ht] at hf; cases hf
    | panic => rw [ht] at hf; cases hf

theorem unit_known {u : MacroUnit} (h : unitDays u ≠ none ∨ unitSeconds u ≠ none) :
    ∃ f : Int → Told TimeDelta, (∀ n r, f n ≠ .err r) ∧ tellUnit u.time u.letter u.number = Told.int (readI64 u.number) >>= f := by
  have nu : ∀ {x : Option TimeDelta} {r}, Told.unwrap x ≠ .err r := by intro x r; cases x <;> simp [Told.unwrap]
  have nm : ∀ {k n : Int} {r}, (tellMul k n >>= fun v => Told.unwrap (TimeDelta.days v)) ≠ .err r := by
    intro k n r
    unfold tellMul
    split
    · exact nu
    · intro h; cases h
  obtain ⟨time, q, c⟩ := u
  unfold unitDays unitSeconds at h
  unfold tellUnit
  simp only at h ⊢
  cases time
  · simp only [Bool.false_eq_true, if_false, true_and, false_and, ne_eq, not_true_eq_false, or_false] at h ⊢
    by_cases hY : c = 'Y'
    · rw [if_pos hY]; exact ⟨_, fun _ _ => nm, rfl⟩
    · rw [if_neg hY] at h ⊢
      by_cases hM : c = 'M'
      · rw [if_pos hM]; exact ⟨_, fun _ _ => nm, rfl⟩
      · rw [if_neg hM] at h ⊢
        by_cases hD : c = 'D'
        · rw [if_pos hD]; exact ⟨_, fun _ _ => nu, rfl⟩
        · rw [if_neg hD] at h; exact absurd rfl h
  · simp only [if_true, true_and, ne_eq, not_true_eq_false, false_or, Bool.true_eq_false, false_and, if_false] at h ⊢
    by_cases hY : c = 'H'
    · rw [if_pos hY]; exact ⟨_, fun _ _ => nu, rfl⟩
    · rw [if_neg hY] at h ⊢
      by_cases hM : c = 'M'
      · rw [if_pos hM]; exact ⟨_, fun _ _ => nu, rfl⟩
      · rw [if_neg hM] at h ⊢
        by_cases hD : c = 'S'
        · rw [if_pos hD]; exact ⟨_, fun _ _ => nu, rfl⟩
        · rw [if_neg hD] at h; exact absurd rfl h

theorem unit_unknown {u : MacroUnit} (h1 : unitDays u = none) (h2 : unitSeconds u = none) :
    tellUnit u.time u.letter u.number = .err (.parseDuration (c!"Invalid duration: " ++ u.number)) := by
  obtain ⟨time, q, c⟩ := u
  unfold unitDays at h1
  unfold unitSeconds at h2
  unfold tellUnit
  simp only at h1 h2 ⊢
  cases time
  · simp only [Bool.false_eq_true, if_false, true_and, false_and] at h1 ⊢
    by_cases hY : c = 'Y'
    · rw [if_pos hY] at h1; cases h1
    · rw [if_neg hY] at h1 ⊢
      by_cases hM : c = 'M'
      · rw [if_pos hM] at h1; cases h1
      · rw [if_neg hM] at h1 ⊢
        by_cases hD : c = 'D'
        · rw [if_pos hD] at h1; cases h1
        · rw [if_neg hD]
  · simp only [if_true, true_and, Bool.true_eq_false, false_and, if_false] at h2 ⊢
    by_cases hY : c = 'H'
    · rw [if_pos hY] at h2; cases h2
    · rw [if_neg hY] at h2 ⊢
      by_cases hM : c = 'M'
      · rw [if_pos hM] at h2; cases h2
      · rw [if_neg hM] at h2 ⊢
        by_cases hD : c = 'S'
        · rw [if_pos hD] at h2; cases h2
        · rw [if_neg hD]

/-- Digits alone that are no 64-bit number are none, or too many. -/
theorem i64_digits {q : Str} (hd : ∀ c ∈ q, c.isDigit = true) (m : Str) :
    NoInteger true (-i64Max - 1) i64Max q m ↔
      q = [] ∧ m = c!"cannot parse integer from empty string" ∨ 9223372036854775807 < decimal q ∧ m = c!"number too large to fit in target type" := by
  have nosign : ∀ {neg t}, AfterSign true q neg t → neg = false ∧ t = q := by
    intro neg t h
    cases h with
    | plus => exact absurd (hd '+' (by simp)) (by decide)
    | minus => exact absurd (hd '-' (by simp)) (by decide)
    | none => exact ⟨rfl, rfl⟩
  constructor
  · intro h
    cases h with
    | empty => exact .inl ⟨rfl, rfl⟩
    | @sign c hc =>
      have := hd c (by simp)
      rcases hc with rfl | rfl <;> exact absurd this (by decide)
    | digit ha h1 h2 h3 h4 =>
      obtain ⟨-, e⟩ := nosign ha
      exact absurd (digit_iff.2 (hd _ (by rw [← e]; simp))) h4
    | @large _ ds r ha h1 h2 =>
      obtain ⟨-, e⟩ := nosign ha
      refine .inr ⟨?_, rfl⟩
      have := decimal_le_append ds r
      rw [e] at this
      rw [i64Max_val] at h2
      omega
    | small ha => obtain ⟨e, -⟩ := nosign ha; cases e
  · rintro (⟨rfl, rfl⟩ | ⟨h, rfl⟩)
    · exact .empty
    · refine .large (ds := q) (r := []) ?_ (fun c hc => digit_iff.2 (hd c hc)) (by rw [i64Max_val]; omega)
      rw [List.append_nil]
      refine .none ?_ ?_
      · cases q with
        | nil => simp
        | cons c q => intro e; cases e; exact absurd (hd '+' (by simp)) (by decide)
      · intro _
        cases q with
        | nil => simp
        | cons c q => intro e; cases e; exact absurd (hd '-' (by simp)) (by decide)

theorem unit_said {u : MacroUnit} (hd : ∀ c ∈ u.number, c.isDigit = true) (m : Str) :
    (tellUnit u.time u.letter u.number).said = some m ↔ NoUnitWorth u m := by
  by_cases hk : unitDays u = none ∧ unitSeconds u = none
  · rw [unit_unknown hk.1 hk.2]
    constructor
    · intro h; cases h; exact .unknown hk.1 hk.2
    · intro h
      cases h with
      | unknown => rfl
      | empty h => rcases h with h | h <;> first | exact absurd hk.1 h | exact absurd hk.2 h
      | large h => rcases h with h | h <;> first | exact absurd hk.1 h | exact absurd hk.2 h
  · have hk' : unitDays u ≠ none ∨ unitSeconds u ≠ none := by
      by_cases h1 : unitDays u = none
      · exact .inr fun h2 => hk ⟨h1, h2⟩
      · exact .inl h1
    obtain ⟨f, hf, e⟩ := unit_known hk'
    rw [e]
    have hi := readInt_error (signed := true) i64_lo i64_hi u.number
    have hl : (Told.int (readI64 u.number) >>= f).said = some m ↔ ∃ k, readI64 u.number = .error k ∧ k.text = m := by
      cases hr : readI64 u.number with
      | ok n =>
        show (f n).said = some m ↔ _
        constructor
        · intro h
          cases hfn : f n with
          | ok d => rw [hfn] at h; cases h
          | panic => rw [hfn] at h; cases h
          | err r => exact absurd hfn (hf n r)
        · rintro ⟨k, h, -⟩; cases h
      | error k =>
        show some k.text = some m ↔ _
        constructor
        · intro h; cases h; exact ⟨k, rfl, rfl⟩
        · rintro ⟨k', h, rfl⟩; cases h; rfl
    rw [hl]
    unfold readI64
    rw [hi, i64_digits hd]
    constructor
    · rintro (⟨h1, rfl⟩ | ⟨h1, rfl⟩)
      · exact .empty hk' h1
      · exact .large hk' h1
    · intro h
      cases h with
      | unknown h1 h2 => exact absurd ⟨h1, h2⟩ hk
      | empty _ h => exact .inl ⟨h, rfl⟩
      | large _ h => exact .inr ⟨h, rfl⟩

theorem loop_said (body : Str) : ∀ (before : Str) (a : Int) (m : Str),
    (tellLoop (before.contains 'T') (before.filter Char.isDigit) (secondsDelta a) body).said = some m ↔
      ∃ us u vs n, unitsFrom before body = us ++ u :: vs ∧ UnitSum a us (.ok n) ∧ NoUnitWorth u m := by
  induction body with
  | nil =>
    intro before a m
    constructor
    · intro h; cases h
    · rintro ⟨us, u, vs, n, e, -⟩
      simp [unitsFrom] at e
  | cons c rest ih =>
    intro before a m
    rw [unitsFrom, tellLoop]
    by_cases hT : c = 'T'
    · subst hT
      rw [if_pos rfl]
      have : (unitAfter before 'T').toList = [] := by simp [unitAfter]
      rw [this, List.nil_append, ← ih]
      simp
    · rw [if_neg hT]
      have e1 : (before ++ [c]).contains 'T' = before.contains 'T' := by
        simp
        exact fun e => absurd e.symm hT
      by_cases hc : c.isDigit = true
      · rw [if_pos hc]
        have : (unitAfter before c).toList = [] := by simp [unitAfter, hc]
        have e2 : (before ++ [c]).filter Char.isDigit = before.filter Char.isDigit ++ [c] := by simp [hc]
        rw [this, List.nil_append, ← ih, e1, e2]
      · rw [if_neg hc]
        have hu : unitAfter before c = some ⟨before.contains 'T', before.filter Char.isDigit, c⟩ := by
          unfold unitAfter
          rw [if_neg (by simp [hc, hT])]
        rw [hu]
        have hd : ∀ d ∈ before.filter Char.isDigit, d.isDigit = true := fun d hd => (List.mem_filter.1 hd).2
        have e2 : (before ++ [c]).filter Char.isDigit = before.filter Char.isDigit := by simp [hc]
        have hadd : ∀ n, (secondsDelta a).add (secondsDelta n) = TimeDelta.mk? ((a + n) * 1000000000) := by
          intro n
          unfold TimeDelta.add secondsDelta
          simp only
          rw [Int.add_mul]
        have ih := fun b => ih (before ++ [c]) b m
        rw [e1, e2] at ih
        have hsaid := unit_said (u := ⟨before.contains 'T', before.filter Char.isDigit, c⟩) hd m
        have hok := fun d => unit_ok (u := ⟨before.contains 'T', before.filter Char.isDigit, c⟩) hd (d := d)
        simp only at hsaid hok
        simp only [Option.toList_some, List.singleton_append]
        generalize (⟨before.contains 'T', before.filter Char.isDigit, c⟩ : MacroUnit) = u at hsaid hok ⊢
        cases ht : tellUnit (before.contains 'T') c (before.filter Char.isDigit) with
        | ok d =>
          rw [ht] at hsaid hok
          obtain ⟨n, rfl, hw⟩ := (hok d).1 rfl
          have huniq : ∀ {k}, UnitWorth u (.ok k) → k = n := fun {k} hk => by
            have := (hok _).2 ⟨k, rfl, hk⟩
            exact (secondsDelta_inj (Told.ok.inj this)).symm
          rw [told_bind_ok, hadd]
          by_cases hr : DurationRange (a + n)
          · rw [mk?_in hr]
            show (tellLoop _ _ (secondsDelta (a + n)) rest).said = some m ↔ _
            rw [ih]
            constructor
            · rintro ⟨us, v, vs, k, e, h1, h2⟩
              exact ⟨u :: us, v, vs, k, by rw [e]; rfl, .more hw hr h1, h2⟩
            · rintro ⟨us, v, vs, k, e, h1, h2⟩
              cases us with
              | nil =>
                simp only [List.nil_append, List.cons.injEq] at e
                rw [← e.1] at h2
                have := hsaid.2 h2
                cases this
              | cons w us =>
                simp only [List.cons_append, List.cons.injEq] at e
                obtain ⟨rfl, e⟩ := e
                cases h1 with
                | bad _ hne => exact absurd rfl (hne k)
                | more hw' _ hs =>
                  rw [huniq hw'] at hs
                  exact ⟨us, v, vs, k, e, hs, h2⟩
          · rw [mk?_out hr]
            constructor
            · intro h; cases h
            · rintro ⟨us, v, vs, k, e, h1, h2⟩
              cases us with
              | nil =>
                simp only [List.nil_append, List.cons.injEq] at e
                rw [← e.1] at h2
                have := hsaid.2 h2
                cases this
              | cons w us =>
                simp only [List.cons_append, List.cons.injEq] at e
                obtain ⟨rfl, e⟩ := e
                cases h1 with
                | bad _ hne => exact absurd rfl (hne k)
                | more hw' hr' hs =>
                  rw [huniq hw'] at hr'
                  exact absurd hr' hr
        | err r =>
          rw [ht] at hsaid hok
          rw [told_bind_err]
          show (Told.err r : Told TimeDelta).said = some m ↔ _
          constructor
          · intro h
            exact ⟨[], u, _, a, rfl, .done, hsaid.1 h⟩
          · rintro ⟨us, v, vs, k, e, h1, h2⟩
            cases us with
            | nil =>
              simp only [List.nil_append, List.cons.injEq] at e
              rw [← e.1] at h2
              exact hsaid.2 h2
            | cons w us =>
              simp only [List.cons_append, List.cons.injEq] at e
              obtain ⟨rfl, e⟩ := e
              cases h1 with
              | bad _ hne => exact absurd rfl (hne k)
              | more hw' _ hs => have := (hok _).2 ⟨_, rfl, hw'⟩; cases this
        | panic =>
          rw [ht] at hsaid hok
          rw [told_bind_panic]
          constructor
          · intro h; cases h
          · rintro ⟨us, v, vs, k, e, h1, h2⟩
            cases us with
            | nil =>
              simp only [List.nil_append, List.cons.injEq] at e
              rw [← e.1] at h2
              have := hsaid.2 h2
              cases this
            | cons w us =>
              simp only [List.cons_append, List.cons.injEq] at e
              obtain ⟨rfl, e⟩ := e
              cases h1 with
              | bad _ hne => exact absurd rfl (hne k)
              | more hw' _ hs => have := (hok _).2 ⟨_, rfl, hw'⟩; cases this

end

end Ikal
