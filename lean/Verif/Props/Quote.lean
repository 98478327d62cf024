import Verif.Spec.Quote
import Verif.Spec.Trace
import Verif.Props.TraceMessage

/-!
# C96: texts in quotes

How `Debug` shows the texts inside values and error messages.
-/

namespace Ikal
open Spec

theorem hex_place {n : Nat} (h : n < 16) : c!"0123456789abcdef"[n]? = some (hexDigit n) := by
  match n, h with
  | 0, _ | 1, _ | 2, _ | 3, _ | 4, _ | 5, _ | 6, _ | 7, _ | 8, _ | 9, _ | 10, _ | 11, _ | 12, _ | 13, _ | 14, _ | 15, _ => decide
  | n + 16, h => omega

theorem HexNumber.snoc {s : Str} {c : Char} {d : Nat} (hd : c!"0123456789abcdef"[d]? = some c) : ∀ {n}, HexNumber s n → HexNumber (s ++ [c]) (n * 16 + d) := by
  induction s with
  | nil => intro n h; cases h; exact ⟨d, 0, rfl, by simp, hd⟩
  | cons x s ih =>
    rintro n ⟨e, m, h1, rfl, h2⟩
    refine ⟨e, _, ih h1, ?_, h2⟩
    show _ = e * 16 ^ (s ++ [c]).length + _
    rw [List.length_append, List.length_singleton, Nat.pow_succ, Nat.add_mul, Nat.mul_assoc]
    omega

theorem hexStr_number : ∀ (k n : Nat), n < 16 ^ (k + 1) → HexNumber (hexStr k n) n ∧ hexStr k n ≠ [] ∧ (n ≠ 0 → ∀ r, hexStr k n ≠ '0' :: r) := by
  have one : ∀ {n}, n < 16 → HexNumber [hexDigit n] n := fun {n} h => ⟨n, 0, rfl, by simp, hex_place h⟩
  have zero : ∀ {n}, n < 16 → n ≠ 0 → hexDigit n ≠ '0' := by
    intro n h
    match n, h with
    | 0, _ => exact fun h => absurd rfl h
    | 1, _ | 2, _ | 3, _ | 4, _ | 5, _ | 6, _ | 7, _ | 8, _ | 9, _ | 10, _ | 11, _ | 12, _ | 13, _ | 14, _ | 15, _ => intro _; decide
    | n + 16, h => omega
  intro k
  induction k with
  | zero =>
    intro n h
    have hn : n < 16 := by simpa using h
    have e : hexStr 0 n = [hexDigit n] := by rw [hexStr, Nat.mod_eq_of_lt hn]
    rw [e]
    exact ⟨one hn, by simp, fun h0 r he => zero hn h0 (List.cons.inj he).1⟩
  | succ k ih =>
    intro n h
    unfold hexStr
    split
    · next hn => exact ⟨one hn, by simp, fun h0 r he => zero hn h0 (List.cons.inj he).1⟩
    · next hn =>
      have h1 : n / 16 < 16 ^ (k + 1) := by
        rw [Nat.pow_succ] at h
        exact Nat.div_lt_of_lt_mul (by rw [Nat.mul_comm]; exact h)
      obtain ⟨a, b, c⟩ := ih _ h1
      refine ⟨?_, by simp, fun _ r he => ?_⟩
      · have := HexNumber.snoc (hex_place (Nat.mod_lt n (by decide : 0 < 16))) a
        rwa [show n / 16 * 16 + n % 16 = n by omega] at this
      · cases hs : hexStr k (n / 16) with
        | nil => exact b hs
        | cons x t =>
          rw [hs] at he
          have := (List.cons.inj he).1
          exact c (by omega) t (by rw [hs, this])

theorem char_toNat_lt (c : Char) : c.toNat < 16 ^ 6 := by
  have := c.valid
  have h : c.toNat < 1114112 := by
    unfold Char.toNat
    rcases this with h | h
    · have : c.val.toNat < 55296 := h
      omega
    · exact h.2
  exact Nat.lt_of_lt_of_le h (by decide)

theorem char_le_toNat {a b : Char} : a ≤ b ↔ a.toNat ≤ b.toNat := by
  rw [Char.le_def, UInt32.le_iff_toNat_le]; rfl

theorem char_lt_toNat {a b : Char} : a < b ↔ a.toNat < b.toNat := by
  rw [Char.lt_def, UInt32.lt_iff_toNat_lt]; rfl

section
variable [DebugChars]
set_option linter.unusedSectionVars false

theorem quoted_char (q c : Char) (hq : c ≠ q) : Quoted q c (debugChar c) := by
  unfold debugChar
  split
  · next e => subst e; exact .nul
  split
  · next e => subst e; exact .tab
  split
  · next e => subst e; exact .cr
  split
  · next e => subst e; exact .lf
  split
  · next e => subst e; exact .backslash
  next h0 ht hr hn hb =>
  have z : c.toNat ≠ 0 := fun e => h0 (Char.toNat_inj.1 (by rw [e]; rfl))
  split
  · next h =>
    refine .plain hq hb ?_
    rcases h with ⟨h1, h2⟩ | ⟨h1, h2⟩
    · exact .inl ⟨char_le_toNat.2 h1, char_le_toNat.2 (by show c.toNat ≤ 126; omega)⟩
    · exact .inr ⟨char_lt_toNat.2 h1, h2⟩
  · next h =>
    obtain ⟨a, b, d⟩ := hexStr_number 5 c.toNat (char_toNat_lt c)
    unfold unicodeEscape
    refine .code ?_ ?_ h0 ht hr hn b a (d z)
    · rintro ⟨h1, h2⟩
      have h1 : 32 ≤ c.toNat := char_le_toNat.1 h1
      have h2 : c.toNat ≤ 126 := char_le_toNat.1 h2
      exact h (.inl ⟨h1, by omega⟩)
    · by_cases hc : c ≤ '\x7f'
      · exact .inl hc
      · refine .inr ?_
        have hc : 127 < c.toNat := Nat.lt_of_not_le fun hle => hc (char_le_toNat.2 hle)
        cases hp : DebugChars.printable c with
        | false => rfl
        | true => exact absurd (.inr ⟨hc, hp⟩) h

theorem hexNumber_unique : ∀ {s t : Str} {m n : Nat}, HexNumber s m → HexNumber t n → s.length = t.length → m = n → s = t := by
  intro s
  have bound : ∀ {s : Str} {m}, HexNumber s m → m < 16 ^ s.length := by
    intro s
    induction s with
    | nil => intro m h; cases h; decide
    | cons c s ih =>
      rintro m ⟨d, k, h1, rfl, h2⟩
      have := ih h1
      have hd : d < 16 := by
        rcases Nat.lt_or_ge d 16 with h | h
        · exact h
        · rw [List.getElem?_eq_none (by simpa using h)] at h2; cases h2
      rw [List.length_cons, Nat.pow_succ]
      have : (d + 1) * 16 ^ s.length ≤ 16 * 16 ^ s.length := Nat.mul_le_mul_right _ (by omega)
      rw [Nat.add_mul] at this
      omega
  induction s with
  | nil =>
    intro t m n _ _ hl _
    cases t with
    | nil => rfl
    | cons => simp at hl
  | cons c s ih =>
    intro t m n h1 h2 hl he
    cases t with
    | nil => simp at hl
    | cons x t =>
      obtain ⟨d, k, a1, rfl, a2⟩ := h1
      obtain ⟨d', k', b1, rfl, b2⟩ := h2
      have hl : s.length = t.length := by simpa using hl
      have p := bound a1
      have p' := bound b1
      rw [hl] at he p
      have hk : k = k' := by
        have := congrArg (· % 16 ^ t.length) he
        simp only [Nat.add_comm (_ * _), Nat.add_mul_mod_self_right] at this
        rwa [Nat.mod_eq_of_lt p, Nat.mod_eq_of_lt p'] at this
      subst hk
      have hd : d = d' := by
        have : d * 16 ^ t.length = d' * 16 ^ t.length := by omega
        exact Nat.eq_of_mul_eq_mul_right (Nat.pow_pos (by decide)) this
      subst hd
      rw [a2] at b2
      rw [Option.some.inj b2, ih a1 b1 hl rfl]

theorem quotedAll_debug (s : Str) : QuotedAll '"' s (s.flatMap fun c => if c = '"' then c!"\\\"" else debugChar c) := by
  induction s with
  | nil => exact .nil
  | cons c s ih =>
    rw [List.flatMap_cons]
    refine .cons ?_ ih
    split
    · next e => subst e; exact .quote
    · next e => exact quoted_char _ c e

/-- Each character has one form only. -/
theorem quoted_once {q c : Char} {t : Str} (hq : q = '"' ∨ q = '\'') (h : Quoted q c t) : t = if c = q then ['\\', q] else debugChar c := by
  cases h with
  | quote => rw [if_pos rfl]
  | nul => rw [if_neg (by rcases hq with rfl | rfl <;> decide)]; rfl
  | tab => rw [if_neg (by rcases hq with rfl | rfl <;> decide)]; rfl
  | cr => rw [if_neg (by rcases hq with rfl | rfl <;> decide)]; rfl
  | lf => rw [if_neg (by rcases hq with rfl | rfl <;> decide)]; rfl
  | backslash => rw [if_neg (by rcases hq with rfl | rfl <;> decide)]; rfl
  | plain h1 h2 h3 =>
    rw [if_neg h1]
    have h3' : 32 ≤ c.toNat ∧ c.toNat < 127 ∨ 127 < c.toNat ∧ DebugChars.printable c = true := by
      rcases h3 with ⟨a, b⟩ | ⟨a, b⟩
      · have a : 32 ≤ c.toNat := char_le_toNat.1 a
        have b : c.toNat ≤ 126 := char_le_toNat.1 b
        exact .inl ⟨a, by omega⟩
      · exact .inr ⟨char_lt_toNat.1 a, b⟩
    have big : 32 ≤ c.toNat := by omega
    have ne : ∀ {x : Char}, x.toNat < 32 → c ≠ x := by rintro x hx rfl; omega
    unfold debugChar
    rw [if_neg (ne (by decide)), if_neg (ne (by decide)), if_neg (ne (by decide)), if_neg (ne (by decide)), if_neg h2, if_pos h3']
  | @code _ h h1 h2 h3 h4 h5 h6 h7 h8 h9 =>
    have hqp : ' ' ≤ q ∧ q ≤ '~' := by rcases hq with rfl | rfl <;> decide
    have hbp : ' ' ≤ '\\' ∧ '\\' ≤ '~' := by decide
    rw [if_neg (by rintro rfl; exact h1 hqp)]
    unfold debugChar
    rw [if_neg h3, if_neg h4, if_neg h5, if_neg h6, if_neg (by rintro rfl; exact h1 hbp)]
    rw [if_neg]
    · obtain ⟨a, b, d⟩ := hexStr_number 5 c.toNat (char_toNat_lt c)
      have z : c.toNat ≠ 0 := fun e => h3 (Char.toNat_inj.1 (by rw [e]; rfl))
      have len : ∀ {s t : Str} {n : Nat}, HexNumber s n → (∀ r, s ≠ '0' :: r) → s ≠ [] → HexNumber t n → s.length ≤ t.length := by
        intro s t n hs hz hne ht
        cases s with
        | nil => exact absurd rfl hne
        | cons x s =>
          obtain ⟨dd, m, _, rfl, e⟩ := hs
          have hd : dd ≠ 0 := by
            rintro rfl
            have : x = '0' := (Option.some.inj e).symm
            exact hz s (by rw [this])
          have lb : ∀ {t : Str} {n}, HexNumber t n → n < 16 ^ t.length := by
            intro t
            induction t with
            | nil => intro m h; cases h; decide
            | cons c s ih =>
              rintro m ⟨d, k, h1, rfl, h2⟩
              have := ih h1
              have hd : d < 16 := by
                rcases Nat.lt_or_ge d 16 with h | h
                · exact h
                · rw [List.getElem?_eq_none (by simpa using h)] at h2; cases h2
              rw [List.length_cons, Nat.pow_succ]
              have : (d + 1) * 16 ^ s.length ≤ 16 * 16 ^ s.length := Nat.mul_le_mul_right _ (by omega)
              rw [Nat.add_mul] at this
              omega
          have h2 := lb ht
          have : 1 * 16 ^ s.length ≤ dd * 16 ^ s.length := Nat.mul_le_mul_right _ (by omega)
          have h3 : 16 ^ s.length < 16 ^ t.length := by omega
          exact (Nat.pow_lt_pow_iff_right (by decide)).1 h3
      have hl : h.length = (hexStr 5 c.toNat).length := Nat.le_antisymm (len h8 h9 h7 a) (len a (d z) b h8)
      rw [hexNumber_unique h8 a hl rfl]
      rfl
    · rintro (⟨a, b⟩ | ⟨a, b⟩)
      · exact h1 ⟨char_le_toNat.2 a, char_le_toNat.2 (by show c.toNat ≤ 126; omega)⟩
      · rcases h2 with h2 | h2
        · have : c.toNat ≤ 127 := char_le_toNat.1 h2
          omega
        · rw [h2] at b; cases b

/-- **C96**: a text is shown in double quotes, with escapes for the characters that would not be seen or would end it, and the others as they are. -/
theorem C96_quoted (s t : Str) : debugStr s = t ↔ QuotedText s t := by
  constructor
  · rintro rfl; exact ⟨_, quotedAll_debug s, rfl⟩
  · rintro ⟨u, hu, rfl⟩
    have : u = s.flatMap fun c => if c = '"' then c!"\\\"" else debugChar c := by
      induction hu with
      | nil => rfl
      | cons h _ ih => rw [List.flatMap_cons, ← ih, quoted_once (.inl rfl) h]
    rw [this]
    rfl

end

/-! ## Examples -/

section
local instance : DebugChars := ⟨fun c => c = 'é'⟩
example : debugStr c!"a\"b'\\\r\n\x7fé\u200b\x00" = c!"\"a\\\"b'\\\\\\r\\n\\u{7f}é\\u{200b}\\0\"" := by decide +kernel
end

end Ikal
