import Verif.Props.Text
import Verif.Lemmas.Fold
import Verif.Lemmas.Num
import Verif.Lemmas.Frame
import Verif.Spec.Output

/-! # Lemmas on the text that is written -/

namespace Ikal

open Spec

theorem Res.map_ok_iff {α β : Type} {x : Res α} {f : α → β} {b : β} : x.map f = .ok b ↔ ∃ a, x = .ok a ∧ f a = b := by
  cases x <;> simp [Res.map]

theorem join_eq_joinWith (sep : Str) (l : List Str) : join sep l = joinWith sep l := by
  induction l with
  | nil => rfl
  | cons a l ih =>
    cases l with
    | nil => rfl
    | cons b l => simp only [join, joinWith, ih]

/-! ## Numbers -/

theorem digits_eq_of_val {s t : Str} (hs : ∀ c ∈ s, c.isDigit = true) (ht : ∀ c ∈ t, c.isDigit = true) (hl : s.length = t.length)
    (hv : digitsVal s = digitsVal t) : s = t := by
  induction s generalizing t with
  | nil => exact (List.length_eq_zero_iff.1 hl.symm).symm
  | cons a s ih =>
    cases t with
    | nil => simp at hl
    | cons b t =>
      have hl' : s.length = t.length := by simpa using hl
      have ha := hs a (by simp)
      have hb := ht b (by simp)
      have h1 := digitsVal_lt s fun c h => hs c (by simp [h])
      have h2 := digitsVal_lt t fun c h => ht c (by simp [h])
      rw [digitsVal_cons, digitsVal_cons, hl'] at hv
      rw [hl'] at h1
      have h3 : digitVal a = digitVal b := by
        have e1 : (digitVal a * 10 ^ t.length + digitsVal s) / 10 ^ t.length = digitVal a := by
          rw [Nat.mul_comm, Nat.mul_add_div (by omega), Nat.div_eq_of_lt h1]; omega
        have e2 : (digitVal b * 10 ^ t.length + digitsVal t) / 10 ^ t.length = digitVal b := by
          rw [Nat.mul_comm, Nat.mul_add_div (by omega), Nat.div_eq_of_lt h2]; omega
        rw [← e1, ← e2, hv]
      have h4 : a = b := by
        have ea := isDigit_iff.1 ha
        have eb := isDigit_iff.1 hb
        have ea1 : 48 ≤ a.toNat := ea.1
        have eb1 : 48 ≤ b.toNat := eb.1
        unfold digitVal at h3
        exact Char.toNat_inj.1 (by omega)
      rw [h4, ih (fun c h => hs c (by simp [h])) (fun c h => ht c (by simp [h])) hl' (by rw [h3] at hv; omega)]

theorem fixedText_iff {k n : Nat} {p s : Str} (hp : ∀ c ∈ p, c.isDigit = true) (hl : p.length = k) (hk : 0 < k) (hv : digitsVal p = n) :
    FixedText k s n ↔ s = p := by
  constructor
  · rintro ⟨h1, h2, h3⟩
    exact digits_eq_of_val (Digits_iff.1 h2).2 hp (by omega) (by rw [digitsVal_eq_decimal, h3, hv])
  · rintro rfl
    exact ⟨hl, Digits_iff.2 ⟨by rintro rfl; simp at hl; omega, hp⟩, by rw [← digitsVal_eq_decimal, hv]⟩

theorem fixed2_iff {n : Nat} (h : n < 100) {s : Str} : FixedText 2 s n ↔ s = pad2 n :=
  fixedText_iff (pad2_digits n) rfl (by omega) (digitsVal_pad2 h)

theorem fixed4_iff {n : Nat} (h : n < 10000) {s : Str} : FixedText 4 s n ↔ s = pad4 n :=
  fixedText_iff (pad4_digits n) rfl (by omega) (digitsVal_pad4 h)

theorem natStrGo_head (f n : Nat) (h : n < f) (h0 : (natStrGo f n).head? = some '0') : natStrGo f n = ['0'] := by
  induction f generalizing n with
  | zero => omega
  | succ f ih =>
    unfold natStrGo at h0 ⊢
    split at h0
    · next h1 =>
      rw [if_pos h1]
      simp at h0
      rw [h0]
    · next h1 =>
      have hne := (natStrGo_spec f (n / 10) (by omega)).2
      rw [List.head?_append, List.head?_eq_some_head hne.1] at h0
      simp only [Option.some_or] at h0
      rw [← List.head?_eq_some_head hne.1] at h0
      have := ih (n / 10) (by omega) h0
      have hv := hne.2
      rw [this] at hv
      have : digitsVal ['0'] = 0 := by decide
      omega

theorem numberText_natStr (n : Nat) : NumberText (natStr n) n :=
  ⟨natStr_isDigits n, decimal_natStr n, natStrGo_head _ _ (by omega)⟩

theorem NumberText.pow_le {s : Str} {n : Nat} (h : NumberText s n) (h0 : s ≠ ['0']) : 10 ^ (s.length - 1) ≤ n := by
  obtain ⟨h1, h2, h3⟩ := h
  cases s with
  | nil => exact absurd rfl h1.1
  | cons c s =>
    have hd := (Digits_iff.1 h1).2 c (by simp)
    have hc : c ≠ '0' := fun e => h0 (h3 (by rw [e]; rfl))
    have : 1 ≤ digitVal c := by
      have e := (isDigit_iff.1 hd).1
      have e1 : 48 ≤ c.toNat := e
      have : c.toNat ≠ 48 := fun e => hc (Char.toNat_inj.1 e)
      unfold digitVal; omega
    rw [← h2, ← digitsVal_eq_decimal, digitsVal_cons]
    have := Nat.mul_le_mul_right (10 ^ s.length) this
    simp
    omega

theorem NumberText.length_eq {s t : Str} {n : Nat} (hs : NumberText s n) (ht : NumberText t n) : s.length ≤ t.length := by
  by_cases h0 : s = ['0']
  · have := ht.1.1
    rw [h0]
    have : 0 < t.length := List.length_pos_iff.2 this
    simp only [List.length_cons, List.length_nil]
    omega
  · have h1 := NumberText.pow_le hs h0
    have h2 := digitsVal_lt t (Digits_iff.1 ht.1).2
    rw [digitsVal_eq_decimal, ht.2.1] at h2
    have := (Nat.pow_lt_pow_iff_right (a := 10) (by omega)).1 (Nat.lt_of_le_of_lt h1 h2)
    omega

theorem numberText_iff {s : Str} {n : Nat} : NumberText s n ↔ s = natStr n := by
  constructor
  · intro h
    have h' := numberText_natStr n
    exact digits_eq_of_val (Digits_iff.1 h.1).2 (natStr_digits n) (Nat.le_antisymm (NumberText.length_eq h h') (NumberText.length_eq h' h))
      (by rw [digitsVal_eq_decimal, h.2.1, digitsVal_natStr])
  · rintro rfl
    exact numberText_natStr n

theorem signedText_iff {s : Str} {n : Int} : SignedText s n ↔ s = intStr n := by
  unfold SignedText intStr
  by_cases h : n < 0
  · rw [if_pos h]
    constructor
    · rintro (h' | ⟨_, t, rfl, ht⟩)
      · omega
      · rw [numberText_iff.1 ht]
    · rintro rfl
      exact .inr ⟨h, _, rfl, numberText_natStr _⟩
  · rw [if_neg h]
    constructor
    · rintro (h' | h')
      · exact numberText_iff.1 h'.2
      · omega
    · rintro rfl
      exact .inl ⟨by omega, numberText_natStr _⟩

/-! ## Dates and times -/

theorem yearText_iff {s : Str} {y : Int} : YearText s y ↔ s = yearStr y := by
  unfold YearText yearStr
  by_cases h : 0 ≤ y ∧ y ≤ 9999
  · rw [if_pos h]
    have e : y.natAbs = y.toNat := by omega
    rw [e]
    constructor
    · rintro (⟨_, _, h'⟩ | ⟨_, _, _, h', _⟩)
      · exact (fixed4_iff (by omega)).1 h'
      · omega
    · intro h'
      exact .inl ⟨h.1, h.2, (fixed4_iff (by omega)).2 h'⟩
  · rw [if_neg h]
    simp only []
    constructor
    · rintro (h' | ⟨sign, ds, rfl, hs, hd⟩)
      · exact absurd ⟨h'.1, h'.2.1⟩ h
      · have e1 : sign = if y < 0 then '-' else '+' := by
          rcases hs with ⟨rfl, h1⟩ | ⟨rfl, h1⟩
          · rw [if_pos h1]
          · rw [if_neg (by omega)]
        have e2 : ds = if y.natAbs ≤ 9999 then pad4 y.natAbs else natStr y.natAbs := by
          rcases hd with ⟨h1, h2⟩ | ⟨h1, h2⟩
          · rw [if_pos h1]; exact (fixed4_iff (by omega)).1 h2
          · rw [if_neg (by omega)]; exact numberText_iff.1 h2
        rw [e1, e2]
    · rintro rfl
      refine .inr ⟨_, _, rfl, ?_, ?_⟩
      · by_cases h1 : y < 0
        · rw [if_pos h1]; exact .inl ⟨rfl, h1⟩
        · rw [if_neg h1]; exact .inr ⟨rfl, by omega⟩
      · by_cases h1 : y.natAbs ≤ 9999
        · rw [if_pos h1]; exact .inl ⟨h1, (fixed4_iff (by omega)).2 rfl⟩
        · rw [if_neg h1]; exact .inr ⟨by omega, numberText_natStr _⟩

theorem anyDateText_iff {s : Str} {d : NaiveDate} (h : RealDate d) : AnyDateText s d ↔ s = d.toStr := by
  have hm : d.month < 100 := by have := h; unfold RealDate at this; omega
  have hd : d.day < 100 := by
    have := h.2.2.2
    have : monthLength d.year d.month ≤ 31 := by unfold monthLength; split <;> (try split) <;> omega
    omega
  constructor
  · rintro ⟨y, m, a, rfl, h1, h2, h3⟩
    rw [yearText_iff.1 h1, (fixed2_iff hm).1 h2, (fixed2_iff hd).1 h3]
    rfl
  · rintro rfl
    exact ⟨_, _, _, rfl, yearText_iff.2 rfl, (fixed2_iff hm).2 rfl, (fixed2_iff hd).2 rfl⟩

theorem anyTimeText_iff {s : Str} {t : NaiveDateTime} (h : AnySecond t) : AnyTimeText s t ↔ s = t.toStr := by
  obtain ⟨hd, hs, hf⟩ := h
  have e : t.secs / 60 % 60 = t.secs % 3600 / 60 := by omega
  have e2 : t.secs % 60 + t.frac / 1000000000 = if t.frac < 1000000000 then t.secs % 60 else t.secs % 60 + 1 := by split <;> omega
  have hx : ∀ x, (t.frac < 1000000000 ∧ FixedText 2 x (t.secs % 60) ∨ 1000000000 ≤ t.frac ∧ FixedText 2 x (t.secs % 60 + 1)) ↔
      x = pad2 (t.secs % 60 + t.frac / 1000000000) := by
    intro x
    rw [e2]
    split
    · next h =>
      rw [← fixed2_iff (by omega)]
      constructor
      · rintro (h' | h')
        · exact h'.2
        · omega
      · exact fun h' => .inl ⟨h, h'⟩
    · next h =>
      rw [← fixed2_iff (by omega)]
      constructor
      · rintro (h' | h')
        · omega
        · exact h'.2
      · exact fun h' => .inr ⟨by omega, h'⟩
  constructor
  · rintro ⟨ds, h, m, x, rfl, h1, h2, h3, h4⟩
    rw [(anyDateText_iff hd).1 h1, (fixed2_iff (by omega)).1 h2, (fixed2_iff (by omega)).1 h3, (hx x).1 h4, ← e]
    rfl
  · rintro rfl
    refine ⟨_, _, _, _, rfl, (anyDateText_iff hd).2 rfl, (fixed2_iff (by omega)).2 rfl, (fixed2_iff (by omega)).2 ?_, (hx _).2 rfl⟩
    rw [e]

theorem strip_zeros (r : Str) : digitsVal r.reverse = digitsVal (r.dropWhile (· = '0')).reverse * 10 ^ (r.length - (r.dropWhile (· = '0')).length) := by
  induction r with
  | nil => rfl
  | cons c r ih =>
    by_cases h : c = '0'
    · subst h
      have hle : (r.dropWhile (· = '0')).length ≤ r.length := (List.dropWhile_suffix _).length_le
      have e : (('0' :: r).dropWhile (· = '0')) = r.dropWhile (· = '0') := by simp [List.dropWhile_cons]
      rw [e, List.reverse_cons, digitsVal_concat, ih, List.length_cons, show r.length + 1 - (r.dropWhile (· = '0')).length =
        r.length - (r.dropWhile (· = '0')).length + 1 by omega, Nat.pow_succ]
      have : digitVal '0' = 0 := by decide
      rw [this, Nat.mul_assoc]
      rfl
    · have e : ((c :: r).dropWhile (· = '0')) = c :: r := by simp [List.dropWhile_cons, h]
      rw [e]
      simp

theorem fracDigits_spec {n : Nat} (h : n < 1000000000) :
    (∀ c ∈ TimeDelta.fracDigits n, c.isDigit = true) ∧ (TimeDelta.fracDigits n).length ≤ 9 ∧ (TimeDelta.fracDigits n).getLast? ≠ some '0' ∧
      digitsVal (TimeDelta.fracDigits n) * 10 ^ (9 - (TimeDelta.fracDigits n).length) = n := by
  have key : ∀ ds : Str, (∀ c ∈ ds, c.isDigit = true) → ds.length = 9 →
      let fr := (ds.reverse.dropWhile (· = '0')).reverse
      (∀ c ∈ fr, c.isDigit = true) ∧ fr.length ≤ 9 ∧ fr.getLast? ≠ some '0' ∧ digitsVal fr * 10 ^ (9 - fr.length) = digitsVal ds := by
    intro ds hd hl
    refine ⟨?_, ?_, ?_, ?_⟩
    · intro c hc
      exact hd c (List.mem_reverse.1 ((List.dropWhile_suffix _).subset (List.mem_reverse.1 hc)))
    · rw [List.length_reverse]
      have := (List.dropWhile_suffix (· = '0') (l := ds.reverse)).length_le
      simp at this
      omega
    · rw [List.getLast?_reverse]
      intro e
      have := List.head?_dropWhile_not (fun c : Char => decide (c = '0')) ds.reverse
      rw [e] at this
      simp at this
    · have := strip_zeros ds.reverse
      rw [List.reverse_reverse, List.length_reverse, hl] at this
      rw [this, List.length_reverse]
  have hk := key [digitChar (n / 100000000 % 10), digitChar (n / 10000000 % 10), digitChar (n / 1000000 % 10),
    digitChar (n / 100000 % 10), digitChar (n / 10000 % 10), digitChar (n / 1000 % 10),
    digitChar (n / 100 % 10), digitChar (n / 10 % 10), digitChar (n % 10)] (by
      intro c hc
      simp only [List.mem_cons, List.not_mem_nil, or_false] at hc
      rcases hc with h | h | h | h | h | h | h | h | h <;> (rw [h]; exact digitChar_isDigit (Nat.mod_lt _ (by omega)))) rfl
  refine ⟨hk.1, hk.2.1, hk.2.2.1, hk.2.2.2.trans ?_⟩
  simp only [digitsVal_cons, digitsVal_nil, List.length_cons, List.length_nil, digitVal_digitChar (Nat.mod_lt _ (show 0 < 10 by omega))]
  omega

theorem getLast_strip {ds : Str} (hl : ds.getLast? ≠ some '0') : ds.reverse.dropWhile (· = '0') = ds.reverse := by
  cases h : ds.reverse with
  | nil => rfl
  | cons c r =>
    have : ds.getLast? = some c := by rw [← List.head?_reverse, h]; rfl
    have hc : c ≠ '0' := fun e => hl (by rw [this, e])
    simp [List.dropWhile_cons, hc]

/-- Decimals without trailing zeros are determined by their value. -/
theorem decimals_unique {a b : Str} (ha : ∀ c ∈ a, c.isDigit = true) (hb : ∀ c ∈ b, c.isDigit = true) (la : a.length ≤ 9) (lb : b.length ≤ 9)
    (za : a.getLast? ≠ some '0') (zb : b.getLast? ≠ some '0')
    (hv : digitsVal a * 10 ^ (9 - a.length) = digitsVal b * 10 ^ (9 - b.length)) : a = b := by
  have pad : ∀ (s : Str) (k : Nat), (∀ c ∈ s, c.isDigit = true) → (∀ c ∈ s ++ List.replicate k '0', c.isDigit = true) ∧
      digitsVal (s ++ List.replicate k '0') = digitsVal s * 10 ^ k := by
    intro s k hs
    refine ⟨?_, ?_⟩
    · intro c hc
      rcases List.mem_append.1 hc with h | h
      · exact hs c h
      · rw [(List.mem_replicate.1 h).2]; decide
    · rw [digitsVal_append, List.length_replicate]
      have : digitsVal (List.replicate k '0') = 0 := by
        induction k with
        | zero => rfl
        | succ k ih => rw [List.replicate_succ, digitsVal_cons, ih, show digitVal '0' = 0 by decide]; simp
      omega
  have e := digits_eq_of_val (pad a (9 - a.length) ha).1 (pad b (9 - b.length) hb).1 (by simp; omega)
    (by rw [(pad a _ ha).2, (pad b _ hb).2, hv])
  have strip : ∀ (s : Str) (k : Nat), s.getLast? ≠ some '0' → ((s ++ List.replicate k '0').reverse.dropWhile (· = '0')).reverse = s := by
    intro s k hs
    rw [List.reverse_append, List.reverse_replicate]
    induction k with
    | zero => simp [getLast_strip hs]
    | succ k ih => rw [List.replicate_succ, List.cons_append, List.dropWhile_cons]; simpa using ih
  have h1 := strip a (9 - a.length) za
  have h2 := strip b (9 - b.length) zb
  rw [← h1, ← h2, e]

theorem durationOut_iff {s : Str} {d : TimeDelta} : DurationOut s d ↔ s = d.toStr := by
  unfold DurationOut TimeDelta.toStr
  simp only []
  by_cases h0 : d.nanos = 0
  · rw [if_pos (by omega)]
    constructor
    · rintro (h | h)
      · exact h.2
      · exact absurd h0 h.1
    · exact fun h => .inl ⟨h0, h⟩
  · rw [if_neg (by omega)]
    have hlt : d.nanos.natAbs % 1000000000 < 1000000000 := Nat.mod_lt _ (by omega)
    obtain ⟨f1, f2, f3, f4⟩ := fracDigits_spec hlt
    constructor
    · rintro (h | ⟨_, sign, n, f, rfl, hs, hn, hf⟩)
      · exact absurd h.1 h0
      · have e1 : sign = if d.nanos < 0 then ['-'] else [] := by
          rcases hs with ⟨h, rfl⟩ | ⟨h, rfl⟩
          · rw [if_neg (by omega)]
          · rw [if_pos h]
        have e2 : f = if d.nanos.natAbs % 1000000000 = 0 then [] else '.' :: TimeDelta.fracDigits (d.nanos.natAbs % 1000000000) := by
          rcases hf with ⟨h, rfl⟩ | ⟨ds, rfl, g1, g2, g3, g4⟩
          · rw [if_pos h]
          · have hne : d.nanos.natAbs % 1000000000 ≠ 0 := by
              intro hz
              rw [hz] at g4
              have hz' : decimal ds = 0 := by
                rcases Nat.mul_eq_zero.1 g4 with h | h
                · exact h
                · have := Nat.pow_pos (n := 9 - ds.length) (show 0 < 10 by omega); omega
              have := decimals_unique (a := ds) (b := []) (Digits_iff.1 g1).2 (by simp) g2 (by simp) g3 (by simp)
                (by rw [digitsVal_eq_decimal, hz']; simp)
              exact g1.1 this
            rw [if_neg hne, decimals_unique (Digits_iff.1 g1).2 f1 g2 f2 g3 f3 (by rw [digitsVal_eq_decimal, g4, f4])]
        rw [e1, e2, numberText_iff.1 hn]
    · rintro rfl
      refine .inr ⟨h0, _, _, _, rfl, ?_, numberText_natStr _, ?_⟩
      · by_cases h : d.nanos < 0
        · rw [if_pos h]; exact .inr ⟨h, rfl⟩
        · rw [if_neg h]; exact .inl ⟨by omega, rfl⟩
      · by_cases h : d.nanos.natAbs % 1000000000 = 0
        · rw [if_pos h]; exact .inl ⟨h, rfl⟩
        · rw [if_neg h]
          refine .inr ⟨_, rfl, Digits_iff.2 ⟨?_, f1⟩, f2, f3, by rw [← digitsVal_eq_decimal, f4]⟩
          intro e
          rw [e] at f4
          simp at f4
          omega

theorem offsetOut_iff {s : Str} {o : FixedOffset} (h : o.Valid) : OffsetOut s o ↔ s = o.toStr := by
  obtain ⟨h1, h2⟩ := h
  unfold OffsetOut FixedOffset.toStr
  simp only []
  have e1 : o.secs.natAbs / 60 / 60 = o.secs.natAbs / 3600 := by omega
  have e2 : o.secs.natAbs / 60 % 60 = o.secs.natAbs % 3600 / 60 := by omega
  rw [e1, e2]
  constructor
  · rintro ⟨sign, h, m, x, rfl, hs, hh, hm, hx⟩
    have es : sign = if o.secs < 0 then '-' else '+' := by
      rcases hs with ⟨h, rfl⟩ | ⟨h, rfl⟩
      · rw [if_pos h]
      · rw [if_neg (by omega)]
    rw [(fixed2_iff (by omega)).1 hh, (fixed2_iff (by omega)).1 hm, es]
    rcases hx with ⟨h, rfl⟩ | ⟨h, hx⟩
    · rw [if_pos h, List.append_nil]
    · rw [if_neg h, (fixed2_iff (by omega)).1 hx]
  · rintro rfl
    have hs : (o.secs < 0 ∧ (if o.secs < 0 then '-' else '+') = '-' ∨ 0 ≤ o.secs ∧ (if o.secs < 0 then '-' else '+') = '+') := by
      by_cases h : o.secs < 0
      · exact .inl ⟨h, if_pos h⟩
      · exact .inr ⟨by omega, if_neg h⟩
    by_cases h : o.secs.natAbs % 60 = 0
    · rw [if_pos h]
      exact ⟨_, _, _, [], by rw [List.append_nil], hs, (fixed2_iff (by omega)).2 rfl, (fixed2_iff (by omega)).2 rfl, .inl ⟨h, rfl⟩⟩
    · rw [if_neg h]
      exact ⟨_, _, _, _, rfl, hs, (fixed2_iff (by omega)).2 rfl, (fixed2_iff (by omega)).2 rfl, .inr ⟨h, (fixed2_iff (by omega)).2 rfl⟩⟩

/-! ## Folding -/

theorem splitGo_of_chunks {n : Nat} (hn : 0 < n) {s : Str} {cs : List Str} (h : Chunks n s cs) {f : Nat} (hf : s.length ≤ f) :
    splitGo n f s = .ok cs := by
  induction h generalizing f with
  | nil => cases f <;> rfl
  | @last s hs hl =>
    cases s with
    | nil => exact absurd rfl hs
    | cons c r =>
      cases f with
      | zero => simp at hf
      | succ f =>
        have : splitAtBytes (min n (byteLen (c :: r))) (c :: r) = some (c :: r, []) :=
          splitAtBytes_some.2 ⟨by simp, by omega⟩
        simp only [splitGo, this]
        cases f <;> rfl
  | @cons a b cs ha hb h ih =>
    have hne : a ≠ [] := by rintro rfl; simp at ha; omega
    cases a with
    | nil => exact absurd rfl hne
    | cons c a =>
      cases f with
      | zero => simp at hf
      | succ f =>
        have : splitAtBytes (min n (byteLen (c :: (a ++ b)))) (c :: (a ++ b)) = some (c :: a, b) :=
          splitAtBytes_some.2 ⟨by simp, by
            have : byteLen (c :: (a ++ b)) = byteLen (c :: a) + byteLen b := by rw [← byteLen_append]; rfl
            omega⟩
        simp only [List.cons_append, splitGo, this]
        rw [ih (by simp at hf; omega)]
        rfl

theorem chunks_iff {n : Nat} {s : Str} (hs : s ≠ []) {cs : List Str} :
    Chunks n s cs ↔ ∃ pieces last, s = pieces.flatten ++ last ∧ (∀ p ∈ pieces, byteLen p = n) ∧ last ≠ [] ∧ byteLen last ≤ n ∧
      cs = pieces ++ [last] := by
  constructor
  · intro h
    induction h with
    | nil => exact absurd rfl hs
    | @last s h1 h2 => exact ⟨[], s, by simp, by simp, h1, h2, rfl⟩
    | @cons a b cs ha hb _ ih =>
      obtain ⟨ps, l, h1, h2, h3, h4, h5⟩ := ih hb
      exact ⟨a :: ps, l, by simp [h1], by simpa using ⟨ha, h2⟩, h3, h4, by simp [h5]⟩
  · rintro ⟨ps, l, rfl, h2, h3, h4, rfl⟩
    clear hs
    induction ps with
    | nil => exact .last h3 h4
    | cons p ps ih =>
      rw [List.flatten_cons, List.append_assoc]
      exact .cons (h2 p (by simp)) (by simp [h3]) (ih fun q hq => h2 q (by simp [hq]))

theorem fold_iff {s out : Str} : fold s = .ok out ↔ FoldedAs s out := by
  unfold fold FoldedAs
  by_cases h : byteLen s > 75
  · rw [if_pos h]
    have hne : s ≠ [] := by rintro rfl; simp at h
    constructor
    · intro e
      obtain ⟨cs, e1, e2⟩ := Res.map_ok_iff.1 e
      have hc := splitGo_ok (by omega) (Nat.le_refl _) e1
      obtain ⟨ps, l, h1, h2, h3, h4, rfl⟩ := (chunks_iff hne).1 hc
      exact .inr ⟨h, ps, l, h1, h2, h3, h4, by rw [← e2, join_eq_joinWith]⟩
    · rintro (⟨h', _⟩ | ⟨_, ps, l, h1, h2, h3, h4, rfl⟩)
      · omega
      · have := splitGo_of_chunks (by omega) ((chunks_iff hne).2 ⟨ps, l, h1, h2, h3, h4, rfl⟩) (Nat.le_refl _)
        unfold split
        rw [this, ← join_eq_joinWith]
        rfl
  · rw [if_neg h]
    constructor
    · intro e
      cases e
      exact .inl ⟨by omega, rfl⟩
    · rintro (⟨_, rfl⟩ | ⟨h', _⟩)
      · rfl
      · omega

/-! ## Lines -/

theorem escapedAs_iff {s o : Str} : EscapedAs s o ↔ o = escape s :=
  ⟨fun h => h.unique (escapedAs_escape s), fun h => h ▸ escapedAs_escape s⟩

/-- A type whose values are written in the form `F` on a property line. -/
structure IsForm (α : Type) (s : Ser α) (F : Form α) : Prop where
  notComp : s.isComponent = false
  form : ∀ v ps t, F v ps t ↔ s.attr v = ps ∧ s.ical v = .ok t

theorem field_line {name : Str} {ps : Option Str} {t out : Str} :
    fold (if t.isEmpty then [] else name ++ (match ps with | some a => ';' :: a | none => []) ++ ':' :: (t ++ c!"\r\n")) = .ok out ↔
      LineOut name ps t out := by
  unfold LineOut
  cases t with
  | nil =>
    simp only [List.isEmpty_nil, if_true]
    constructor
    · intro h
      have : fold [] = .ok [] := by decide
      rw [this] at h
      exact .inl ⟨trivial, (Res.ok.inj h).symm⟩
    · rintro (⟨_, rfl⟩ | ⟨h, _⟩)
      · decide
      · exact absurd rfl h
  | cons c t =>
    simp only [List.isEmpty_cons, Bool.false_eq_true, if_false]
    rw [fold_iff]
    have : name ++ (match ps with | some a => ';' :: a | none => []) ++ ':' :: (c :: t ++ c!"\r\n") = propertyLine name ps (c :: t) := by
      cases ps <;> simp [propertyLine]
    rw [this]
    simp

theorem field_iff {α : Type} {s : Ser α} {F : Form α} (h : IsForm α s F) {name : Str} {v : α} {out : Str} :
    @field α s name v = .ok out ↔ Single name F v out := by
  unfold field Single
  constructor
  · intro e
    obtain ⟨t, ht, e⟩ := Res.bind_eq_ok.1 e
    rw [if_neg (by simp [h.notComp])] at e
    exact ⟨_, t, (h.form v _ t).2 ⟨rfl, ht⟩, field_line.1 e⟩
  · rintro ⟨ps, t, hf, hl⟩
    obtain ⟨rfl, ht⟩ := (h.form v ps t).1 hf
    rw [ht]
    simp only [Res.bind_ok, h.notComp]
    exact field_line.2 hl


theorem optional_iff {α : Type} {s : Ser α} {F : Form α} (h : IsForm α s F) {name : Str} {o : Option α} {out : Str} :
    @field (Option α) (@instSerOption _ s) name o = .ok out ↔ Optional name F o out := by
  cases o with
  | none =>
    unfold Optional field
    simp only [Ser.ical, Ser.isComponent, Res.bind_ok]
    constructor
    · intro e
      have : fold [] = .ok [] := by decide
      exact (Res.ok.inj (e.symm.trans this))
    · rintro rfl
      rfl
  | some v =>
    unfold Optional
    simp only []
    rw [← field_iff h]
    unfold field
    have : @Ser.isComponent α s = false := h.notComp
    simp only [Ser.ical, Ser.attr, Ser.isComponent, this]

theorem list_line {α : Type} {s : Ser α} {name : Str} {l : List α} {out : Str} :
    @field (List α) (@instSerList _ s) name l = .ok out ↔
      ∃ ts, All2 (fun v t => s.ical v = .ok t) l ts ∧ LineOut name none (joinWith c!"," ts) out := by
  unfold field
  simp only [Ser.ical, Ser.attr, Ser.isComponent]
  constructor
  · intro e
    obtain ⟨t, ht, e⟩ := Res.bind_eq_ok.1 e
    obtain ⟨ts, h1, rfl⟩ := Res.map_ok_iff.1 ht
    refine ⟨ts, mapM'_all2.1 h1, ?_⟩
    rw [← join_eq_joinWith]
    exact field_line (ps := none).1 e
  · rintro ⟨ts, h1, h2⟩
    rw [mapM'_all2.2 h1]
    rw [← join_eq_joinWith] at h2
    exact field_line (ps := none).2 h2

theorem All2.iff {α β : Type} {R S : α → β → Prop} (h : ∀ a b, R a b ↔ S a b) {as : List α} {bs : List β} : All2 R as bs ↔ All2 S as bs :=
  ⟨Ikal.All2.imp fun a b => (h a b).1, Ikal.All2.imp fun a b => (h a b).2⟩

theorem repeated_iff {α : Type} {s : Ser α} {F : Form α} (h : IsForm α s F) {name : Str} {l : List α} {out : Str} :
    @Field.serVec α s name l = .ok out ↔ Repeated name F l out := by
  have hl : @field (List α) (@instSerList _ s) name l = .ok out ↔
      ∃ ts, All2 (fun v t => ∃ ps, F v ps t) l ts ∧ LineOut name none (joinWith c!"," ts) out := by
    rw [list_line]
    have : ∀ v t, s.ical v = .ok t ↔ ∃ ps, F v ps t := fun v t =>
      ⟨fun e => ⟨_, (h.form v _ t).2 ⟨rfl, e⟩⟩, fun ⟨ps, e⟩ => ((h.form v ps t).1 e).2⟩
    simp only [All2.iff this]
  unfold Field.serVec Repeated
  match l with
  | [] => exact hl
  | [v] => exact field_iff h
  | a :: b :: l => exact hl

theorem inner_iff {α : Type} {s : Ser α} {W : α → Str → Prop} (hc : s.isComponent = true) (h : ∀ v t, s.ical v = .ok t ↔ W v t) {name : Str}
    {l : List α} {out : Str} : @Field.serVec α s name l = .ok out ↔ Inner name W l out := by
  have hl : @field (List α) (@instSerList _ s) name l = .ok out ↔
      ∃ ts, All2 W l ts ∧ LineOut name none (joinWith c!"," ts) out := by
    rw [list_line]
    simp only [All2.iff h]
  unfold Field.serVec Inner
  match l with
  | [] => exact hl
  | [v] =>
    simp only []
    unfold field
    rw [← h]
    constructor
    · intro e
      obtain ⟨t, ht, e⟩ := Res.bind_eq_ok.1 e
      rw [if_pos hc] at e
      rw [ht, ← e]
      rfl
    · intro e
      rw [e]
      simp only [Res.bind_ok, hc, if_true]
      rfl
  | a :: b :: l => exact hl

theorem extensions_iff {name : Str} {m : SMap ContentLine} {out : Str} :
    @field _ Comp.extSer name m = .ok out ↔ Extensions name m out := by
  unfold field Extensions
  simp only [Ser.ical, Ser.attr, Ser.isComponent, SMap.ical]
  have hp : ∀ (p : Str × ContentLine) (t : Str),
      (Res.map (fun s => p.1 ++ '=' :: s) (.ok (escape p.2.value)) = .ok t) ↔ ∃ e, EscapedAs p.2.value e ∧ t = p.1 ++ c!"=" ++ e := by
    intro p t
    constructor
    · intro e
      exact ⟨_, escapedAs_escape _, by rw [← Res.ok.inj e]; simp⟩
    · rintro ⟨e, he, rfl⟩
      rw [escapedAs_iff.1 he]
      simp [Res.map]
  constructor
  · intro e
    obtain ⟨t, ht, e⟩ := Res.bind_eq_ok.1 e
    obtain ⟨ts, h1, rfl⟩ := Res.map_ok_iff.1 ht
    refine ⟨ts, (All2.iff hp).1 (mapM'_all2.1 h1), ?_⟩
    rw [← join_eq_joinWith]
    exact field_line (ps := none).1 e
  · rintro ⟨ts, h1, h2⟩
    rw [mapM'_all2.2 ((All2.iff hp).2 h1)]
    rw [← join_eq_joinWith] at h2
    exact field_line (ps := none).2 h2

theorem paramsOut_iff {m : SMap Str} {ps : Option Str} : ParamsOut m ps ↔ paramsAttr m = ps := by
  unfold ParamsOut paramsAttr
  cases m with
  | nil => simp [eq_comm]
  | cons p m =>
    simp only [List.isEmpty_cons, Bool.false_eq_true, if_false, SMap.ical]
    have hp : ∀ (p : Str × Str) (t : Str),
        (Res.map (fun s => p.1 ++ '=' :: s) (Ser.ical p.2) = .ok t) ↔ ∃ e, EscapedAs p.2 e ∧ t = p.1 ++ c!"=" ++ e := by
      intro p t
      constructor
      · intro e
        exact ⟨_, escapedAs_escape _, by rw [← Res.ok.inj e]; simp⟩
      · rintro ⟨e, he, rfl⟩
        rw [escapedAs_iff.1 he]
        simp [Res.map, Ser.ical]
    have ht : ∀ l : SMap Str, ∃ ts, Res.mapM' (fun (p : Str × Str) => (Ser.ical p.2).map fun s => p.1 ++ '=' :: s) l = .ok ts := by
      intro l
      induction l with
      | nil => exact ⟨_, rfl⟩
      | cons q l ih =>
        obtain ⟨ts, h⟩ := ih
        exact ⟨_, by rw [Res.mapM', h]; rfl⟩
    obtain ⟨ts, hts⟩ := ht (p :: m)
    have h2 := (All2.iff hp).1 (mapM'_all2.1 hts)
    rw [hts]
    simp only [Res.map]
    constructor
    · rintro (⟨h, _⟩ | ⟨_, ts', h, rfl⟩)
      · exact absurd h (by simp)
      · have := mapM'_all2.2 ((All2.iff hp).2 h)
        rw [hts] at this
        rw [join_eq_joinWith, Res.ok.inj this]
    · rintro rfl
      exact .inr ⟨by simp, ts, h2, by rw [join_eq_joinWith]⟩

/-! ## The forms of the values -/

section
variable [Platform]

theorem shown_form {α : Type} {s : Ser α} (f : α → Str) (h1 : s.isComponent = false) (h2 : ∀ v, s.attr v = none) (h3 : ∀ v, s.ical v = .ok (f v)) :
    IsForm α s (shown f) :=
  ⟨h1, fun v ps t => by
    unfold shown
    rw [h2, h3]
    exact ⟨fun ⟨a, b⟩ => ⟨a.symm, by rw [b]⟩, fun ⟨a, b⟩ => ⟨a.symm, (Res.ok.inj b).symm⟩⟩⟩

theorem text_form : IsForm Text inferInstance textForm :=
  ⟨rfl, fun v ps t => by
    unfold textForm
    rw [paramsOut_iff, escapedAs_iff]
    exact and_congr Iff.rfl ⟨fun h => by rw [h]; rfl, fun h => (Res.ok.inj h).symm⟩⟩

theorem uri_form : IsForm Uri inferInstance uriForm :=
  ⟨rfl, fun v ps t => by
    unfold uriForm
    rw [paramsOut_iff, escapedAs_iff]
    exact and_congr Iff.rfl ⟨fun h => by rw [h]; rfl, fun h => (Res.ok.inj h).symm⟩⟩

theorem number_form : IsForm Nat inferInstance numberForm :=
  ⟨rfl, fun v ps t => by
    unfold numberForm
    rw [numberText_iff]
    exact and_congr ⟨fun h => h.symm, fun h => h.symm⟩ ⟨fun h => by rw [h]; rfl, fun h => (Res.ok.inj h).symm⟩⟩

theorem date_form : IsForm Date inferInstance dateForm :=
  ⟨rfl, fun v ps t => by
    unfold dateForm
    rw [and_comm]
    refine and_congr ?_ ⟨fun h => by rw [h]; rfl, fun h => (Res.ok.inj h).symm⟩
    cases v <;> exact ⟨fun h => h.symm, fun h => h.symm⟩⟩

theorem trigger_form : IsForm Trigger inferInstance triggerForm :=
  ⟨rfl, fun v ps t => by
    unfold triggerForm
    cases v <;> exact and_congr ⟨fun h => h.symm, fun h => h.symm⟩ ⟨fun h => by rw [h]; rfl, fun h => (Res.ok.inj h).symm⟩⟩

theorem requestStatus_form : IsForm RequestStatus inferInstance requestStatusForm :=
  ⟨rfl, fun v ps t => by
    obtain ⟨c, d, x⟩ := v
    unfold requestStatusForm
    refine and_congr ⟨fun h => h.symm, fun h => h.symm⟩ ?_
    cases x with
    | none =>
      constructor
      · rintro ⟨d', hd, rfl⟩
        rw [escapedAs_iff.1 hd]
        simp [Ser.ical]
      · intro h
        exact ⟨_, escapedAs_escape _, by rw [← Res.ok.inj h]; simp⟩
    | some x =>
      constructor
      · rintro ⟨d', hd, e', he, rfl⟩
        rw [escapedAs_iff.1 hd, escapedAs_iff.1 he]
        simp [Ser.ical]
      · intro h
        exact ⟨_, escapedAs_escape _, _, escapedAs_escape _, by rw [← Res.ok.inj h]; simp⟩⟩

/-! ## Rules -/

/-- What `recurItem` writes for an item: nothing, or its name, its text and a semicolon. -/
def ItemSpec (x : Res Str) (name : Str) (o : Option (Str → Prop)) : Prop :=
  match o with
  | none => x = .ok []
  | some R => ∃ t, R t ∧ (∀ t', R t' → t' = t) ∧ x = .ok (name ++ '=' :: (t ++ [';']))

theorem recurItem_spec {α : Type} [Ser α] {name : Str} {v : α} {R : Str → Prop} {t : Str} (h : Ser.ical v = .ok t) (hne : t ≠ []) (hr : ∀ t', R t' ↔ t' = t) :
    ItemSpec (recurItem name v) name (some R) := by
  refine ⟨t, (hr t).2 rfl, fun t' h => (hr t').1 h, ?_⟩
  unfold recurItem
  rw [h]
  cases t with
  | nil => exact absurd rfl hne
  | cons => simp [Res.map]

theorem recurItem_none {α : Type} [Ser α] {name : Str} {v : α} (h : Ser.ical v = .ok []) : ItemSpec (recurItem name v) name none := by
  unfold ItemSpec recurItem
  rw [h]
  rfl

theorem recurItem_list {α : Type} [Ser α] {name : Str} {l : List α} {R : Str → α → Prop} {f : α → Str} (hf : ∀ a, Ser.ical a = .ok (f a))
    (hne : ∀ a, f a ≠ []) (hr : ∀ t a, R t a ↔ t = f a) [Decidable (l = [])] :
    ItemSpec (recurItem name l) name (if l = [] then none else some fun s => ∃ ts, All2 R ts l ∧ s = joinWith c!"," ts) := by
  have hall : ∀ ts, All2 R ts l ↔ ts = l.map f := by
    intro ts
    constructor
    · intro h
      induction h with
      | nil => rfl
      | cons h _ ih => rw [(hr _ _).1 h, ih]; rfl
    · rintro rfl
      induction l with
      | nil => exact .nil
      | cons a l ih => exact .cons ((hr _ _).2 rfl) (by classical exact ih)
  have hi : Ser.ical l = .ok (joinWith c!"," (l.map f)) := by
    have : Res.mapM' (Ser.ical : α → Res Str) l = .ok (l.map f) := by
      clear hall
      induction l with
      | nil => rfl
      | cons a l ih => classical rw [Res.mapM', hf, ih]; rfl
    simp only [Ser.ical]
    rw [this, ← join_eq_joinWith]
    rfl
  cases l with
  | nil => rw [if_pos rfl]; exact recurItem_none hi
  | cons a l =>
    rw [if_neg (by simp)]
    refine recurItem_spec hi ?_ ?_
    · cases l with
      | nil => simpa [joinWith] using hne a
      | cons b l => simp [joinWith]
    · intro t
      constructor
      · rintro ⟨ts, h1, rfl⟩
        rw [(hall ts).1 h1]
      · rintro rfl
        exact ⟨_, (hall _).2 rfl, rfl⟩

/-- The texts that items are written as, each with a semicolon. -/
inductive Items : List (Res Str) → List (Str × Option (Str → Prop)) → Prop
  | nil : Items [] []
  | cons {x : Res Str} {xs : List (Res Str)} {name : Str} {o : Option (Str → Prop)} {is : List (Str × Option (Str → Prop))} :
      ItemSpec x name o → Items xs is → Items (x :: xs) ((name, o) :: is)

theorem Items.texts {xs : List (Res Str)} {is : List (Str × Option (Str → Prop))} (h : Items xs is) :
    ∃ ts, (∀ ts', ItemTexts is ts' ↔ ts' = ts) ∧ ∃ os, All2 (fun x o => x = Res.ok o) xs os ∧ os.flatten = (ts.map (· ++ [';'])).flatten := by
  induction h with
  | nil => exact ⟨[], fun ts' => ⟨fun h => by cases h; rfl, fun h => h ▸ .nil⟩, [], .nil, rfl⟩
  | @cons x xs name o is hx _ ih =>
    obtain ⟨ts, h1, os, h2, h3⟩ := ih
    cases o with
    | none =>
      refine ⟨ts, fun ts' => ⟨fun h => ?_, fun h => .skip ((h1 ts').2 h)⟩, [] :: os, .cons hx h2, by simpa using h3⟩
      cases h with
      | skip h => exact (h1 ts').1 h
    | some R =>
      obtain ⟨t, hr, hu, rfl⟩ := hx
      refine ⟨(name ++ c!"=" ++ t) :: ts, fun ts' => ⟨fun h => ?_, ?_⟩, _ :: os, .cons rfl h2, by simp [h3]⟩
      · cases h with
        | item h h' => rw [hu _ h, (h1 _).1 h']
      · rintro rfl
        exact .item hr ((h1 ts).2 rfl)

theorem dropLast_items (ts : List Str) : (ts.map (· ++ [';'])).flatten.dropLast = joinWith c!";" ts := by
  induction ts with
  | nil => rfl
  | cons t ts ih =>
    cases ts with
    | nil => simp [joinWith]
    | cons u ts =>
      have hne : ((u :: ts).map (· ++ [';'])).flatten ≠ [] := by simp
      rw [List.map_cons, List.flatten_cons, List.dropLast_append_of_ne_nil hne, ih]
      rfl

theorem rule_form : IsForm Recur inferInstance ruleForm := by
  refine ⟨rfl, fun r ps t => ?_⟩
  unfold ruleForm
  refine and_congr ⟨fun h => h.symm, fun h => h.symm⟩ ?_
  have int (name : Str) (l : List Int) := recurItem_list (name := name) (l := l) (R := SignedText) (f := intStr) (fun _ => rfl)
    (fun n => by unfold intStr; split <;> simp [natStr_ne]) fun _ _ => signedText_iff
  have hdate : ∀ d : Date, d.toStr ≠ [] := by
    intro d
    have hd : ∀ d : NaiveDate, d.toStr ≠ [] := fun d => by unfold NaiveDate.toStr pad2; simp
    cases d with
    | date d => exact hd d
    | dateTime t => cases t <;> simp [Date.toStr, DateTime.toStr, NaiveDateTime.toStr]
  have hi : Items [recurItem c!"FREQ" r.freq, recurItem c!"UNTIL" r.until_, recurItem c!"COUNT" r.count, recurItem c!"INTERVAL" r.interval,
      recurItem c!"BYSECOND" r.bySecond, recurItem c!"BYMINUTE" r.byMinute, recurItem c!"BYHOUR" r.byHour, recurItem c!"BYDAY" r.byDay,
      recurItem c!"BYMONTHDAY" r.byMonthday, recurItem c!"BYYEARDAY" r.byYearday, recurItem c!"BYWEEKNO" r.byWeekno,
      recurItem c!"BYMONTH" r.byMonth, recurItem c!"BYSETPOS" r.bySetpos, recurItem c!"WKST" r.wkst] (Spec.ruleItems r) := by
    refine .cons ?_ (.cons ?_ (.cons ?_ (.cons ?_ (.cons (int _ _) (.cons (int _ _) (.cons (int _ _) (.cons ?_ (.cons (int _ _)
      (.cons (int _ _) (.cons (int _ _) (.cons (int _ _) (.cons (int _ _) (.cons ?_ .nil)))))))))))))
    · refine recurItem_spec (t := r.freq.toStr) rfl (by cases r.freq <;> decide) fun t' => ?_
      have : freqName r.freq = r.freq.toStr := by cases r.freq <;> rfl
      rw [this]
    · cases r.until_ with
      | none => exact recurItem_none rfl
      | some d => exact recurItem_spec (t := d.toStr) rfl (hdate d) fun _ => Iff.rfl
    · cases r.count with
      | none => exact recurItem_none rfl
      | some n => exact recurItem_spec (t := natStr n) rfl (natStr_ne n) fun _ => numberText_iff
    · exact recurItem_spec (t := natStr r.interval) rfl (natStr_ne _) fun _ => numberText_iff
    · have hw : ∀ w : Weekday, weekdayName w = w.toStr := by intro w; cases w <;> rfl
      refine recurItem_list (f := WeekdayNum.toStr) (fun _ => rfl) ?_ ?_
      · intro w
        unfold WeekdayNum.toStr
        have : w.weekday.toStr ≠ [] := by cases w.weekday <;> decide
        simp [this]
      · rintro t ⟨w, o⟩
        cases o with
        | none => simp [WeekdayText, WeekdayNum.toStr, hw]
        | some n =>
          simp only [WeekdayText, WeekdayNum.toStr, hw, signedText_iff]
          exact ⟨fun ⟨_, h1, h2⟩ => by rw [h2, h1], fun h => ⟨_, rfl, h⟩⟩
    · cases r.wkst with
      | none => exact recurItem_none rfl
      | some w =>
        refine recurItem_spec (t := w.toStr) rfl (by cases w <;> decide) fun t' => ?_
        have : weekdayName w = w.toStr := by cases w <;> rfl
        show t' = weekdayName w ↔ _
        rw [this]
  obtain ⟨ts, h1, os, h2, h3⟩ := hi.texts
  have hs : Ser.ical r = .ok (joinWith c!";" ts) := by
    rw [← dropLast_items, ← h3]
    cases h2 with | cons e1 h2 =>
    cases h2 with | cons e2 h2 =>
    cases h2 with | cons e3 h2 =>
    cases h2 with | cons e4 h2 =>
    cases h2 with | cons e5 h2 =>
    cases h2 with | cons e6 h2 =>
    cases h2 with | cons e7 h2 =>
    cases h2 with | cons e8 h2 =>
    cases h2 with | cons e9 h2 =>
    cases h2 with | cons e10 h2 =>
    cases h2 with | cons e11 h2 =>
    cases h2 with | cons e12 h2 =>
    cases h2 with | cons e13 h2 =>
    cases h2 with | cons e14 h2 =>
    cases h2
    simp only [Ser.ical]
    simp only [e1, e2, e3, e4, e5, e6, e7, e8, e9, e10, e11, e12, e13, e14, Res.bind_ok]
    simp [List.append_assoc]
  unfold RuleOut
  constructor
  · rintro ⟨ts', h, rfl⟩
    rw [(h1 ts').1 h]
    exact hs
  · intro h
    exact ⟨ts, (h1 ts).2 rfl, (Res.ok.inj (hs.symm.trans h)).symm⟩

/-! ## Components -/

theorem ser_nil : ∀ o, Slots.ser [] () = .ok o ↔ Concat [] o := fun o =>
  ⟨fun h => by cases h; exact .nil, fun h => by cases h; rfl⟩

theorem ser_cons {f : Field} {fs : List Field} {v : f.T} {vs : Slots fs} {P : Str → Prop} {Ps : List (Str → Prop)}
    (h1 : ∀ o, f.serField v = .ok o ↔ P o) (h2 : ∀ o, Slots.ser fs vs = .ok o ↔ Concat Ps o) (o : Str) :
    Slots.ser (f :: fs) (v, vs) = .ok o ↔ Concat (P :: Ps) o := by
  simp only [Slots.ser, Res.bind_eq_ok]
  constructor
  · rintro ⟨a, ha, b, hb, e⟩
    cases e
    exact .cons ((h1 a).1 ha) ((h2 b).1 hb)
  · intro h
    cases h with
    | cons ha hb => exact ⟨_, (h1 _).2 ha, _, (h2 _).2 hb, rfl⟩

theorem concat_append {Ps Qs : List (Str → Prop)} {o : Str} : Concat (Ps ++ Qs) o ↔ ∃ a b, Concat Ps a ∧ Concat Qs b ∧ o = a ++ b := by
  induction Ps generalizing o with
  | nil => exact ⟨fun h => ⟨[], o, .nil, h, rfl⟩, fun ⟨a, b, ha, hb, e⟩ => by cases ha; rw [e]; exact hb⟩
  | cons P Ps ih =>
    constructor
    · intro h
      cases h with
      | cons h1 h2 =>
        obtain ⟨a, b, ha, hb, rfl⟩ := ih.1 h2
        exact ⟨_, b, .cons h1 ha, hb, by rw [List.append_assoc]⟩
    · rintro ⟨a, b, ha, hb, rfl⟩
      cases ha with
      | cons h1 h2 =>
        rw [List.append_assoc]
        exact .cons h1 (ih.2 ⟨_, b, h2, hb, rfl⟩)

theorem comp_iff {fs : List Field} {c : Comp fs} {Ps : List (Str → Prop)} (h : ∀ o, Slots.ser fs c.slots = .ok o ↔ Concat Ps o)
    (name out : Str) : c.ical name = .ok out ↔ Frame name (Ps ++ [Extensions c!"X-PROP" c.xProp, Extensions c!"IANA-PROP" c.ianaProp]) out := by
  unfold Comp.ical Frame
  simp only [Res.bind_eq_ok]
  constructor
  · rintro ⟨b, hb, x, hx, i, hi, e⟩
    cases e
    refine ⟨b ++ (x ++ (i ++ [])), concat_append.2 ⟨b, _, (h b).1 hb, .cons (extensions_iff.1 hx) (.cons (extensions_iff.1 hi) .nil), rfl⟩, ?_⟩
    simp
  · rintro ⟨b, hb, rfl⟩
    obtain ⟨a, r, ha, hr, rfl⟩ := concat_append.1 hb
    cases hr with | cons hx hr =>
    cases hr with | cons hi hr =>
    cases hr
    refine ⟨a, (h a).2 ha, _, extensions_iff.2 hx, _, extensions_iff.2 hi, ?_⟩
    simp

/-! ## Writing does not return an error -/

/-- A result that is not an error: a value or a panic. -/
def NoErr {α : Type} (x : Res α) : Prop := ∀ e, x ≠ .err e

omit [Platform] in
theorem NoErr.bind {α β : Type} {x : Res α} {f : α → Res β} (hx : NoErr x) (hf : ∀ a, NoErr (f a)) : NoErr (x >>= f) := by
  cases x with
  | ok a => exact hf a
  | err e => exact absurd rfl (hx e)
  | panic => intro e h; cases h

omit [Platform] in
theorem NoErr.map {α β : Type} {x : Res α} {f : α → β} (hx : NoErr x) : NoErr (x.map f) := by
  cases x with
  | ok a => intro e h; cases h
  | err e => exact absurd rfl (hx e)
  | panic => intro e h; cases h

omit [Platform] in
theorem NoErr.ok {α : Type} (a : α) : NoErr (.ok a) := by intro e h; cases h

omit [Platform] in
theorem NoErr.mapM {α β : Type} {f : α → Res β} (hf : ∀ a, NoErr (f a)) (l : List α) : NoErr (Res.mapM' f l) := by
  induction l with
  | nil => exact .ok _
  | cons a l ih =>
    unfold Res.mapM'
    have h1 := hf a
    cases hfa : f a with
    | ok b =>
      simp only []
      cases hr : Res.mapM' f l with
      | ok bs => exact .ok _
      | err e => exact absurd hr (ih e)
      | panic => intro e h; cases h
    | err e => exact absurd hfa (h1 e)
    | panic => intro e h; cases h

omit [Platform] in
theorem NoErr.fold (s : Str) : NoErr (fold s) := by
  unfold Ikal.fold
  split
  · exact NoErr.map fun e h => splitGo_not_err h
  · exact .ok _

omit [Platform] in
theorem NoErr.field {α : Type} {s : Ser α} (h : ∀ v, NoErr (s.ical v)) (name : Str) (v : α) : NoErr (@field α s name v) := by
  unfold Ikal.field
  refine (h v).bind fun t => ?_
  split
  · exact .ok _
  · exact .fold _

omit [Platform] in
theorem NoErr.serVec {α : Type} {s : Ser α} (h : ∀ v, NoErr (s.ical v)) (name : Str) (l : List α) : NoErr (@Field.serVec α s name l) := by
  have hl : NoErr (@Ikal.field (List α) (@instSerList _ s) name l) := NoErr.field (fun v => NoErr.map (NoErr.mapM h v)) name l
  unfold Field.serVec
  match l with
  | [] => exact hl
  | [v] => exact .field h name v
  | a :: b :: l => exact hl

/-- The values of a field are written without errors. -/
def Field.NoErr : Field → Prop
  | .req _ _ s _ | .opt _ _ s _ | .push _ _ s _ | .append _ _ s _ | .nested _ _ s => ∀ v, Ikal.NoErr (s.ical v)

omit [Platform] in
theorem NoErr.ser {fs : List Field} (h : ∀ f ∈ fs, f.NoErr) (v : Slots fs) : NoErr (Slots.ser fs v) := by
  induction fs with
  | nil => exact .ok _
  | cons f fs ih =>
    obtain ⟨v, vs⟩ := v
    have hf := h f (by simp)
    refine NoErr.bind ?_ fun a => NoErr.bind (ih (fun g hg => h g (by simp [hg])) vs) fun b => .ok _
    cases f with
    | req n α s p => exact .field hf n v
    | opt n α s p => exact .field (s := @instSerOption _ s) (fun o => by cases o with | none => exact .ok _ | some a => exact hf a) n v
    | push n α s p => exact .serVec hf n v
    | append n α s p => exact .serVec hf n v
    | nested n α s => exact .serVec hf n v

omit [Platform] in
theorem NoErr.comp {fs : List Field} (h : ∀ f ∈ fs, f.NoErr) (name : Str) (c : Comp fs) : NoErr (c.ical name) := by
  have he : ∀ m : SMap ContentLine, NoErr (Comp.extSer.ical m) := fun m => NoErr.map (NoErr.mapM (fun p => NoErr.map (.ok _)) m)
  exact (NoErr.ser h _).bind fun _ => (NoErr.field he _ _).bind fun _ => (NoErr.field he _ _).bind fun _ => .ok _

theorem NoErr.recur (r : Recur) : NoErr (Ser.ical r) := by
  have hi : ∀ {α : Type} [Ser α] (h : ∀ v : α, NoErr (Ser.ical v)) (n : Str) (v : α), NoErr (recurItem n v) := fun h n v => (h v).map
  have hint : ∀ l : List Int, NoErr (Ser.ical l) := fun l => NoErr.map (NoErr.mapM (fun _ => .ok _) l)
  simp only [Ser.ical]
  refine NoErr.bind (hi (fun _ => .ok _) _ _) fun _ => NoErr.bind (hi (fun o => by cases o <;> exact .ok _) _ _) fun _ =>
    NoErr.bind (hi (fun o => by cases o <;> exact .ok _) _ _) fun _ => NoErr.bind (hi (fun _ => .ok _) _ _) fun _ =>
    NoErr.bind (hi hint _ _) fun _ => NoErr.bind (hi hint _ _) fun _ => NoErr.bind (hi hint _ _) fun _ =>
    NoErr.bind (hi (fun l => NoErr.map (NoErr.mapM (fun _ => .ok _) l)) _ _) fun _ => NoErr.bind (hi hint _ _) fun _ =>
    NoErr.bind (hi hint _ _) fun _ => NoErr.bind (hi hint _ _) fun _ => NoErr.bind (hi hint _ _) fun _ => NoErr.bind (hi hint _ _) fun _ =>
    NoErr.bind (hi (fun o => by cases o <;> exact .ok _) _ _) fun _ => .ok _

theorem NoErr.trigger (r : Trigger) : NoErr (Ser.ical r) := by cases r <;> exact .ok _

end

end Ikal
