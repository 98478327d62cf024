import Verif.Lemmas.ReasonsInt

/-! # What chrono says about dates -/

namespace Ikal
open Spec

theorem i64Max_val : i64Max = 9223372036854775807 := by decide

theorem exc_bind_ok {ε α β : Type} {x : Except ε α} {f : α → Except ε β} {b : β} : (x >>= f) = .ok b ↔ ∃ a, x = .ok a ∧ f a = .ok b := by
  cases x with
  | ok a =>
    show f a = .ok b ↔ _
    simp
  | error e =>
    show Except.error e = .ok b ↔ _
    simp

theorem exc_bind_err {ε α β : Type} {x : Except ε α} {f : α → Except ε β} {e : ε} : (x >>= f) = .error e ↔ x = .error e ∨ ∃ a, x = .ok a ∧ f a = .error e := by
  cases x with
  | ok a =>
    show f a = .error e ↔ _
    simp
  | error e' =>
    show Except.error e' = .error e ↔ _
    simp

/-! ## Numbers -/

theorem foldl_mono (ds : Str) : ∀ n : Nat, n ≤ ds.foldl (fun v c => v * 10 + digitVal c) n := by
  induction ds with
  | nil => intro n; exact Nat.le_refl _
  | cons c ds ih => intro n; have := ih (n * 10 + digitVal c); simp only [List.foldl_cons]; omega

theorem numberLoop_digits {r : Str} (ds : Str) : ∀ (m : Nat) (n : Nat) (first : Bool), (∀ c ∈ ds, c.isDigit = true) → ds.length ≤ m →
    (ds.length < m → ∀ c, r.head? = some c → c.isDigit = false) → (ds ≠ [] ∨ first = false) → (n : Int) ≤ i64Max →
    numberLoop m first n (ds ++ r) =
      if ((ds.foldl (fun v c => v * 10 + digitVal c) n : Nat) : Int) ≤ i64Max then .ok (ds.foldl (fun v c => v * 10 + digitVal c) n, r) else .error .outOfRange := by
  induction ds with
  | nil =>
    intro m n first _ _ hr hf hn
    have hf : first = false := by simpa using hf
    subst hf
    rw [List.foldl_nil, if_pos hn, List.nil_append]
    cases m with
    | zero => rfl
    | succ m =>
      cases r with
      | nil => rfl
      | cons c r =>
        rw [numberLoop, if_neg (by simp [hr (by simp) c rfl])]
        rfl
  | cons c ds ih =>
    intro m n first hd hl hr _ _
    cases m with
    | zero => simp at hl
    | succ m =>
      rw [List.cons_append, numberLoop, if_pos (hd c (by simp))]
      simp only [List.foldl_cons]
      by_cases hv : ((n * 10 + digitVal c : Nat) : Int) ≤ i64Max
      · rw [if_pos hv]
        exact ih m _ false (fun x hx => hd x (by simp [hx])) (by simp at hl; omega) (fun h => hr (by simp; omega)) (.inr rfl) hv
      · have := foldl_mono ds (n * 10 + digitVal c)
        have hf : ¬ ((ds.foldl (fun v c => v * 10 + digitVal c) (n * 10 + digitVal c) : Nat) : Int) ≤ i64Max := by omega
        rw [if_neg hv]
        exact (if_neg hf).symm

theorem number_digits {max : Nat} {ds r : Str} (hd : Digits ds) (hl : ds.length ≤ max) (hr : ds.length < max → ∀ c, r.head? = some c → c.isDigit = false) :
    number max (ds ++ r) = if (decimal ds : Int) ≤ i64Max then .ok (decimal ds, r) else .error .outOfRange := by
  have hd' := Digits_iff.1 hd
  unfold number
  rw [if_neg (by simpa using fun h => absurd h hd.1), numberLoop_digits ds max 0 true hd'.2 hl hr (.inl hd.1) (by rw [i64Max_val]; decide)]
  rw [← digitsVal_eq_decimal]
  rfl

theorem number_nil (max : Nat) : number max [] = .error .tooShort := rfl

theorem number_bad {max : Nat} (hm : 1 ≤ max) {c : Char} (hc : c.isDigit = false) (r : Str) : number max (c :: r) = .error .invalid := by
  obtain ⟨m, rfl⟩ : ∃ m, max = m + 1 := ⟨max - 1, by omega⟩
  unfold number
  rw [if_neg (by simp), numberLoop, if_neg (by simp [hc])]
  rfl

theorem digits_upto (s : Str) : ∀ m, ∃ ds r, s = ds ++ r ∧ (∀ c ∈ ds, c.isDigit = true) ∧ ds.length ≤ m ∧ (ds.length < m → ∀ c, r.head? = some c → c.isDigit = false) := by
  induction s with
  | nil => intro m; exact ⟨[], [], rfl, by simp, by simp, by simp⟩
  | cons c s ih =>
    intro m
    cases m with
    | zero => exact ⟨[], c :: s, rfl, by simp, by simp, by simp⟩
    | succ m =>
      cases hc : c.isDigit with
      | false => exact ⟨[], c :: s, rfl, by simp, by simp, by simpa using hc⟩
      | true =>
        obtain ⟨ds, r, rfl, h1, h2, h3⟩ := ih m
        exact ⟨c :: ds, r, rfl, by simpa [hc] using h1, by simp; omega, fun h => h3 (by simp at h; omega)⟩

theorem number_cases {max : Nat} (s : Str) (hm : s ≠ [] → 1 ≤ max) :
    (s = [] ∧ number max s = .error .tooShort) ∨ (∃ c r, s = c :: r ∧ c.isDigit = false ∧ number max s = .error .invalid) ∨
    ∃ ds r, s = ds ++ r ∧ Digits ds ∧ ds.length ≤ max ∧ (ds.length < max → ∀ c, r.head? = some c → c.isDigit = false) ∧
      number max s = if (decimal ds : Int) ≤ i64Max then .ok (decimal ds, r) else .error .outOfRange := by
  cases s with
  | nil => exact .inl ⟨rfl, rfl⟩
  | cons c r =>
    cases hc : c.isDigit with
    | false => exact .inr (.inl ⟨c, r, rfl, hc, number_bad (hm (by simp)) hc r⟩)
    | true =>
      obtain ⟨ds, q, e, h1, h2, h3⟩ := digits_upto (c :: r) max
      have hne : ds ≠ [] := by
        rintro rfl
        have hc' : c.isDigit = false := h3 (by have := hm (by simp); simp; omega) c (by rw [← List.nil_append q, ← e]; rfl)
        rw [hc] at hc'; cases hc'
      have hd : Digits ds := Digits_iff.2 ⟨hne, h1⟩
      exact .inr (.inr ⟨ds, q, e, hd, h2, h3, by rw [e]; exact number_digits hd h2 h3⟩)

/-! ## Fields -/

/-- The range of a field. -/
def fieldRange : DateField → Int × Int
  | .year => (-2147483648, 2147483647)
  | .month => (1, 12)
  | .day => (1, 31)
  | .hour => (0, 23)
  | .minute => (0, 59)
  | .second => (0, 60)

def putField (p : Parsed) : DateField → Int → Parsed
  | .year, v => { p with year := v }
  | .month, v => { p with month := v }
  | .day, v => { p with day := v }
  | .hour, v => { p with hour := v }
  | .minute, v => { p with minute := v }
  | .second, v => { p with second := v }

theorem set_eq (p : Parsed) (f : DateField) (v : Int) : p.set f v = if (fieldRange f).1 ≤ v ∧ v ≤ (fieldRange f).2 then .ok (putField p f v) else .error .outOfRange := by
  cases f <;> rfl

/-- The number of a field as the specification has it. -/
def FieldNumber : DateField → Str → Int → Str → Prop
  | .year, s, v, r => YearThen s v r
  | _, s, v, r => ∃ n : Nat, NumberThen 2 s n r ∧ v = n

theorem trim_split (s : Str) : ∃ ws, s = ws ++ trimStart s ∧ Blanks ws ∧ ∀ c, (trimStart s).head? = some c → isWhitespace c = false :=
  trimStart_eq.1 rfl

theorem trimStart_cons {ws r : Str} {c : Char} (hw : Blanks ws) (hc : isWhitespace c = false) : trimStart (ws ++ c :: r) = c :: r :=
  trimStart_eq.2 ⟨ws, rfl, hw, fun d hd => by simp at hd; subst hd; exact hc⟩

theorem trimStart_blanks {ws : Str} (hw : Blanks ws) : trimStart ws = [] :=
  trimStart_eq.2 ⟨ws, by simp, hw, by simp⟩

theorem trimStart_digitsText {ws ds r : Str} (hw : Blanks ws) (hd : Digits ds) : trimStart (ws ++ (ds ++ r)) = ds ++ r :=
  trimStart_eq.2 ⟨ws, rfl, hw, digits_head hd⟩

theorem decimal_small {ds : Str} (hd : Digits ds) {k : Nat} (h : ds.length ≤ k) : decimal ds < 10 ^ k := by
  have h1 : decimal ds < 10 ^ ds.length := by rw [← digitsVal_eq_decimal]; exact digitsVal_lt _ (Digits_iff.1 hd).2
  exact Nat.lt_of_lt_of_le h1 (Nat.pow_le_pow_right (by omega) h)

theorem yearNumber_plain {t : Str} (h1 : ∀ r, t ≠ '-' :: r) (h2 : ∀ r, t ≠ '+' :: r) {s : Str} (hs : trimStart s = t) :
    fieldNumber .year s = (number 4 t).map fun x => ((x.1 : Int), x.2) := by
  unfold fieldNumber
  simp only
  rw [hs]
  split
  · exact absurd rfl (h1 _)
  · exact absurd rfl (h2 _)
  · rfl

theorem yearNumber_sign {s r : Str} {c : Char} (hs : trimStart s = c :: r) (hc : c = '+' ∨ c = '-') :
    fieldNumber .year s = (number r.length r).map fun x => (if c = '-' then -(x.1 : Int) else x.1, x.2) := by
  unfold fieldNumber
  simp only
  rw [hs]
  rcases hc with rfl | rfl <;> rfl

theorem smallNumber {f : DateField} (hf : f ≠ .year) (s : Str) : fieldNumber f s = (number 2 (trimStart s)).map fun x => ((x.1 : Int), x.2) := by
  cases f <;> first | exact absurd rfl hf | rfl

theorem fieldNumber_ok {f : DateField} {s r : Str} {v : Int} (hv : (fieldRange f).1 ≤ v ∧ v ≤ (fieldRange f).2) :
    fieldNumber f s = .ok (v, r) ↔ FieldNumber f s v r := by
  obtain ⟨ws, es, hw, hh⟩ := trim_split s
  by_cases hf : f = .year
  · subst hf
    simp only [FieldNumber, fieldRange] at hv ⊢
    constructor
    · intro h
      by_cases hsg : ∃ c q, trimStart s = c :: q ∧ (c = '+' ∨ c = '-')
      · obtain ⟨c, q, e, hc⟩ := hsg
        rw [yearNumber_sign e hc] at h
        rcases number_cases q (max := q.length) (by intro h; cases q with | nil => exact absurd rfl h | cons => simp) with ⟨-, e'⟩ | ⟨x, y, -, -, e'⟩ | ⟨ds, y, hq, hd, hl, hr, e'⟩
        · rw [e'] at h; cases h
        · rw [e'] at h; cases h
        · rw [e'] at h
          by_cases hb : (decimal ds : Int) ≤ i64Max
          · rw [if_pos hb] at h
            simp only [Except.map, Except.ok.injEq, Prod.mk.injEq] at h
            obtain ⟨hv', rfl⟩ := h
            refine .inr ⟨ws, c, ds, by rw [es, e, hq], hw, hd, ?_, ?_⟩
            · intro d hd'
              refine not_digit_iff.2 (hr ?_ d hd')
              rw [hq]
              cases y with
              | nil => cases hd'
              | cons => simp
            · rcases hc with rfl | rfl
              · exact .inl ⟨rfl, by rw [← hv']; simp⟩
              · exact .inr ⟨rfl, by rw [← hv']; simp⟩
          · rw [if_neg hb] at h; cases h
      · have h1 : ∀ r, trimStart s ≠ '-' :: r := fun r e => hsg ⟨_, r, e, .inr rfl⟩
        have h2 : ∀ r, trimStart s ≠ '+' :: r := fun r e => hsg ⟨_, r, e, .inl rfl⟩
        rw [yearNumber_plain h1 h2 rfl] at h
        rcases number_cases (trimStart s) (max := 4) (by omega) with ⟨-, e'⟩ | ⟨x, y, -, -, e'⟩ | ⟨ds, y, hq, hd, hl, hr, e'⟩
        · rw [e'] at h; cases h
        · rw [e'] at h; cases h
        · rw [e'] at h
          by_cases hb : (decimal ds : Int) ≤ i64Max
          · rw [if_pos hb] at h
            simp only [Except.map, Except.ok.injEq, Prod.mk.injEq] at h
            obtain ⟨hv', rfl⟩ := h
            exact .inl ⟨decimal ds, ⟨ws, ds, by rw [← hq]; exact es, hw, hd, hl, rfl, fun hl c hc => not_digit_iff.2 (hr hl c hc)⟩, hv'.symm⟩
          · rw [if_neg hb] at h; cases h
    · rintro (⟨n, ⟨ws', ds, e, hw', hd, hl, rfl, hr⟩, rfl⟩ | ⟨ws', c, ds, e, hw', hd, hr, hc⟩)
      · have ht : trimStart s = ds ++ r := by rw [e]; exact trimStart_digitsText hw' hd
        have hne : ∀ c : Char, c.isDigit = false → ∀ q, trimStart s ≠ c :: q := by
          intro c hc q h
          rw [ht] at h
          cases ds with
          | nil => exact hd.1 rfl
          | cons d ds => simp at h; have := (Digits_iff.1 hd).2 d (by simp); rw [h.1, hc] at this; cases this
        rw [yearNumber_plain (hne _ (by decide)) (hne _ (by decide)) rfl, ht, number_digits hd hl (fun h c hc => not_digit_iff.1 (hr h c hc))]
        have := decimal_small hd hl
        rw [if_pos (by rw [i64Max_val]; omega)]
        rfl
      · have hcs : c = '+' ∨ c = '-' := by rcases hc with ⟨h, -⟩ | ⟨h, -⟩ <;> simp [h]
        have hnw : isWhitespace c = false := by rcases hcs with rfl | rfl <;> decide
        have ht : trimStart s = c :: (ds ++ r) := by rw [e]; exact trimStart_cons hw' hnw
        rw [yearNumber_sign ht hcs, number_digits hd (by simp) (fun _ c hc => not_digit_iff.1 (hr c hc))]
        rw [if_pos (by rw [i64Max_val]; rcases hc with ⟨-, h⟩ | ⟨-, h⟩ <;> omega)]
        simp only [Except.map, Except.ok.injEq, Prod.mk.injEq, and_true]
        rcases hc with ⟨rfl, h⟩ | ⟨rfl, h⟩
        · rw [h]; simp
        · rw [h]; simp
  · have hF : FieldNumber f s v r ↔ ∃ n : Nat, NumberThen 2 s n r ∧ v = n := by cases f <;> first | exact absurd rfl hf | rfl
    rw [hF, smallNumber hf]
    constructor
    · intro h
      rcases number_cases (trimStart s) (max := 2) (by omega) with ⟨-, e'⟩ | ⟨x, y, -, -, e'⟩ | ⟨ds, y, hq, hd, hl, hr, e'⟩
      · rw [e'] at h; cases h
      · rw [e'] at h; cases h
      · rw [e'] at h
        by_cases hb : (decimal ds : Int) ≤ i64Max
        · rw [if_pos hb] at h
          simp only [Except.map, Except.ok.injEq, Prod.mk.injEq] at h
          obtain ⟨hv', rfl⟩ := h
          exact ⟨decimal ds, ⟨ws, ds, by rw [← hq]; exact es, hw, hd, hl, rfl, fun hl c hc => not_digit_iff.2 (hr hl c hc)⟩, hv'.symm⟩
        · rw [if_neg hb] at h; cases h
    · rintro ⟨n, ⟨ws', ds, e, hw', hd, hl, rfl, hr⟩, rfl⟩
      have ht : trimStart s = ds ++ r := by rw [e]; exact trimStart_digitsText hw' hd
      rw [ht, number_digits hd hl (fun h c hc => not_digit_iff.1 (hr h c hc))]
      have := decimal_small hd hl
      rw [if_pos (by rw [i64Max_val]; omega)]
      rfl

/-- The part of the specification that an item stands for. -/
def itemPart : ScanItem → DatePart
  | .field .year => .year
  | .field .month => .number 1 12
  | .field .day => .number 1 31
  | .field .hour => .number 0 23
  | .field .minute => .number 0 59
  | .field .second => .number 0 60
  | .literal c => .letter c

theorem scanField_ok {f : DateField} {p q : Parsed} {s r : Str} :
    scanItem (.field f) p s = .ok (q, r) ↔ ∃ v, FieldNumber f s v r ∧ (fieldRange f).1 ≤ v ∧ v ≤ (fieldRange f).2 ∧ q = putField p f v := by
  simp only [scanItem]
  rw [exc_bind_ok]
  constructor
  · rintro ⟨⟨v, r'⟩, h1, h2⟩
    simp only at h2
    rw [exc_bind_ok] at h2
    obtain ⟨q', h2, h3⟩ := h2
    cases h3
    rw [set_eq] at h2
    split at h2
    · next hv => cases h2; exact ⟨v, (fieldNumber_ok hv).1 h1, hv.1, hv.2, rfl⟩
    · cases h2
  · rintro ⟨v, h1, h2, h3, rfl⟩
    refine ⟨(v, r), (fieldNumber_ok ⟨h2, h3⟩).2 h1, ?_⟩
    simp only
    rw [set_eq, if_pos ⟨h2, h3⟩]
    rfl

theorem partThen_field {f : DateField} {s r : Str} : PartThen (itemPart (.field f)) s r ↔ ∃ v, FieldNumber f s v r ∧ (fieldRange f).1 ≤ v ∧ v ≤ (fieldRange f).2 := by
  cases f with
  | year => exact Iff.rfl
  | _ =>
    simp only [itemPart, PartThen, FieldNumber, fieldRange]
    constructor
    · rintro ⟨n, h, h1, h2⟩; exact ⟨n, ⟨n, h, rfl⟩, by omega, by omega⟩
    · rintro ⟨_, ⟨n, h, rfl⟩, h1, h2⟩; exact ⟨n, h, by omega, by omega⟩

theorem scanItem_ok {i : ScanItem} {p : Parsed} {s r : Str} : (∃ q, scanItem i p s = .ok (q, r)) ↔ PartThen (itemPart i) s r := by
  cases i with
  | field f =>
    rw [partThen_field]
    simp only [scanField_ok]
    exact ⟨fun ⟨_, v, h1, h2, h3, _⟩ => ⟨v, h1, h2, h3⟩, fun ⟨v, h1, h2, h3⟩ => ⟨_, v, h1, h2, h3, rfl⟩⟩
  | literal c =>
    simp only [itemPart, PartThen, scanItem]
    cases s with
    | nil => simp
    | cons d t =>
      by_cases h : d = c
      · simp [h]
      · simp [h]

/-! ## Errors -/

theorem scanField_err {f : DateField} {p : Parsed} {s : Str} {k : DateReason} :
    scanItem (.field f) p s = .error k ↔ fieldNumber f s = .error k ∨
      k = .outOfRange ∧ ∃ v r, fieldNumber f s = .ok (v, r) ∧ ¬ ((fieldRange f).1 ≤ v ∧ v ≤ (fieldRange f).2) := by
  simp only [scanItem]
  rw [exc_bind_err]
  refine or_congr Iff.rfl ?_
  constructor
  · rintro ⟨⟨v, r⟩, h1, h2⟩
    simp only at h2
    rw [exc_bind_err, set_eq] at h2
    rcases h2 with h2 | ⟨_, _, h2⟩
    · split at h2
      · cases h2
      · next hv => cases h2; exact ⟨rfl, v, r, h1, hv⟩
    · cases h2
  · rintro ⟨rfl, v, r, h1, h2⟩
    refine ⟨(v, r), h1, ?_⟩
    simp only
    rw [set_eq, if_neg h2]
    rfl

theorem exc_map_err {ε α β : Type} {x : Except ε α} {f : α → β} {e : ε} : x.map f = .error e ↔ x = .error e := by
  cases x <;> simp [Except.map]

theorem exc_map_ok {ε α β : Type} {x : Except ε α} {f : α → β} {b : β} : x.map f = .ok b ↔ ∃ a, x = .ok a ∧ f a = b := by
  cases x <;> simp [Except.map]

theorem number_error {max : Nat} {s : Str} {k : DateReason} (hm : s ≠ [] → 1 ≤ max) (h : number max s = .error k) :
    (k = .tooShort ∧ s = []) ∨ (k = .invalid ∧ ∃ c r, s = c :: r ∧ c.isDigit = false) ∨
    (k = .outOfRange ∧ ∃ ds r, s = ds ++ r ∧ Digits ds ∧ ds.length ≤ max ∧ (ds.length < max → ∀ c, r.head? = some c → c.isDigit = false) ∧ i64Max < decimal ds) := by
  rcases number_cases s hm with ⟨h1, e⟩ | ⟨c, r, h1, hc, e⟩ | ⟨ds, r, h1, hd, hl, hr, e⟩
  · rw [e] at h; cases h; exact .inl ⟨rfl, h1⟩
  · rw [e] at h; cases h; exact .inr (.inl ⟨rfl, c, r, h1, hc⟩)
  · rw [e] at h
    by_cases hb : (decimal ds : Int) ≤ i64Max
    · rw [if_pos hb] at h; cases h
    · rw [if_neg hb] at h; cases h; exact .inr (.inr ⟨rfl, ds, r, h1, hd, hl, hr, by omega⟩)

theorem number_okay {max : Nat} {s r : Str} {n : Nat} (hm : s ≠ [] → 1 ≤ max) (h : number max s = .ok (n, r)) :
    ∃ ds, s = ds ++ r ∧ Digits ds ∧ ds.length ≤ max ∧ (ds.length < max → ∀ c, r.head? = some c → c.isDigit = false) ∧ n = decimal ds := by
  rcases number_cases s hm with ⟨h1, e⟩ | ⟨c, r, h1, hc, e⟩ | ⟨ds, r', h1, hd, hl, hr, e⟩
  · rw [e] at h; cases h
  · rw [e] at h; cases h
  · rw [e] at h
    by_cases hb : (decimal ds : Int) ≤ i64Max
    · rw [if_pos hb] at h; cases h; exact ⟨ds, h1, hd, hl, hr, rfl⟩
    · rw [if_neg hb] at h; cases h

theorem length_one {q : Str} : q ≠ [] → 1 ≤ q.length := by cases q <;> simp

theorem tail_rest {ds r : Str} (hr : ds.length < (ds ++ r).length → ∀ c, r.head? = some c → c.isDigit = false) : ∀ c, r.head? = some c → ¬ ('0' ≤ c ∧ c ≤ '9') := by
  intro c hc
  refine not_digit_iff.2 (hr ?_ c hc)
  cases r with
  | nil => cases hc
  | cons => simp

/-- A number of at most two digits is missing. -/
theorem smallMissing {f : DateField} (hf : f ≠ .year) {lo hi : Nat} (hr : fieldRange f = ((lo : Int), (hi : Int))) {p : Parsed} {s : Str} {m : Str} :
    (∃ k, scanItem (.field f) p s = .error k ∧ k.text = m) ↔ PartMissing (.number lo hi) s m := by
  have hF : ∀ v r, FieldNumber f s v r ↔ ∃ n : Nat, NumberThen 2 s n r ∧ v = n := by intro v r; cases f <;> first | exact absurd rfl hf | exact Iff.rfl
  obtain ⟨ws, es, hw, hh⟩ := trim_split s
  simp only [scanField_err, smallNumber hf, exc_map_err, exc_map_ok, hr]
  constructor
  · rintro ⟨k, h | ⟨rfl, v, r, ⟨⟨n, r'⟩, h, e⟩, hv⟩, rfl⟩
    · rcases number_error (by omega) h with ⟨rfl, e⟩ | ⟨rfl, c, r, e, hc⟩ | ⟨rfl, ds, r, e, hd, hl, -, hb⟩
      · rw [e, List.append_nil] at es; rw [es]; exact .numberEnd hw
      · rw [es, e]
        exact .numberChar hw (hh c (by rw [e]; rfl)) (not_digit_iff.2 hc)
      · have := decimal_small hd hl
        rw [i64Max_val] at hb; omega
    · cases e
      obtain ⟨ds, e, hd, hl, hr', rfl⟩ := number_okay (by omega) h
      refine .numberRange (n := decimal ds) (r := r') ⟨ws, ds, by rw [← e]; exact es, hw, hd, hl, rfl, fun h c hc => not_digit_iff.2 (hr' h c hc)⟩ ?_
      simp only at hv
      omega
  · intro h
    cases h with
    | numberEnd hb => exact ⟨.tooShort, .inl (by rw [trimStart_blanks hb]; rfl), rfl⟩
    | numberChar hb hn hc => exact ⟨.invalid, .inl (by rw [trimStart_cons hb hn]; exact number_bad (by decide) (not_digit_iff.1 hc) _), rfl⟩
    | @numberRange _ _ n _ r hn hv =>
      obtain ⟨ws', ds, e, hw', hd, hl, rfl, hr'⟩ := hn
      refine ⟨.outOfRange, .inr ⟨rfl, decimal ds, r, ⟨(decimal ds, r), ?_, rfl⟩, by omega⟩, rfl⟩
      rw [e, trimStart_digitsText hw' hd, number_digits hd hl (fun h c hc => not_digit_iff.1 (hr' h c hc))]
      have := decimal_small hd hl
      rw [if_pos (by rw [i64Max_val]; omega)]

theorem yearMissing {p : Parsed} {s : Str} {m : Str} :
    (∃ k, scanItem (.field .year) p s = .error k ∧ k.text = m) ↔ PartMissing .year s m := by
  obtain ⟨ws, es, hw, hh⟩ := trim_split s
  simp only [scanField_err, fieldRange]
  constructor
  · rintro ⟨k, h, rfl⟩
    by_cases hsg : ∃ c q, trimStart s = c :: q ∧ (c = '+' ∨ c = '-')
    · obtain ⟨c, q, e, hc⟩ := hsg
      rw [yearNumber_sign e hc] at h
      simp only [exc_map_err, exc_map_ok] at h
      rcases h with h | ⟨rfl, v, r, ⟨⟨n, r'⟩, h, e'⟩, hv⟩
      · rcases number_error length_one h with ⟨rfl, rfl⟩ | ⟨rfl, d, r, rfl, hd⟩ | ⟨rfl, ds, r, rfl, hd, hl, hr, hb⟩
        · rw [es, e]; exact .signEnd hw hc
        · rw [es, e]; exact .signChar hw hc (not_digit_iff.2 hd)
        · refine .yearRange (y := if c = '-' then -(decimal ds : Int) else decimal ds) (r := r) (.inr ⟨ws, c, ds, by rw [es, e], hw, hd, tail_rest hr, ?_⟩) ?_
          · rcases hc with rfl | rfl <;> simp
          · rw [i64Max_val] at hb
            rcases hc with rfl | rfl <;> simp <;> omega
      · simp only [Prod.mk.injEq] at e'
        obtain ⟨rfl, rfl⟩ := e'
        obtain ⟨ds, rfl, hd, hl, hr, rfl⟩ := number_okay length_one h
        refine .yearRange (r := r') (.inr ⟨ws, c, ds, by rw [es, e], hw, hd, tail_rest hr, ?_⟩) hv
        rcases hc with rfl | rfl <;> simp
    · have h1 : ∀ r, trimStart s ≠ '-' :: r := fun r e => hsg ⟨_, r, e, .inr rfl⟩
      have h2 : ∀ r, trimStart s ≠ '+' :: r := fun r e => hsg ⟨_, r, e, .inl rfl⟩
      rw [yearNumber_plain h1 h2 rfl] at h
      simp only [exc_map_err, exc_map_ok] at h
      rcases h with h | ⟨rfl, v, r, ⟨⟨n, r'⟩, h, e'⟩, hv⟩
      · rcases number_error (by omega) h with ⟨rfl, e⟩ | ⟨rfl, d, r, e, hd⟩ | ⟨rfl, ds, r, e, hd, hl, hr, hb⟩
        · rw [e, List.append_nil] at es; rw [es]; exact .yearEnd hw
        · rw [es, e]
          exact .yearChar hw (hh d (by rw [e]; rfl)) (not_digit_iff.2 hd) (by rintro rfl; exact h2 _ e) (by rintro rfl; exact h1 _ e)
        · have := decimal_small hd hl
          rw [i64Max_val] at hb; omega
      · simp only [Prod.mk.injEq] at e'
        obtain ⟨rfl, rfl⟩ := e'
        obtain ⟨ds, e, hd, hl, hr, rfl⟩ := number_okay (by omega) h
        exact .yearRange (r := r') (.inl ⟨decimal ds, ⟨ws, ds, by rw [← e]; exact es, hw, hd, hl, rfl, fun h c hc => not_digit_iff.2 (hr h c hc)⟩, rfl⟩) hv
  · intro h
    have nws : ∀ {c : Char}, c = '+' ∨ c = '-' → isWhitespace c = false := by rintro c (rfl | rfl) <;> decide
    cases h with
    | yearEnd hb =>
      refine ⟨.tooShort, .inl ?_, rfl⟩
      rw [yearNumber_plain (t := []) (by simp) (by simp) (trimStart_blanks hb)]
      rfl
    | signEnd hb hc =>
      refine ⟨.tooShort, .inl ?_, rfl⟩
      rw [yearNumber_sign (trimStart_cons hb (nws hc)) hc]
      rfl
    | yearChar hb hn hd hp hm =>
      refine ⟨.invalid, .inl ?_, rfl⟩
      rw [yearNumber_plain (fun r h => by simp at h; exact hm h.1) (fun r h => by simp at h; exact hp h.1) (trimStart_cons hb hn), number_bad (by decide) (not_digit_iff.1 hd)]
      rfl
    | signChar hb hc hd =>
      refine ⟨.invalid, .inl ?_, rfl⟩
      rw [yearNumber_sign (trimStart_cons hb (nws hc)) hc, number_bad (by simp) (not_digit_iff.1 hd)]
      rfl
    | @yearRange _ r y hy hv =>
      refine ⟨.outOfRange, ?_, rfl⟩
      rcases hy with ⟨n, ⟨ws', ds, e, hw', hd, hl, rfl, hr⟩, rfl⟩ | ⟨ws', c, ds, e, hw', hd, hr, hc⟩
      · have := decimal_small hd hl
        omega
      · have hcs : c = '+' ∨ c = '-' := by rcases hc with ⟨h, -⟩ | ⟨h, -⟩ <;> simp [h]
        have ht : trimStart s = c :: (ds ++ r) := by rw [e]; exact trimStart_cons hw' (nws hcs)
        rw [yearNumber_sign ht hcs, number_digits hd (by simp) (fun _ c hc => not_digit_iff.1 (hr c hc))]
        by_cases hb : (decimal ds : Int) ≤ i64Max
        · rw [if_pos hb]
          refine .inr ⟨rfl, y, r, ?_, hv⟩
          rcases hc with ⟨rfl, h⟩ | ⟨rfl, h⟩ <;> simp [Except.map, h]
        · rw [if_neg hb]; exact .inl rfl

theorem scanItem_err {i : ScanItem} {p : Parsed} {s m : Str} : (∃ k, scanItem i p s = .error k ∧ k.text = m) ↔ PartMissing (itemPart i) s m := by
  cases i with
  | field f =>
    cases f with
    | year => exact yearMissing
    | month => exact smallMissing (by decide) rfl
    | day => exact smallMissing (by decide) rfl
    | hour => exact smallMissing (by decide) rfl
    | minute => exact smallMissing (by decide) rfl
    | second => exact smallMissing (by decide) rfl
  | literal c =>
    simp only [itemPart, scanItem]
    constructor
    · rintro ⟨k, h, rfl⟩
      cases s with
      | nil => cases h; exact .letterEnd
      | cons d t =>
        simp only at h
        split at h
        · cases h
        · next hd => cases h; exact .letterOther hd
    · intro h
      cases h with
      | letterEnd => exact ⟨_, rfl, rfl⟩
      | letterOther hd => exact ⟨.invalid, by simp [hd], rfl⟩

/-! ## Formats -/

theorem scanItems_err (is : List ScanItem) : ∀ (p : Parsed) (s m : Str), (∃ k, scanItems is p s = .error k ∧ k.text = m) ↔
    (∃ ps q qs r, is.map itemPart = ps ++ q :: qs ∧ PartsThen ps s r ∧ PartMissing q r m) ∨
    (m = c!"trailing input" ∧ ∃ c r, PartsThen (is.map itemPart) s (c :: r)) := by
  induction is with
  | nil =>
    intro p s m
    constructor
    · rintro ⟨k, h, rfl⟩
      cases s with
      | nil => cases h
      | cons c r => cases h; exact .inr ⟨rfl, c, r, .nil⟩
    · rintro (⟨ps, q, qs, r, h, -⟩ | ⟨rfl, c, r, h⟩)
      · simp at h
      · cases h; exact ⟨.tooLong, rfl, rfl⟩
  | cons i is ih =>
    intro p s m
    simp only [scanItems, exc_bind_err]
    constructor
    · rintro ⟨k, h | ⟨⟨q, r⟩, h1, h2⟩, rfl⟩
      · exact .inl ⟨[], _, _, s, rfl, .nil, scanItem_err.1 ⟨k, h, rfl⟩⟩
      · have hp := scanItem_ok.1 ⟨q, h1⟩
        rcases (ih q r _).1 ⟨k, h2, rfl⟩ with ⟨ps, x, qs, t, e, h3, h4⟩ | ⟨e, c, t, h3⟩
        · exact .inl ⟨_ :: ps, x, qs, t, by simp [e], .cons hp h3, h4⟩
        · exact .inr ⟨e, c, t, .cons hp h3⟩
    · have go : ∀ {r}, PartThen (itemPart i) s r → (∀ q, ∃ k, scanItems is q r = .error k ∧ k.text = m) →
          ∃ k, (scanItem i p s = .error k ∨ ∃ a, scanItem i p s = .ok a ∧ scanItems is a.1 a.2 = .error k) ∧ k.text = m := by
        intro r hp h
        obtain ⟨q, hq⟩ := scanItem_ok.2 hp
        obtain ⟨k, hk, e⟩ := h q
        exact ⟨k, .inr ⟨_, hq, hk⟩, e⟩
      rintro (⟨ps, x, qs, t, e, h3, h4⟩ | ⟨rfl, c, t, h3⟩)
      · cases ps with
        | nil =>
          simp only [List.map_cons, List.nil_append, List.cons.injEq] at e
          cases h3
          rw [← e.1] at h4
          obtain ⟨k, hk, e⟩ := scanItem_err.2 h4
          exact ⟨k, .inl hk, e⟩
        | cons y ps =>
          simp only [List.map_cons, List.cons_append, List.cons.injEq] at e
          cases h3 with
          | cons hp h3 =>
            rw [← e.1] at hp
            exact go hp fun q => (ih q _ _).2 (.inl ⟨ps, x, qs, t, e.2, h3, h4⟩)
      · rw [List.map_cons] at h3
        cases h3 with
        | cons hp h3 => exact go hp fun q => (ih q _ _).2 (.inr ⟨rfl, c, t, h3⟩)

theorem scanItems_ok (is : List ScanItem) : ∀ (p : Parsed) (s : Str), (∃ q, scanItems is p s = .ok q) ↔ PartsThen (is.map itemPart) s [] := by
  induction is with
  | nil =>
    intro p s
    constructor
    · rintro ⟨q, h⟩
      cases s with
      | nil => exact .nil
      | cons => cases h
    · intro h; cases h; exact ⟨p, rfl⟩
  | cons i is ih =>
    intro p s
    simp only [scanItems, exc_bind_ok]
    constructor
    · rintro ⟨q, ⟨a, r⟩, h1, h2⟩
      exact .cons (scanItem_ok.1 ⟨a, h1⟩) ((ih a r).1 ⟨q, h2⟩)
    · intro h
      rw [List.map_cons] at h
      cases h with
      | cons hp h =>
        obtain ⟨a, ha⟩ := scanItem_ok.2 hp
        obtain ⟨q, hq⟩ := (ih a _).2 h
        exact ⟨q, _, ha, hq⟩

end Ikal
