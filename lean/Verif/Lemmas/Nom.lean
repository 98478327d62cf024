import Verif.Line

/-! # Inversion lemmas for the parser combinators -/

namespace Ikal

namespace Nom

variable {α β γ : Type}

@[simp] theorem map_ok {p : P α} {f : α → β} {i r : Str} {b : β} :
    map p f i = .ok r b ↔ ∃ a, p i = .ok r a ∧ f a = b := by
  unfold map; cases p i <;> grind

@[simp] theorem map_err {p : P α} {f : α → β} {i : Str} : map p f i = .err ↔ p i = .err := by
  unfold map; cases p i <;> simp

@[simp] theorem map_panic {p : P α} {f : α → β} {i : Str} : map p f i = .panic ↔ p i = .panic := by
  unfold map; cases p i <;> simp

@[simp] theorem mapRes_ok {p : P α} {f : α → Res β} {i r : Str} {b : β} :
    mapRes p f i = .ok r b ↔ ∃ a, p i = .ok r a ∧ f a = .ok b := by
  unfold mapRes; cases p i <;> grind

theorem mapRes_panic {p : P α} {f : α → Res β} {i : Str} :
    mapRes p f i = .panic ↔ p i = .panic ∨ ∃ r a, p i = .ok r a ∧ f a = .panic := by
  unfold mapRes; cases p i <;> grind

@[simp] theorem pair_ok {p : P α} {q : P β} {i r : Str} {c : α × β} :
    pair p q i = .ok r c ↔ ∃ r', p i = .ok r' c.1 ∧ q r' = .ok r c.2 := by
  unfold pair
  obtain ⟨a, b⟩ := c
  cases p i <;> grind

theorem pair_panic {p : P α} {q : P β} {i : Str} :
    pair p q i = .panic ↔ p i = .panic ∨ ∃ r a, p i = .ok r a ∧ q r = .panic := by
  unfold pair; cases p i <;> grind

theorem pair_err {p : P α} {q : P β} {i : Str} :
    pair p q i = .err ↔ p i = .err ∨ ∃ r a, p i = .ok r a ∧ q r = .err := by
  unfold pair; cases p i <;> grind

@[simp] theorem preceded_ok {p : P α} {q : P β} {i r : Str} {b : β} :
    preceded p q i = .ok r b ↔ ∃ r' a, p i = .ok r' a ∧ q r' = .ok r b := by
  simp [preceded]; grind

@[simp] theorem terminated_ok {p : P α} {q : P β} {i r : Str} {a : α} :
    terminated p q i = .ok r a ↔ ∃ r' b, p i = .ok r' a ∧ q r' = .ok r b := by
  simp [terminated]; grind

@[simp] theorem delimited_ok {p : P α} {q : P β} {s : P γ} {i r : Str} {b : β} :
    delimited p q s i = .ok r b ↔
      ∃ r1 a r2 c, p i = .ok r1 a ∧ q r1 = .ok r2 b ∧ s r2 = .ok r c := by
  simp [delimited]

@[simp] theorem separatedPair_ok {p : P α} {s : P γ} {q : P β} {i r : Str} {c : α × β} :
    separatedPair p s q i = .ok r c ↔
      ∃ r1 r2 x, p i = .ok r1 c.1 ∧ s r1 = .ok r2 x ∧ q r2 = .ok r c.2 := by
  simp [separatedPair]

theorem alt_ok {p q : P α} {i r : Str} {a : α} :
    alt p q i = .ok r a ↔ p i = .ok r a ∨ (p i = .err ∧ q i = .ok r a) := by
  unfold alt; cases p i <;> simp

theorem alt_panic {p q : P α} {i : Str} :
    alt p q i = .panic ↔ p i = .panic ∨ (p i = .err ∧ q i = .panic) := by
  unfold alt; cases p i <;> simp

@[simp] theorem not_ok {p : P α} {i r : Str} : not p i = .ok r () ↔ p i = .err ∧ r = i := by
  unfold not; cases p i <;> simp [eq_comm]

@[simp] theorem not_panic {p : P α} {i : Str} : not p i = .panic ↔ p i = .panic := by
  unfold not; cases p i <;> simp

@[simp] theorem opt_panic {p : P α} {i : Str} : opt p i = .panic ↔ p i = .panic := by
  unfold opt; cases p i <;> simp

theorem stripPrefix_some {t s r : Str} : stripPrefix t s = some r ↔ s = t ++ r := by
  induction t generalizing s with
  | nil => simp [stripPrefix]
  | cons a t ih =>
    cases s with
    | nil => simp [stripPrefix]
    | cons b s =>
      simp only [stripPrefix]
      split
      · subst_vars; simp [ih]
      · rename_i h; simp; intro h'; exact absurd h'.symm h

theorem stripPrefix_none {t s : Str} : stripPrefix t s = none ↔ ¬ t <+: s := by
  constructor
  · rintro h ⟨r, rfl⟩
    have := stripPrefix_some.2 (rfl : t ++ r = t ++ r)
    rw [h] at this; simp at this
  · intro h
    cases e : stripPrefix t s with
    | none => rfl
    | some r => exact absurd ⟨r, (stripPrefix_some.1 e).symm⟩ h

@[simp] theorem tag_ok {t i r x : Str} : tag t i = .ok r x ↔ i = t ++ r ∧ x = t := by
  unfold tag
  cases h : stripPrefix t i with
  | some r' =>
    have := stripPrefix_some.1 h; subst this
    simp [eq_comm]
  | none =>
    simp; rintro rfl
    exact absurd ⟨r, rfl⟩ (stripPrefix_none.1 h)

@[simp] theorem tag_err {t i : Str} : tag t i = .err ↔ ¬ t <+: i := by
  rw [← stripPrefix_none]
  unfold tag; cases stripPrefix t i <;> simp

@[simp] theorem tag_panic {t i : Str} : tag t i ≠ .panic := by
  unfold tag; cases stripPrefix t i <;> simp

@[simp] theorem char_ok {c d : Char} {i r : Str} : char c i = .ok r d ↔ i = c :: r ∧ d = c := by
  unfold char
  cases i with
  | nil => simp
  | cons x i =>
    simp only
    split
    · subst_vars; simp [eq_comm]
    · rename_i h; simp [h]

theorem char_err {c : Char} {i : Str} : char c i = .err ↔ i.head? ≠ some c := by
  unfold char
  cases i with
  | nil => simp
  | cons x i => simp only; split <;> simp_all

@[simp] theorem char_panic {c : Char} {i : Str} : char c i ≠ .panic := by
  unfold char; split
  · simp
  · split <;> simp

@[simp] theorem lineEnding_ok {i r x : Str} :
    lineEnding i = .ok r x ↔ i = x ++ r ∧ (x = c!"\n" ∨ x = c!"\r\n") := by
  unfold lineEnding
  split
  · simp; constructor
    · rintro ⟨rfl, rfl⟩; simp
    · rintro ⟨h, rfl | rfl⟩ <;> simp_all
  · simp; constructor
    · rintro ⟨rfl, rfl⟩; simp
    · rintro ⟨h, rfl | rfl⟩ <;> simp_all
  · rename_i h1 h2
    simp
    rintro rfl
    constructor <;> rintro rfl
    · exact h1 _ rfl
    · exact h2 _ rfl

@[simp] theorem lineEnding_panic {i : Str} : lineEnding i ≠ .panic := by
  unfold lineEnding; split <;> simp

theorem takeWhile_append {p : Char → Bool} {a b : Str} (ha : ∀ c ∈ a, p c = true)
    (hb : ∀ c, b.head? = some c → p c = false) : takeWhile p (a ++ b) = .ok b a := by
  unfold takeWhile
  have h1 : b.takeWhile p = [] ∧ b.dropWhile p = b := by
    cases b with
    | nil => simp
    | cons c b => have := hb c (by simp); simp [this]
  rw [List.takeWhile_append_of_pos ha, List.dropWhile_append_of_pos ha]
  simp [h1]

theorem takeWhile_ok {p : Char → Bool} {i r a : Str} :
    takeWhile p i = .ok r a ↔ i = a ++ r ∧ (∀ c ∈ a, p c = true) ∧ (∀ c, r.head? = some c → p c = false) := by
  constructor
  · intro h
    simp [takeWhile] at h
    obtain ⟨rfl, rfl⟩ := h
    refine ⟨(List.takeWhile_append_dropWhile).symm, fun c hc => ?_, fun c hc => ?_⟩
    · exact List.all_eq_true.1 (List.all_takeWhile) c hc
    · induction i with
      | nil => simp at hc
      | cons x i ih =>
        rw [List.dropWhile_cons] at hc
        split at hc
        · exact ih hc
        · rename_i h; simp at hc h; subst hc; exact h
  · rintro ⟨rfl, ha, hb⟩; exact takeWhile_append ha hb

@[simp] theorem takeWhile_panic {p : Char → Bool} {i : Str} : takeWhile p i ≠ .panic := by simp [takeWhile]
@[simp] theorem takeWhile_err {p : Char → Bool} {i : Str} : takeWhile p i ≠ .err := by simp [takeWhile]

theorem takeTill_ok {p : Char → Bool} {i r a : Str} :
    takeTill p i = .ok r a ↔ i = a ++ r ∧ (∀ c ∈ a, p c = false) ∧ (∀ c, r.head? = some c → p c = true) := by
  unfold takeTill; rw [takeWhile_ok]; simp

@[simp] theorem takeTill_panic {p : Char → Bool} {i : Str} : takeTill p i ≠ .panic := by simp [takeTill]
@[simp] theorem takeTill_err {p : Char → Bool} {i : Str} : takeTill p i ≠ .err := by simp [takeTill]

/-! ## Repetition -/

/-- What `many0` reads: each round consumes, and it ends where the parser fails. -/
inductive Many (p : P α) : Str → List α → Str → Prop
  | nil {i} : p i = .err → Many p i [] i
  | cons {i r r' a as} : p i = .ok r a → r.length < i.length → Many p r as r' → Many p i (a :: as) r'

theorem many0Go_ok {p : P α} {n : Nat} {i r : Str} {as : List α} (hn : i.length < n) :
    many0Go p n i = .ok r as ↔ Many p i as r := by
  induction n generalizing i as r with
  | zero => omega
  | succ n ih =>
    simp only [many0Go]
    cases h : p i with
    | err =>
      simp only [NRes.ok.injEq]
      constructor
      · rintro ⟨rfl, rfl⟩; exact .nil h
      · intro hm; cases hm with
        | nil _ => simp
        | cons h' => rw [h] at h'; simp at h'
    | panic =>
      simp only [reduceCtorEq, false_iff]
      intro hm; cases hm with
      | nil h' => rw [h] at h'; simp at h'
      | cons h' => rw [h] at h'; simp at h'
    | ok r1 a =>
      simp only
      split
      · rename_i hlt
        have hi := fun as => ih (i := r1) (r := r) (as := as) (by omega)
        constructor
        · intro hm
          cases h2 : many0Go p n r1 with
          | ok r2 as2 =>
            rw [h2] at hm; simp at hm; obtain ⟨rfl, rfl⟩ := hm
            exact .cons h hlt ((hi as2).1 h2)
          | err => rw [h2] at hm; simp at hm
          | panic => rw [h2] at hm; simp at hm
        · intro hm
          cases hm with
          | nil h' => rw [h] at h'; simp at h'
          | cons h' hl' hm' =>
            rw [h] at h'; simp at h'; obtain ⟨rfl, rfl⟩ := h'
            rw [(hi _).2 hm']
      · rename_i hlt
        simp only [reduceCtorEq, false_iff]
        intro hm; cases hm with
        | nil h' => rw [h] at h'; simp at h'
        | cons h' hl' => rw [h] at h'; simp at h'; obtain ⟨rfl, rfl⟩ := h'; exact hlt hl'

/-- `many0` and its fuel-free description. -/
theorem many0_ok {p : P α} {i r : Str} {as : List α} : many0 p i = .ok r as ↔ Many p i as r :=
  many0Go_ok (by omega)

theorem many0Go_not_panic {p : P α} (hp : ∀ i, p i ≠ .panic) (n : Nat) (i : Str) : many0Go p n i ≠ .panic := by
  induction n generalizing i with
  | zero => simp [many0Go]
  | succ n ih =>
    simp only [many0Go]
    cases h : p i with
    | err => simp
    | panic => exact absurd h (hp i)
    | ok r a =>
      simp only; split
      · have := ih r
        cases h2 : many0Go p n r <;> simp_all
      · simp

theorem many0_not_panic {p : P α} (hp : ∀ i, p i ≠ .panic) (i : Str) : many0 p i ≠ .panic :=
  many0Go_not_panic hp _ i

theorem many0Go_not_err {p : P α} (hp : ∀ i r a, p i = .ok r a → r.length < i.length) (n : Nat) (i : Str)
    (hn : i.length < n) : many0Go p n i ≠ .err := by
  induction n generalizing i with
  | zero => omega
  | succ n ih =>
    simp only [many0Go]
    cases h : p i with
    | err => simp
    | panic => simp
    | ok r a =>
      have hl := hp _ _ _ h
      simp only [if_pos hl]
      have := ih r (by omega)
      cases h2 : many0Go p n r <;> simp_all

theorem many0_not_err {p : P α} (hp : ∀ i r a, p i = .ok r a → r.length < i.length) (i : Str) :
    many0 p i ≠ .err := many0Go_not_err hp _ i (by omega)

theorem Many.det {p : P α} {i r r' : Str} {as as' : List α} (h : Many p i as r) (h' : Many p i as' r') :
    as = as' ∧ r = r' := by
  have h1 := many0_ok.2 h
  have h2 := many0_ok.2 h'
  rw [h1] at h2; simp at h2; exact ⟨h2.2, h2.1⟩

end Nom
end Ikal
