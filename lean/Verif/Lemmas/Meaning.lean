import Verif.Lemmas.Macros

/-! # The meaning of a macro call is unique -/

namespace Ikal

open Spec

section
variable [Platform]

theorem Audio.members_ext {a b : Audio} (h : ∀ m ∈ Audio.members, m.get a = m.get b) : a = b := by
  cases a; cases b
  simpa [Audio.members] using h

theorem Display.members_ext {a b : Display} (h : ∀ m ∈ Display.members, m.get a = m.get b) : a = b := by
  cases a; cases b
  simpa [Display.members] using h

theorem Email.members_ext {a b : Email} (h : ∀ m ∈ Email.members, m.get a = m.get b) : a = b := by
  cases a; cases b
  simpa [Email.members] using h

theorem Standard.members_ext {a b : Standard} (h : ∀ m ∈ Standard.members, m.get a = m.get b) : a = b := by
  cases a; cases b
  simpa [Standard.members] using h

theorem Daylight.members_ext {a b : Daylight} (h : ∀ m ∈ Daylight.members, m.get a = m.get b) : a = b := by
  cases a; cases b
  simpa [Daylight.members] using h

theorem VEvent.members_ext {a b : VEvent} (h : ∀ m ∈ VEvent.members, m.get a = m.get b) : a = b := by
  cases a; cases b
  simpa [VEvent.members] using h

theorem VFreebusy.members_ext {a b : VFreebusy} (h : ∀ m ∈ VFreebusy.members, m.get a = m.get b) : a = b := by
  cases a; cases b
  simpa [VFreebusy.members] using h

theorem VJournal.members_ext {a b : VJournal} (h : ∀ m ∈ VJournal.members, m.get a = m.get b) : a = b := by
  cases a; cases b
  simpa [VJournal.members] using h

theorem VTimezone.members_ext {a b : VTimezone} (h : ∀ m ∈ VTimezone.members, m.get a = m.get b) : a = b := by
  cases a; cases b
  simpa [VTimezone.members] using h

theorem VTodo.members_ext {a b : VTodo} (h : ∀ m ∈ VTodo.members, m.get a = m.get b) : a = b := by
  cases a; cases b
  simpa [VTodo.members] using h

theorem VCalendar.members_ext {a b : VCalendar} (h : ∀ m ∈ VCalendar.members, m.get a = m.get b) : a = b := by
  cases a; cases b
  simpa [VCalendar.members] using h

theorem Recur.members_ext {a b : Recur} (h : ∀ m ∈ Recur.members, m.get a = m.get b) : a = b := by
  cases a; cases b
  simpa [Recur.members] using h

theorem Geo.members_ext {a b : Geo} (h : ∀ m ∈ Geo.members, m.get a = m.get b) : a = b := by
  cases a; cases b
  simpa [Geo.members] using h

theorem RequestStatus.members_ext {a b : RequestStatus} (h : ∀ m ∈ RequestStatus.members, m.get a = m.get b) : a = b := by
  cases a; cases b
  simpa [RequestStatus.members] using h

theorem struct_ext {t : RTy} {name : Str} {ms : List (Member t.den)} {d : t.den} (h : t.struct = some (name, ms, d))
    {a b : t.den} (hab : ∀ m ∈ ms, m.get a = m.get b) : a = b := by
  cases t <;> first | (cases h; done) | cases h
  exact Geo.members_ext hab; exact Recur.members_ext hab; exact RequestStatus.members_ext hab
  exact Audio.members_ext hab; exact Display.members_ext hab; exact Email.members_ext hab
  exact Standard.members_ext hab; exact Daylight.members_ext hab; exact VEvent.members_ext hab
  exact VFreebusy.members_ext hab; exact VJournal.members_ext hab; exact VTimezone.members_ext hab
  exact VTodo.members_ext hab; exact VCalendar.members_ext hab

theorem isString_unique {Γ : Env} {e : Expr} {s s' : Str} (h : IsString Γ e s) (h' : IsString Γ e s') : s = s' := by
  cases h with
  | literal => cases h'; rfl
  | inScope hn =>
    cases h' with
    | inScope hn' => rw [hn] at hn'; cases hn'; rfl

theorem isText_unique {Γ : Env} {e : Expr} {s s' : Str} (h : IsText Γ e s) (h' : IsText Γ e s') : s = s' := by
  cases h with
  | string h =>
    cases h' with
    | string h' => exact isString_unique h h'
    | text hn => cases h with | inScope h => rw [h] at hn; cases hn
  | text hn =>
    cases h' with
    | string h => cases h with | inScope h => rw [h] at hn; cases hn
    | text hn' => rw [hn] at hn'; cases hn'; rfl

theorem reads_unique {t : RTy} {s : Str} {r r' : Res t.den} (h : Reads t s r) (h' : Reads t s r') : r = r' := by
  cases h <;> (cases h'; rfl)

theorem variant_unique {t : RTy} {n : Str} {v v' : t.den} (h : IsVariant t n v) (h' : IsVariant t n v') : v = v' := by
  cases h with
  | class_ h =>
    cases h' with
    | class_ h' =>
      simp only [classNames, List.mem_cons, Prod.mk.injEq, List.not_mem_nil, or_false] at h h'
      rcases h with ⟨rfl, rfl⟩ | ⟨rfl, rfl⟩ | ⟨rfl, rfl⟩ <;> exact Eq.symm (by simpa using h')
  | freq h =>
    cases h' with
    | freq h' =>
      simp only [freqNames, List.mem_cons, Prod.mk.injEq, List.not_mem_nil, or_false] at h h'
      rcases h with ⟨rfl, rfl⟩ | ⟨rfl, rfl⟩ | ⟨rfl, rfl⟩ | ⟨rfl, rfl⟩ | ⟨rfl, rfl⟩ | ⟨rfl, rfl⟩ | ⟨rfl, rfl⟩ <;>
        exact Eq.symm (by simpa using h')
  | status h =>
    cases h' with
    | status h' =>
      simp only [statusNames, List.mem_cons, Prod.mk.injEq, List.not_mem_nil, or_false] at h h'
      rcases h with ⟨rfl, rfl⟩ | ⟨rfl, rfl⟩ | ⟨rfl, rfl⟩ | ⟨rfl, rfl⟩ | ⟨rfl, rfl⟩ | ⟨rfl, rfl⟩ | ⟨rfl, rfl⟩ | ⟨rfl, rfl⟩ <;>
        exact Eq.symm (by simpa using h')
  | transp h =>
    cases h' with
    | transp h' =>
      simp only [transpNames, List.mem_cons, Prod.mk.injEq, List.not_mem_nil, or_false] at h h'
      rcases h with ⟨rfl, rfl⟩ | ⟨rfl, rfl⟩ <;> exact Eq.symm (by simpa using h')

/-- Nesting of `Option`. -/
def RTy.depth : RTy → Nat
  | .option t => t.depth + 1
  | _ => 0

theorem means_depth {Γ : Env} (hΓ : NoShadow Γ) {n : Str} {s : RTy} {x : s.den} (hn : Γ n = some ⟨s, x⟩) :
    ∀ (t : RTy) {r : Res t.den}, Means Γ t (.single (.name n)) r → s.depth ≤ t.depth
  | t, r, h => by
    have key : ∀ (u : RTy) (y : u.den), Γ n = some ⟨u, y⟩ → s = u := by
      intro u y h; rw [hn] at h; cases h; rfl
    cases h with
    | text h => cases h with | inScope h => rw [key _ _ h]; exact Nat.zero_le _
    | uri h => cases h with | inScope h => rw [key _ _ h]; exact Nat.zero_le _
    | string h => cases h with | inScope h => rw [key _ _ h]; exact Nat.zero_le _
    | duration h => cases h with | inScope h => rw [key _ _ h]; exact Nat.zero_le _
    | reads h _ =>
      cases h with
      | string h => cases h with | inScope h => rw [key _ _ h]; exact Nat.zero_le _
      | text h => rw [key _ _ h]; exact Nat.zero_le _
    | variant h => rw [hΓ _ _ _ h] at hn; cases hn
    | inScope h => rw [key _ _ h]; exact Nat.le_refl _
    | dateTimeOfDate h => rw [key _ _ h]; exact Nat.zero_le _
    | dateOfDateTime h => rw [key _ _ h]; exact Nat.zero_le _
    | u32OfU8 h => rw [key _ _ h]; exact Nat.zero_le _
    | audio h => rw [key _ _ h]; exact Nat.zero_le _
    | display h => rw [key _ _ h]; exact Nat.zero_le _
    | email h => rw [key _ _ h]; exact Nat.zero_le _
    | some h => exact Nat.le_succ_of_le (means_depth hΓ hn _ h)

theorem built_unique {t : RTy} {name : Str} {ms : List (Member t.den)} {d : t.den} (hs : t.struct = some (name, ms, d))
    {as : List ((m : Member t.den) × Res m.ty.den)} {r r' : Res t.den} (ha : ∀ a ∈ as, a.1 ∈ ms)
    (h : Built d ms as r) (h' : Built d ms as r') : r = r' := by
  have first : ∀ {f f' : ((m : Member t.den) × Res m.ty.den) → Prop}, FirstFailure f as → FirstFailure f' as →
      (∀ a, f a → ∀ x, a.2 ≠ .ok x) → (∀ a, f' a → ∀ x, a.2 ≠ .ok x) → ∃ a, f a ∧ f' a := by
    rintro f f' ⟨b, a, c, rfl, hb, hf⟩ ⟨b', a', c', he, hb', hf'⟩ n1 n2
    have : b = b' ∧ a = a' := by
      clear h h' ha
      induction b generalizing b' with
      | nil =>
        cases b' with
        | nil => simp only [List.nil_append, List.cons.injEq] at he; exact ⟨rfl, he.1⟩
        | cons y b' =>
          simp only [List.nil_append, List.cons_append, List.cons.injEq] at he
          obtain ⟨rfl, he⟩ := he
          obtain ⟨x, hx⟩ := hb' a (by simp)
          exact absurd hx (n1 a hf x)
      | cons z b ih =>
        cases b' with
        | nil =>
          simp only [List.nil_append, List.cons_append, List.cons.injEq] at he
          obtain ⟨rfl, he⟩ := he
          obtain ⟨x, hx⟩ := hb z (by simp)
          exact absurd hx (n2 z hf' x)
        | cons y b' =>
          simp only [List.cons_append, List.cons.injEq] at he
          obtain ⟨rfl, he⟩ := he
          obtain ⟨rfl, ha⟩ := ih (fun q hq => hb q (List.mem_cons_of_mem _ hq)) b' he
            (fun q hq => hb' q (List.mem_cons_of_mem _ hq))
          exact ⟨rfl, ha⟩
    exact ⟨a, hf, this.2 ▸ hf'⟩
  have good : ∀ {f : ((m : Member t.den) × Res m.ty.den) → Prop} {v : t.den}, FirstFailure f as →
      Built d ms as (.ok v) → (∀ a, f a → ∀ x, a.2 ≠ .ok x) → False := by
    rintro f v ⟨b, a, c, rfl, hb, hf⟩ ⟨h1, _⟩ n
    exact n a hf _ (h1 a (by simp))
  cases r with
  | ok v =>
    cases r' with
    | ok v' =>
      refine congrArg Res.ok (struct_ext hs ?_)
      intro m hm
      by_cases hn : ∀ a ∈ as, a.1.name ≠ m.name
      · rw [h.2 m hm hn, h'.2 m hm hn]
      · simp only [ne_eq, Classical.not_forall, Classical.not_not] at hn
        obtain ⟨a, haa, hn⟩ := hn
        have he := (struct_good hs).unique (ha a haa) hm hn
        subst he
        have h1 := h.1 a haa
        rw [h'.1 a haa] at h1
        exact (Res.ok.inj h1).symm
    | err e => exact (good h' h (by rintro a hf x hx; rw [hf] at hx; cases hx)).elim
    | panic => exact (good h' h (by rintro a hf x hx; rw [hf] at hx; cases hx)).elim
  | err e =>
    cases r' with
    | ok v => exact (good h h' (by rintro a hf x hx; rw [hf] at hx; cases hx)).elim
    | err e' =>
      obtain ⟨a, h1, h2⟩ := first h h' (by rintro a hf x hx; rw [hf] at hx; cases hx)
        (by rintro a hf x hx; rw [hf] at hx; cases hx)
      rw [h1] at h2
      cases h2; rfl
    | panic =>
      obtain ⟨a, h1, h2⟩ := first h h' (by rintro a hf x hx; rw [hf] at hx; cases hx)
        (by rintro a hf x hx; rw [hf] at hx; cases hx)
      rw [h1] at h2
      cases h2
  | panic =>
    cases r' with
    | ok v => exact (good h h' (by rintro a hf x hx; rw [hf] at hx; cases hx)).elim
    | err e' =>
      obtain ⟨a, h1, h2⟩ := first h h' (by rintro a hf x hx; rw [hf] at hx; cases hx)
        (by rintro a hf x hx; rw [hf] at hx; cases hx)
      rw [h1] at h2
      cases h2
    | panic => rfl

omit [Platform] in
theorem sequenced_unique {α : Type} {rs : List (Res α)} {r r' : Res (List α)} (h : Sequenced rs r)
    (h' : Sequenced rs r') : r = r' := by
  have inj : ∀ (l l' : List α), l.map Res.ok = l'.map Res.ok → l = l' :=
    fun l l' h => List.map_inj_right (fun a b h => Res.ok.inj h) |>.1 h
  have clash : ∀ (l g : List α) (b : Res α) (k : List (Res α)), (∀ x, b ≠ .ok x) → l.map Res.ok ≠ g.map Res.ok ++ b :: k := by
    intro l g b k hb he
    have : b ∈ l.map Res.ok := he ▸ by simp
    obtain ⟨x, _, hx⟩ := List.mem_map.1 this
    exact hb x hx.symm
  have same : ∀ (g g' : List α) (b b' : Res α) (k k' : List (Res α)), (∀ x, b ≠ .ok x) → (∀ x, b' ≠ .ok x) →
      g.map Res.ok ++ b :: k = g'.map Res.ok ++ b' :: k' → b = b' := by
    intro g
    induction g with
    | nil =>
      intro g' b b' k k' hb hb' he
      cases g' with
      | nil => simp only [List.map_nil, List.nil_append, List.cons.injEq] at he; exact he.1
      | cons y g' => simp only [List.map_nil, List.nil_append, List.map_cons, List.cons_append, List.cons.injEq] at he; exact absurd he.1 (hb y)
    | cons z g ih =>
      intro g' b b' k k' hb hb' he
      cases g' with
      | nil => simp only [List.map_nil, List.nil_append, List.map_cons, List.cons_append, List.cons.injEq] at he; exact absurd he.1.symm (hb' z)
      | cons y g' =>
        simp only [List.map_cons, List.cons_append, List.cons.injEq] at he
        exact ih g' b b' k k' hb hb' he.2
  cases r with
  | ok l =>
    cases r' with
    | ok l' => exact congrArg Res.ok (inj _ _ (h.symm.trans h'))
    | err e => obtain ⟨g, k, h'⟩ := h'; exact absurd (h.symm.trans h') (clash _ _ _ _ (by intro x hx; cases hx))
    | panic => obtain ⟨g, k, h'⟩ := h'; exact absurd (h.symm.trans h') (clash _ _ _ _ (by intro x hx; cases hx))
  | err e =>
    obtain ⟨g, k, h⟩ := h
    cases r' with
    | ok l' => exact absurd (h'.symm.trans h) (clash _ _ _ _ (by intro x hx; cases hx))
    | err e' =>
      obtain ⟨g', k', h'⟩ := h'
      have := same _ _ _ _ _ _ (by intro x hx; cases hx) (by intro x hx; cases hx) (h.symm.trans h')
      cases this; rfl
    | panic =>
      obtain ⟨g', k', h'⟩ := h'
      have := same _ _ _ _ _ _ (by intro x hx; cases hx) (by intro x hx; cases hx) (h.symm.trans h')
      cases this
  | panic =>
    obtain ⟨g, k, h⟩ := h
    cases r' with
    | ok l' => exact absurd (h'.symm.trans h) (clash _ _ _ _ (by intro x hx; cases hx))
    | err e' =>
      obtain ⟨g', k', h'⟩ := h'
      have := same _ _ _ _ _ _ (by intro x hx; cases hx) (by intro x hx; cases hx) (h.symm.trans h')
      cases this
    | panic => rfl

/-- What a variable of a given type can mean at a type without nested options. -/
theorem single_unique {Γ : Env} (hΓ : NoShadow Γ) : ∀ (t : RTy) {e : Expr} {r r' : Res t.den},
    Means Γ t (.single e) r → Means Γ t (.single e) r' → r = r'
  | t, e, r, r', h, h' => by
    have str : ∀ {e s s'}, IsString Γ e s → IsString Γ e s' → s' = s := fun a b => isString_unique b a
    have txt : ∀ {e s s'}, IsText Γ e s → IsText Γ e s' → s' = s := fun a b => isText_unique b a
    have vars : ∀ {n} {s s' : RTy} {x : s.den} {x' : s'.den}, Γ n = some ⟨s, x⟩ → Γ n = some ⟨s', x'⟩ → s = s' ∧ HEq x x' := by
      intro n s s' x x' h h'
      rw [h] at h'
      cases h'
      exact ⟨rfl, HEq.rfl⟩
    have named : ∀ {n : Str} {s}, IsText Γ (.name n) s → ∃ u, ∃ x : u.den, Γ n = some ⟨u, x⟩ ∧ (u = .str ∨ u = .text) := by
      intro n s h
      cases h with
      | string h => cases h with | inScope h => exact ⟨_, _, h, .inl rfl⟩
      | text h => exact ⟨_, _, h, .inr rfl⟩
    have noreads : ∀ {t : RTy} {s r}, Reads t s r → (t = .str ∨ t = .text) → False := by
      intro t s r h ht
      rcases ht with rfl | rfl <;> cases h
    cases h with
    | text h =>
      cases h' with
      | text h' => rw [str h h']
      | reads _ h' => cases h'
      | variant h' => cases h'
      | inScope hn => cases h with | inScope h => have := (vars h hn).1; cases this
    | uri h =>
      cases h' with
      | uri h' => rw [str h h']
      | reads _ h' => cases h'
      | variant h' => cases h'
      | inScope hn => cases h with | inScope h => have := (vars h hn).1; cases this
    | string h =>
      cases h' with
      | string h' => rw [str h h']
      | reads _ h' => cases h'
      | variant h' => cases h'
      | inScope hn => cases h with | inScope h => have := (vars h hn).2; cases this; rfl
    | duration h =>
      cases h' with
      | duration h' => rw [str h h']
      | reads _ h' => cases h'
      | variant h' => cases h'
      | inScope hn => cases h with | inScope h => have := (vars h hn).1; cases this
    | reads h hr =>
      cases h' with
      | reads h' hr' =>
        have := txt h h'
        subst this
        exact reads_unique hr hr'
      | text h' => cases hr
      | uri h' => cases hr
      | string h' => cases hr
      | duration h' => cases hr
      | variant h' => obtain ⟨u, x, hn, _⟩ := named h; rw [hΓ _ _ _ h'] at hn; cases hn
      | inScope h' =>
        obtain ⟨u, x, hn, hu⟩ := named h
        obtain ⟨rfl, _⟩ := vars hn h'
        exact (noreads hr hu).elim
      | dateTimeOfDate h' =>
        obtain ⟨u, x, hn, hu⟩ := named h
        obtain ⟨rfl, _⟩ := vars hn h'
        simp at hu
      | dateOfDateTime h' =>
        obtain ⟨u, x, hn, hu⟩ := named h
        obtain ⟨rfl, _⟩ := vars hn h'
        simp at hu
      | u32OfU8 h' =>
        obtain ⟨u, x, hn, hu⟩ := named h
        obtain ⟨rfl, _⟩ := vars hn h'
        simp at hu
      | audio h' =>
        obtain ⟨u, x, hn, hu⟩ := named h
        obtain ⟨rfl, _⟩ := vars hn h'
        simp at hu
      | display h' =>
        obtain ⟨u, x, hn, hu⟩ := named h
        obtain ⟨rfl, _⟩ := vars hn h'
        simp at hu
      | email h' =>
        obtain ⟨u, x, hn, hu⟩ := named h
        obtain ⟨rfl, _⟩ := vars hn h'
        simp at hu
      | some h' => cases hr
      | _ => cases h with | string h => cases h
    | u8 _ => cases h' with
      | u8 _ => rfl
      | reads h' _ => cases h' with | string h' => cases h'
    | u32 _ => cases h' with
      | u32 _ => rfl
      | reads h' _ => cases h' with | string h' => cases h'
    | i8 _ => cases h' with
      | i8 _ => rfl
      | reads h' _ => cases h' with | string h' => cases h'
    | neg _ => cases h' with
      | neg _ => rfl
      | reads h' _ => cases h' with | string h' => cases h'
    | float => cases h' with
      | float => rfl
      | reads h' _ => cases h' with | string h' => cases h'
    | negFloat => cases h' with
      | negFloat => rfl
      | reads h' _ => cases h' with | string h' => cases h'
    | custom => cases h' with
      | custom => rfl
      | reads h' _ => cases h' with | string h' => cases h'
    | variant hv =>
      cases h' with
      | variant hv' => rw [variant_unique hv hv']
      | reads h' _ => obtain ⟨u, x, hn, _⟩ := named h'; rw [hΓ _ _ _ hv] at hn; cases hn
      | inScope hn => rw [hΓ _ _ _ hv] at hn; cases hn
      | text _ => cases hv
      | uri _ => cases hv
      | string _ => cases hv
      | duration _ => cases hv
      | dateTimeOfDate _ => cases hv
      | dateOfDateTime _ => cases hv
      | u32OfU8 _ => cases hv
      | audio _ => cases hv
      | display _ => cases hv
      | email _ => cases hv
      | some _ => cases hv
    | inScope hn =>
      cases h' with
      | inScope hn' => have := (vars hn hn').2; cases this; rfl
      | variant hv => rw [hΓ _ _ _ hv] at hn; cases hn
      | reads h' hr =>
        obtain ⟨u, x, hn', hu⟩ := named h'
        obtain ⟨rfl, _⟩ := vars hn' hn
        exact (noreads hr hu).elim
      | text h => cases h with | inScope h => have := (vars h hn).1; cases this
      | uri h => cases h with | inScope h => have := (vars h hn).1; cases this
      | string h => cases h with | inScope h => have := (vars hn h).2; cases this; rfl
      | duration h => cases h with | inScope h => have := (vars h hn).1; cases this
      | dateTimeOfDate h => have := (vars h hn).1; cases this
      | dateOfDateTime h => have := (vars h hn).1; cases this
      | u32OfU8 h => have := (vars h hn).1; cases this
      | audio h => have := (vars h hn).1; cases this
      | display h => have := (vars h hn).1; cases this
      | email h => have := (vars h hn).1; cases this
      | some h => have := means_depth hΓ hn _ h; simp only [RTy.depth] at this; omega
    | dateTimeOfDate hn =>
      cases h' with
      | dateTimeOfDate hn' => have := (vars hn hn').2; cases this; rfl
      | inScope hn' => have := (vars hn hn').1; cases this
      | variant hv => cases hv
      | reads h' hr => obtain ⟨u, x, hn', hu⟩ := named h'; obtain ⟨rfl, _⟩ := vars hn' hn; simp at hu
    | dateOfDateTime hn =>
      cases h' with
      | dateOfDateTime hn' => have := (vars hn hn').2; cases this; rfl
      | inScope hn' => have := (vars hn hn').1; cases this
      | variant hv => cases hv
      | reads h' hr => obtain ⟨u, x, hn', hu⟩ := named h'; obtain ⟨rfl, _⟩ := vars hn' hn; simp at hu
    | u32OfU8 hn =>
      cases h' with
      | u32OfU8 hn' => have := (vars hn hn').2; cases this; rfl
      | inScope hn' => have := (vars hn hn').1; cases this
      | variant hv => cases hv
      | reads h' hr => obtain ⟨u, x, hn', hu⟩ := named h'; obtain ⟨rfl, _⟩ := vars hn' hn; simp at hu
    | audio hn =>
      cases h' with
      | audio hn' => have := (vars hn hn').2; cases this; rfl
      | display hn' => have := (vars hn hn').1; cases this
      | email hn' => have := (vars hn hn').1; cases this
      | inScope hn' => have := (vars hn hn').1; cases this
      | variant hv => cases hv
      | reads h' hr => obtain ⟨u, x, hn', hu⟩ := named h'; obtain ⟨rfl, _⟩ := vars hn' hn; simp at hu
    | display hn =>
      cases h' with
      | display hn' => have := (vars hn hn').2; cases this; rfl
      | audio hn' => have := (vars hn hn').1; cases this
      | email hn' => have := (vars hn hn').1; cases this
      | inScope hn' => have := (vars hn hn').1; cases this
      | variant hv => cases hv
      | reads h' hr => obtain ⟨u, x, hn', hu⟩ := named h'; obtain ⟨rfl, _⟩ := vars hn' hn; simp at hu
    | email hn =>
      cases h' with
      | email hn' => have := (vars hn hn').2; cases this; rfl
      | audio hn' => have := (vars hn hn').1; cases this
      | display hn' => have := (vars hn hn').1; cases this
      | inScope hn' => have := (vars hn hn').1; cases this
      | variant hv => cases hv
      | reads h' hr => obtain ⟨u, x, hn', hu⟩ := named h'; obtain ⟨rfl, _⟩ := vars hn' hn; simp at hu
    | some h =>
      cases h' with
      | some h' => rw [single_unique hΓ _ h h']
      | reads _ hr => cases hr
      | variant hv => cases hv
      | inScope hn => have := means_depth hΓ hn _ h; simp only [RTy.depth] at this; omega

theorem no_none {Γ : Env} : ∀ (t : RTy) {r : Res t.den}, ¬ Means Γ t .none r
  | t, r, h => by
    cases h with
    | some h => exact no_none _ h

mutual
/-- A value means at most one result. -/
theorem means_unique {Γ : Env} (hΓ : NoShadow Γ) : ∀ (v : Value) (t : RTy) {r r' : Res t.den},
    Means Γ t v r → Means Γ t v r' → r = r'
  | .none, t, r, r', h, h' => (no_none t h).elim
  | .single e, t, r, r', h, h' => single_unique hΓ t h h'
  | .collection vs, t, r, r', h, h' => by
    have step := meansAll_unique hΓ vs
    clear hΓ
    induction t with
    | option t ih => cases h with | some h => cases h' with | some h' => rw [ih _ _ h h']
    | vec t _ =>
      cases h with
      | vec h hs =>
        cases h' with
        | vec h' hs' =>
          have := step t h h'
          subst this
          exact sequenced_unique hs hs'
    | _ => cases h
  | .object es, t, r, r', h, h' => by
    have step := meansEntries_unique hΓ es
    clear hΓ
    cases h with
    | some h =>
      rename_i t r
      have : ∀ (t : RTy) (r : Res t.den), Means Γ t (.object es) r → ∀ r', Means Γ t (.object es) r' → r = r' := by
        intro t
        induction t with
        | option t ih =>
          intro r h r' h'
          cases h with
          | object hs => cases hs
          | some h => cases h' with
            | object hs => cases hs
            | some h' => rw [ih _ h _ h']
        | _ =>
          intro r h r' h'
          cases h with
          | object hs hn he hb => cases h' with
            | object hs' hn' he' hb' =>
              rw [hs] at hs'
              cases hs'
              have := step _ hs he he'
              subst this
              exact built_unique hs (means_names he).2 hb hb'
      cases h' with
      | object hs => cases hs
      | some h' => rw [this _ _ h _ h']
    | object hs hn he hb => cases h' with
      | some h => cases hs
      | object hs' hn' he' hb' =>
        rw [hs] at hs'
        cases hs'
        have := step _ hs he he'
        subst this
        exact built_unique hs (means_names he).2 hb hb'

theorem meansAll_unique {Γ : Env} (hΓ : NoShadow Γ) : ∀ (vs : List Value) (t : RTy) {rs rs' : List (Res t.den)},
    MeansAll Γ t vs rs → MeansAll Γ t vs rs' → rs = rs'
  | [], t, rs, rs', h, h' => by cases h; cases h'; rfl
  | v :: vs, t, rs, rs', h, h' => by
    cases h with
    | cons h hs =>
      cases h' with
      | cons h' hs' => rw [means_unique hΓ v t h h', meansAll_unique hΓ vs t hs hs']

theorem meansEntries_unique {Γ : Env} (hΓ : NoShadow Γ) : ∀ (es : List (Str × Value)) (t : RTy) {name : Str}
    {ms : List (Member t.den)} {d : t.den} {as as' : List ((m : Member t.den) × Res m.ty.den)},
    t.struct = some (name, ms, d) → MeansEntries Γ ms es as → MeansEntries Γ ms es as' → as = as'
  | [], t, name, ms, d, as, as', hs, h, h' => by cases h; cases h'; rfl
  | (k, v) :: es, t, name, ms, d, as, as', hs, h, h' => by
    have step : ∀ (t : RTy) {r r' : Res t.den}, Means Γ t v r → Means Γ t v r' → r = r' := fun t => means_unique hΓ v t
    have rest : ∀ {as as'}, MeansEntries Γ ms es as → MeansEntries Γ ms es as' → as = as' :=
      meansEntries_unique hΓ es t hs
    clear hΓ
    generalize hx : (k, v) :: es = l at h h'
    cases h with
    | nil => cases hx
    | entry hm hv he =>
      cases hx
      generalize hk : (Member.name _, v) :: es = l at h'
      cases h' with
      | nil => cases hk
      | entry hm' hv' he' =>
        simp only [List.cons.injEq, Prod.mk.injEq] at hk
        obtain ⟨⟨hk, rfl⟩, rfl⟩ := hk
        have := (struct_good hs).unique hm hm' hk
        subst this
        rw [step _ hv hv', rest he he']
      | shorthand hm' hn' he' =>
        simp only [List.cons.injEq, Prod.mk.injEq] at hk
        obtain ⟨⟨hk, rfl⟩, rfl⟩ := hk
        exact (no_none _ hv).elim
    | shorthand hm hn he =>
      cases hx
      generalize hk : (Member.name _, Value.none) :: es = l at h'
      cases h' with
      | nil => cases hk
      | entry hm' hv' he' =>
        simp only [List.cons.injEq, Prod.mk.injEq] at hk
        obtain ⟨⟨hk, rfl⟩, rfl⟩ := hk
        exact (no_none _ hv').elim
      | shorthand hm' hn' he' =>
        simp only [List.cons.injEq, Prod.mk.injEq] at hk
        obtain ⟨⟨hk, -⟩, rfl⟩ := hk
        have := (struct_good hs).unique hm hm' hk
        subst this
        rw [hn] at hn'
        cases hn'
        rw [rest he he']
end

end

end Ikal
