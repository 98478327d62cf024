import Verif.Spec.Macros

/-! # Lemmas about the component macros -/

namespace Ikal

open Spec

section
variable [Platform]

/-! ## Tokens -/

mutual
theorem parseMap_sound : ∀ (ts : List Token) (es : List (Str × Value)), parseMap ts = some es → Writes es ts
  | [], es, h => by
    simp only [parseMap, Option.some.injEq] at h; subst h; exact .nil
  | .ident k :: .comma :: ts, es, h => by
    simp only [parseMap, Option.map_eq_some_iff] at h
    obtain ⟨es', he, rfl⟩ := h
    exact .shorthand (parseMap_sound ts es' he)
  | .ident k :: .colon :: v :: .comma :: ts, es, h => by
    simp only [parseMap, Option.bind_eq_some_iff, Option.map_eq_some_iff] at h
    obtain ⟨v', hv, es', he, rfl⟩ := h
    exact .entryComma (parseValue_sound v v' hv) (parseMap_sound ts es' he)
  | .ident k :: .colon :: v :: ts, es, h => by
    by_cases hc : ∃ ts', ts = .comma :: ts'
    · obtain ⟨ts', rfl⟩ := hc
      simp only [parseMap, Option.bind_eq_some_iff, Option.map_eq_some_iff] at h
      obtain ⟨v', hv, es', he, rfl⟩ := h
      exact .entryComma (parseValue_sound v v' hv) (parseMap_sound ts' es' he)
    · rw [parseMap] at h
      · simp only [Option.bind_eq_some_iff, Option.map_eq_some_iff] at h
        obtain ⟨v', hv, es', he, rfl⟩ := h
        exact .entry (parseValue_sound v v' hv) (parseMap_sound ts es' he)
      · rintro ts' rfl; exact hc ⟨ts', rfl⟩
  | .ident k :: .colon :: [], es, h => by simp [parseMap] at h
  | .ident k :: [], es, h => by simp [parseMap] at h
  | .ident k :: .ident _ :: _, es, h => by simp [parseMap] at h
  | .ident k :: .expr _ :: _, es, h => by simp [parseMap] at h
  | .ident k :: .brace _ :: _, es, h => by simp [parseMap] at h
  | .ident k :: .bracket _ :: _, es, h => by simp [parseMap] at h
  | .comma :: _, es, h => by simp [parseMap] at h
  | .colon :: _, es, h => by simp [parseMap] at h
  | .expr _ :: _, es, h => by simp [parseMap] at h
  | .brace _ :: _, es, h => by simp [parseMap] at h
  | .bracket _ :: _, es, h => by simp [parseMap] at h

theorem parseValue_sound : ∀ (t : Token) (v : Value), parseValue t = some v → WritesValue v t
  | .brace ts, v, h => by
    simp only [parseValue, Option.map_eq_some_iff] at h
    obtain ⟨es, he, rfl⟩ := h
    exact .object (parseMap_sound ts es he)
  | .bracket ts, v, h => by
    simp only [parseValue, Option.map_eq_some_iff] at h
    obtain ⟨es, he, rfl⟩ := h
    exact .collection (parseSeq_sound ts es he)
  | .ident n, v, h => by simp only [parseValue, Option.some.injEq] at h; subst h; exact .name
  | .expr e, v, h => by simp only [parseValue, Option.some.injEq] at h; subst h; exact .expr
  | .comma, v, h => by simp [parseValue] at h
  | .colon, v, h => by simp [parseValue] at h

theorem parseSeq_sound : ∀ (ts : List Token) (vs : List Value), parseSeq ts = some vs → WritesSeq vs ts
  | [], vs, h => by simp only [parseSeq, Option.some.injEq] at h; subst h; exact .nil
  | [t], vs, h => by
    simp only [parseSeq, Option.map_eq_some_iff] at h
    obtain ⟨v, hv, rfl⟩ := h
    exact .one (parseValue_sound t v hv)
  | t :: .comma :: ts, vs, h => by
    simp only [parseSeq, Option.bind_eq_some_iff, Option.map_eq_some_iff] at h
    obtain ⟨v, hv, es', he, rfl⟩ := h
    exact .cons (parseValue_sound t v hv) (parseSeq_sound ts es' he)
  | _ :: .ident _ :: _, es, h => by simp [parseSeq] at h
  | _ :: .colon :: _, es, h => by simp [parseSeq] at h
  | _ :: .expr _ :: _, es, h => by simp [parseSeq] at h
  | _ :: .brace _ :: _, es, h => by simp [parseSeq] at h
  | _ :: .bracket _ :: _, es, h => by simp [parseSeq] at h
end

mutual
theorem parseMap_complete : ∀ {es : List (Str × Value)} {ts : List Token}, Writes es ts → parseMap ts = some es
  | _, _, .nil => rfl
  | _, _, .entry (ts := ts) hv he => by
    have h1 := parseValue_complete hv
    have h2 := parseMap_complete he
    rw [parseMap, h1, h2]
    · rfl
    · rintro ts' rfl; cases he
  | _, _, .entryComma hv he => by
    rw [parseMap, parseValue_complete hv, parseMap_complete he]; rfl
  | _, _, .shorthand he => by rw [parseMap, parseMap_complete he]; rfl

theorem parseValue_complete : ∀ {v : Value} {t : Token}, WritesValue v t → parseValue t = some v
  | _, _, .name => rfl
  | _, _, .expr => rfl
  | _, _, .object h => by rw [parseValue, parseMap_complete h]; rfl
  | _, _, .collection h => by rw [parseValue, parseSeq_complete h]; rfl

theorem parseSeq_complete : ∀ {vs : List Value} {ts : List Token}, WritesSeq vs ts → parseSeq ts = some vs
  | _, _, .nil => rfl
  | _, _, .one h => by rw [parseSeq, parseValue_complete h]; rfl
  | _, _, .cons h hs => by rw [parseSeq, parseValue_complete h, parseSeq_complete hs]; rfl
end

theorem parseMap_iff {es : List (Str × Value)} {ts : List Token} : parseMap ts = some es ↔ Writes es ts :=
  ⟨parseMap_sound ts es, parseMap_complete⟩

/-! ## Single values -/

theorem strOf_false {Γ : Env} {e : Expr} {s : Str} (h : strOf Γ false e = some s) : IsString Γ e s := by
  unfold strOf at h
  split at h
  · cases h; exact .literal _
  · split at h
    · rename_i hn; cases h; exact .inScope hn
    · cases h
    · cases h
  · cases h

theorem strOf_true {Γ : Env} {e : Expr} {s : Str} (h : strOf Γ true e = some s) : IsText Γ e s := by
  unfold strOf at h
  split at h
  · cases h; exact .string (.literal _)
  · split at h
    · rename_i hn; cases h; exact .string (.inScope hn)
    · rename_i hn; cases h; exact .text hn
    · cases h
  · cases h

theorem fromStr_reads {t : RTy} {f : Str → Res t.den} (h : fromStr t = some f) (s : Str) : Reads t s (f s) := by
  cases t <;> first | (cases h; constructor) | cases h

theorem evalPlain_means {Γ : Env} {t : RTy} {e : Expr} {v : t.den} (h : evalPlain Γ t e = some v) :
    Means Γ t (.single e) (.ok v) := by
  cases e with
  | str s => cases t <;> first | (cases h; done) | (cases h; exact .string (.literal _))
  | int n =>
    cases t <;> first | (cases h; done) | skip
    all_goals
      simp only [evalPlain, intLit] at h
      split at h
      · rename_i hn
        cases h
        first | exact .u8 hn | exact .u32 hn | exact .i8 hn
      · cases h
  | float x => cases t <;> first | (cases h; done) | (cases h; exact .float)
  | negFloat x => cases t <;> first | (cases h; done) | (cases h; exact .negFloat)
  | negInt n =>
    cases t <;> first | (cases h; done) | skip
    simp only [evalPlain, negLit] at h
    split at h
    · rename_i hn; cases h; exact .neg hn
    · cases h
  | name n =>
    simp only [evalPlain, Option.bind_eq_some_iff] at h
    obtain ⟨⟨s, w⟩, hn, h⟩ := h
    simp only [] at h
    split at h
    · rename_i he; subst he; cases h; exact .inScope hn
    · cases h
  | call n a => cases h

theorem intoTy_means {Γ : Env} {s t : RTy} {n : Str} {v : s.den} {w : t.den} (hn : Γ n = some ⟨s, v⟩)
    (h : intoTy s t v = some w) : Means Γ t (.single (.name n)) (.ok w) := by
  unfold intoTy at h
  split at h
  · rename_i he; subst he; cases h; exact .inScope hn
  · split at h
    · split at h
      · rename_i he; subst he; cases h; exact Means.some (.inScope hn)
      · cases h
    · simp only [Option.map_eq_some_iff] at h
      obtain ⟨f, hf, rfl⟩ := h
      unfold convert at hf
      split at hf
      all_goals first | (cases hf; done) | cases hf
      · exact .text (.inScope hn)
      · exact .uri (.inScope hn)
      · exact .dateTimeOfDate hn
      · exact .dateOfDateTime hn
      · exact .audio hn
      · exact .display hn
      · exact .email hn
      · exact .u32OfU8 hn

theorem intLit_means {Γ : Env} {t : RTy} {n : Nat} {v : t.den} (h : intLit t n = some v) :
    Means Γ t (.single (.int n)) (.ok v) := evalPlain_means (e := .int n) h

theorem floatLit_means {Γ : Env} {t : RTy} {n : Platform.F32} {v : t.den} (h : floatLit t n = some v) :
    Means Γ t (.single (.float n)) (.ok v) := evalPlain_means (e := .float n) h

theorem evalInto_means {Γ : Env} {t : RTy} {e : Expr} {v : t.den} (h : evalInto Γ t e = some v) :
    Means Γ t (.single e) (.ok v) := by
  cases e with
  | str s =>
    simp only [evalInto] at h
    unfold intoTy at h
    split at h
    · rename_i he; subst he; cases h; exact .string (.literal _)
    · split at h
      · split at h
        · rename_i he; subst he; cases h; exact Means.some (.string (.literal _))
        · cases h
      · simp only [Option.map_eq_some_iff] at h
        obtain ⟨f, hf, rfl⟩ := h
        cases t <;> first | (cases hf; done) | cases hf
        · exact .text (.literal _)
        · exact .uri (.literal _)
  | int n =>
    simp only [evalInto] at h
    unfold intInto at h
    split at h
    · exact intLit_means h
    · exact intLit_means h
    · simp only [Option.map_eq_some_iff] at h
      obtain ⟨f, hf, rfl⟩ := h
      exact Means.some (intLit_means hf)
    · cases h
  | float n =>
    simp only [evalInto] at h
    unfold floatInto at h
    split at h
    · simp only [Option.map_eq_some_iff] at h
      obtain ⟨f, hf, rfl⟩ := h
      exact Means.some (floatLit_means hf)
    · exact floatLit_means h
  | negInt n => cases h
  | negFloat n => cases h
  | name n =>
    simp only [evalInto, Option.bind_eq_some_iff] at h
    obtain ⟨⟨s, w⟩, hn, h⟩ := h
    exact intoTy_means hn h
  | call n a => cases h

theorem variant_is {en : RTy} {n : Str} {v : en.den} (h : variant en n = some v) : IsVariant en n v := by
  cases en <;> first | (cases h; done) | skip
  · refine .class_ ?_
    simp only [variant] at h
    repeat' split at h
    all_goals first | (cases h; done) | (cases h; subst_vars; decide)
  · refine .status ?_
    simp only [variant] at h
    repeat' split at h
    all_goals first | (cases h; done) | (cases h; subst_vars; decide)
  · refine .transp ?_
    simp only [variant] at h
    repeat' split at h
    all_goals first | (cases h; done) | (cases h; subst_vars; decide)
  · refine .freq ?_
    simp only [variant] at h
    repeat' split at h
    all_goals first | (cases h; done) | (cases h; subst_vars; decide)

theorem variantWith_means {Γ : Env} {en : RTy} {n s : Str} {v : en.den} (h : variantWith en n s = some v) :
    Means Γ en (.single (.call n s)) (.ok v) := by
  cases en <;> first | (cases h; done) | skip
  simp only [variantWith] at h
  split at h
  · rename_i hn; subst hn; cases h; exact .custom
  · cases h

/-- Enum values convert to themselves and to an option. -/
theorem evalPath_means {Γ : Env} {t en : RTy} {e : Expr} {v : t.den} (hen : ∃ f, enumOf f = some en)
    (h : evalPath t en e = some v) : Means Γ t (.single e) (.ok v) := by
  have key : ∀ (w : en.den) (e : Expr), Means Γ en (.single e) (.ok w) → intoTy en t w = some v →
      Means Γ t (.single e) (.ok v) := by
    intro w e hm h
    unfold intoTy at h
    split at h
    · rename_i he; subst he; cases h; exact hm
    · split at h
      · split at h
        · rename_i he; subst he; cases h; exact Means.some hm
        · cases h
      · simp only [Option.map_eq_some_iff] at h
        obtain ⟨f, hf, rfl⟩ := h
        obtain ⟨g, hg⟩ := hen
        unfold enumOf at hg
        repeat' split at hg
        all_goals (cases hg; try cases hf)
  cases e with
  | name n =>
    simp only [evalPath, Option.bind_eq_some_iff] at h
    obtain ⟨w, hw, h⟩ := h
    exact key w _ (.variant (variant_is hw)) h
  | call n s =>
    simp only [evalPath, Option.bind_eq_some_iff] at h
    obtain ⟨w, hw, h⟩ := h
    exact key w _ (variantWith_means hw) h
  | _ => cases h

theorem evalPathPlain_means {Γ : Env} {t en : RTy} {e : Expr} {r : Res t.den}
    (h : (RExpr.path en e).eval Γ t = some r) : Means Γ t (.single e) r := by
  simp only [RExpr.eval, Option.map_eq_some_iff] at h
  obtain ⟨v, h, rfl⟩ := h
  unfold evalVariant at h
  split at h
  · simp only [Option.bind_eq_some_iff] at h
    obtain ⟨w, hw, h⟩ := h
    split at h
    · rename_i he; subst he; cases h; exact .variant (variant_is hw)
    · cases h
  · simp only [Option.bind_eq_some_iff] at h
    obtain ⟨w, hw, h⟩ := h
    split at h
    · rename_i he; subst he; cases h; exact variantWith_means hw
    · cases h
  · cases h

theorem eval_some {Γ : Env} {t : RTy} {e : RExpr} {r : Res t.den} (h : (RExpr.some e).eval Γ t = some r) :
    ∃ u, ∃ (ht : t = .option u), ∃ r' : Res u.den, e.eval Γ u = some r' ∧ r = ht ▸ r'.map some := by
  cases t with
  | option u =>
    simp only [RExpr.eval, Option.map_eq_some_iff] at h
    obtain ⟨r', hr, rfl⟩ := h
    exact ⟨u, rfl, r', hr, rfl⟩
  | _ => simp [RExpr.eval] at h

/-- The expansion of a single value, when it is accepted, evaluates to what the value means. -/
theorem expandSingle_means {Γ : Env} {t : RTy} {ty field : Str} {e : Expr} {r : Res t.den}
    (h : (expandSingle ty field e).eval Γ t = some r) : Means Γ t (.single e) r := by
  have inner : ∀ (t : RTy) (r : Res t.den),
      (let v : RExpr := match enumOf field with
        | some t => .path t e
        | none => .plain e
       if shouldParsed field then
         if field = c!"duration" then RExpr.parseDuration v else .parse v
       else if shouldConvert field then .into v
       else v).eval Γ t = some r → Means Γ t (.single e) r := by
    intro t r h
    simp only [] at h
    cases hen : enumOf field with
    | some en =>
      simp only [hen] at h
      split at h
      · split at h <;> simp [RExpr.eval] at h
      · split at h
        · simp only [RExpr.eval, Option.map_eq_some_iff] at h
          obtain ⟨v, hv, rfl⟩ := h
          exact evalPath_means ⟨_, hen⟩ hv
        · exact evalPathPlain_means h
    | none =>
      simp only [hen] at h
      split at h
      · split at h
        · simp only [RExpr.eval, Option.bind_eq_some_iff] at h
          obtain ⟨s, hs, h⟩ := h
          cases t <;> first | (cases h; done) | cases h
          exact .duration (strOf_false hs)
        · simp only [RExpr.eval, Option.bind_eq_some_iff, Option.map_eq_some_iff] at h
          obtain ⟨f, hf, s, hs, rfl⟩ := h
          exact .reads (strOf_true hs) (fromStr_reads hf s)
      · split at h
        · simp only [RExpr.eval, Option.map_eq_some_iff] at h
          obtain ⟨v, hv, rfl⟩ := h
          exact evalInto_means hv
        · simp only [RExpr.eval, Option.map_eq_some_iff] at h
          obtain ⟨v, hv, rfl⟩ := h
          exact evalPlain_means hv
  unfold expandSingle at h
  simp only [] at h
  split at h
  · obtain ⟨u, rfl, r', hr, rfl⟩ := eval_some h
    exact Means.some (inner _ _ hr)
  · exact inner _ _ h

/-! ## Fields -/

/-- The fields of a struct are independent. -/
structure GoodMembers {σ : Type} (ms : List (Member σ)) : Prop where
  same : ∀ m ∈ ms, ∀ x v, m.get (m.set x v) = x
  other : ms.Pairwise fun m n => m.name ≠ n.name ∧ (∀ x v, n.get (m.set x v) = n.get v) ∧
    ∀ x v, m.get (n.set x v) = m.get v

theorem Audio.good : GoodMembers Audio.members := by
  constructor <;> simp [Audio.members]

theorem Display.good : GoodMembers Display.members := by
  constructor <;> simp [Display.members]

theorem Email.good : GoodMembers Email.members := by
  constructor <;> simp [Email.members]

theorem Standard.good : GoodMembers Standard.members := by
  constructor <;> simp [Standard.members]

theorem Daylight.good : GoodMembers Daylight.members := by
  constructor <;> simp [Daylight.members]

theorem VEvent.good : GoodMembers VEvent.members := by
  constructor <;> simp [VEvent.members]

theorem VFreebusy.good : GoodMembers VFreebusy.members := by
  constructor <;> simp [VFreebusy.members]

theorem VJournal.good : GoodMembers VJournal.members := by
  constructor <;> simp [VJournal.members]

theorem VTimezone.good : GoodMembers VTimezone.members := by
  constructor <;> simp [VTimezone.members]

theorem VTodo.good : GoodMembers VTodo.members := by
  constructor <;> simp [VTodo.members]

theorem VCalendar.good : GoodMembers VCalendar.members := by
  constructor <;> simp [VCalendar.members]

theorem Recur.good : GoodMembers Recur.members := by
  constructor <;> simp [Recur.members]

theorem Geo.good : GoodMembers Geo.members := by
  constructor <;> simp [Geo.members]

theorem RequestStatus.good : GoodMembers RequestStatus.members := by
  constructor <;> simp [RequestStatus.members]

theorem struct_good {t : RTy} {name : Str} {ms : List (Member t.den)} {d : t.den} (h : t.struct = some (name, ms, d)) :
    GoodMembers ms := by
  cases t <;> first | (cases h; done) | cases h
  exact Geo.good; exact Recur.good; exact RequestStatus.good; exact Audio.good; exact Display.good; exact Email.good
  exact Standard.good; exact Daylight.good; exact VEvent.good; exact VFreebusy.good; exact VJournal.good
  exact VTimezone.good; exact VTodo.good; exact VCalendar.good

theorem GoodMembers.get_other {σ : Type} {ms : List (Member σ)} (g : GoodMembers ms) {m n : Member σ} (hm : m ∈ ms)
    (hn : n ∈ ms) (h : m.name ≠ n.name) (x : m.ty.den) (v : σ) : n.get (m.set x v) = n.get v := by
  have key : ∀ (l : List (Member σ)), (l.Pairwise fun m n => m.name ≠ n.name ∧ (∀ x v, n.get (m.set x v) = n.get v) ∧
      ∀ x v, m.get (n.set x v) = m.get v) → m ∈ l → n ∈ l → n.get (m.set x v) = n.get v := by
    intro l hl h1 h2
    induction l with
    | nil => cases h1
    | cons a l ih =>
      obtain ⟨ha, hl⟩ := List.pairwise_cons.1 hl
      rcases List.mem_cons.1 h1 with rfl | h1'
      · rcases List.mem_cons.1 h2 with rfl | h2
        · exact absurd rfl h
        · exact (ha _ h2).2.1 x v
      · rcases List.mem_cons.1 h2 with rfl | h2
        · exact (ha _ h1').2.2 x v
        · exact ih hl h1' h2
  exact key ms g.other hm hn

theorem GoodMembers.unique {σ : Type} {ms : List (Member σ)} (g : GoodMembers ms) {m n : Member σ} (hm : m ∈ ms)
    (hn : n ∈ ms) (h : m.name = n.name) : m = n := by
  have key : ∀ (l : List (Member σ)), (l.Pairwise fun m n => m.name ≠ n.name ∧ (∀ x v, n.get (m.set x v) = n.get v) ∧
      ∀ x v, m.get (n.set x v) = m.get v) → m ∈ l → n ∈ l → m = n := by
    intro l hl h1 h2
    induction l with
    | nil => cases h1
    | cons a l ih =>
      obtain ⟨ha, hl⟩ := List.pairwise_cons.1 hl
      rcases List.mem_cons.1 h1 with rfl | h1'
      · rcases List.mem_cons.1 h2 with rfl | h2
        · rfl
        · exact absurd h (ha _ h2).1
      · rcases List.mem_cons.1 h2 with rfl | h2
        · exact absurd h.symm (ha _ h1').1
        · exact ih hl h1' h2
  exact key ms g.other hm hn

/-- The assignments one after the other. -/
def combine {σ : Type} : List ((m : Member σ) × Res m.ty.den) → Res (σ → σ)
  | [] => .ok id
  | a :: as => assign a.1 a.2 (combine as)

theorem combine_built {σ : Type} {ms : List (Member σ)} (g : GoodMembers ms) (d : σ) :
    ∀ (as : List ((m : Member σ) × Res m.ty.den)), (∀ a ∈ as, a.1 ∈ ms) → (as.map fun a => a.1.name).Nodup →
      Built d ms as ((combine as).map (· d)) := by
  intro as
  induction as generalizing d with
  | nil => intro _ _; exact ⟨by simp, fun _ _ _ => rfl⟩
  | cons a as ih =>
    intro hm hd
    obtain ⟨m, r⟩ := a
    have hm0 : m ∈ ms := hm ⟨m, r⟩ (by simp)
    obtain ⟨hd1, hd2⟩ := List.nodup_cons.1 hd
    have hne : ∀ b ∈ as, b.1.name ≠ m.name := fun b hb he => hd1 (List.mem_map.2 ⟨b, hb, he⟩)
    simp only [combine, assign]
    cases r with
    | err e => exact ⟨[], ⟨m, .err e⟩, as, rfl, by simp, rfl⟩
    | panic => exact ⟨[], ⟨m, .panic⟩, as, rfl, by simp, rfl⟩
    | ok x =>
      have := ih (m.set x d) (fun b hb => hm b (List.mem_cons_of_mem _ hb)) hd2
      cases hc : combine as with
      | err e =>
        rw [hc] at this
        obtain ⟨b, y, c, rfl, h1, h2⟩ := this
        refine ⟨⟨m, .ok x⟩ :: b, y, c, rfl, ?_, h2⟩
        intro z hz
        rcases List.mem_cons.1 hz with rfl | hz
        · exact ⟨x, rfl⟩
        · exact h1 z hz
      | panic =>
        rw [hc] at this
        obtain ⟨b, y, c, rfl, h1, h2⟩ := this
        refine ⟨⟨m, .ok x⟩ :: b, y, c, rfl, ?_, h2⟩
        intro z hz
        rcases List.mem_cons.1 hz with rfl | hz
        · exact ⟨x, rfl⟩
        · exact h1 z hz
      | ok f =>
        rw [hc] at this
        obtain ⟨h1, h2⟩ := this
        simp only [Res.bind_ok, Res.pure_eq, Res.map_ok] at h1 h2 ⊢
        refine ⟨?_, ?_⟩
        · intro b hb
          rcases List.mem_cons.1 hb with rfl | hb
          · have := h2 m hm0 hne
            simp only [this, g.same m hm0]
          · exact h1 b hb
        · intro n hn hnn
          rw [h2 n hn (fun b hb => hnn b (List.mem_cons_of_mem _ hb))]
          exact g.get_other hm0 hn (hnn ⟨m, .ok x⟩ (by simp)) x d

theorem find_member {σ : Type} {ms : List (Member σ)} {k : Str} {m : Member σ}
    (h : ms.find? (fun m => m.name = k) = some m) : m ∈ ms ∧ m.name = k :=
  ⟨List.mem_of_find?_eq_some h, by simpa using List.find?_some h⟩

theorem means_names {Γ : Env} {t : RTy} {ms : List (Member t.den)} {es : List (Str × Value)}
    {as : List ((m : Member t.den) × Res m.ty.den)} (h : MeansEntries Γ ms es as) :
    (as.map fun a => a.1.name) = es.map (·.1) ∧ ∀ a ∈ as, a.1 ∈ ms := by
  induction as generalizing es with
  | nil => cases h; simp
  | cons a as ih =>
    cases h with
    | entry hm _ he =>
      obtain ⟨h1, h2⟩ := ih he
      exact ⟨by simp [h1], by simpa [hm] using h2⟩
    | shorthand hm _ he =>
      obtain ⟨h1, h2⟩ := ih he
      exact ⟨by simp [h1], by simpa [hm] using h2⟩

theorem expandEntries_names {ty : Str} : ∀ {es : List (Str × Value)} {fs : List (Str × RExpr)},
    expandEntries ty es = some fs → fs.map (·.1) = es.map (·.1)
  | [], fs, h => by simp only [expandEntries, Option.some.injEq] at h; subst h; rfl
  | (k, .none) :: es, fs, h => by
    simp only [expandEntries, Option.map_eq_some_iff] at h
    obtain ⟨fs', he, rfl⟩ := h
    simp [expandEntries_names he]
  | (k, .single _) :: es, fs, h | (k, .object _) :: es, fs, h | (k, .collection _) :: es, fs, h => by
    simp only [expandEntries, Option.bind_eq_some_iff, Option.map_eq_some_iff] at h
    obtain ⟨v, hv, fs', he, rfl⟩ := h
    simp [expandEntries_names he]

theorem evalStruct {Γ : Env} {t : RTy} {ty : Str} {fs : List (Str × RExpr)} {r : Res t.den}
    (h : (RExpr.struct ty fs).eval Γ t = some r) : ∃ ms d f, t.struct = some (ty, ms, d) ∧ (fs.map (·.1)).Nodup ∧
      evalFields Γ ms fs = some f ∧ r = f.map (· d) := by
  simp only [RExpr.eval, Option.bind_eq_some_iff] at h
  obtain ⟨⟨name, ms, d⟩, hs, h⟩ := h
  simp only [] at h
  split at h
  · rename_i hn
    obtain ⟨f, hf, rfl⟩ := Option.map_eq_some_iff.1 h
    obtain ⟨rfl, hn⟩ := hn
    exact ⟨ms, d, f, hs, hn, hf, rfl⟩
  · cases h

theorem eval_vec {Γ : Env} {t : RTy} {es : List RExpr} {r : Res t.den} (h : (RExpr.vec es).eval Γ t = some r) :
    ∃ u, ∃ (ht : t = .vec u), ∃ r' : Res (List u.den), evalSeq Γ u es = some r' ∧ r = ht ▸ r' := by
  cases t with
  | vec u => exact ⟨u, rfl, r, by simpa [RExpr.eval] using h, rfl⟩
  | _ => simp [RExpr.eval] at h

omit [Platform] in
/-- The outcome of a list of results. -/
theorem sequenced_cons {α : Type} {r : Res α} {rs : List (Res α)} {q : Res (List α)} (h : Sequenced rs q) :
    Sequenced (r :: rs) (do let v ← r; let vs ← q; pure (v :: vs)) := by
  cases r with
  | err e => exact ⟨[], rs, rfl⟩
  | panic => exact ⟨[], rs, rfl⟩
  | ok a =>
    cases q with
    | ok l => simpa [Sequenced] using h
    | err e => obtain ⟨g, k, rfl⟩ := h; exact ⟨a :: g, k, rfl⟩
    | panic => obtain ⟨g, k, rfl⟩ := h; exact ⟨a :: g, k, rfl⟩

mutual
theorem expandValue_means {Γ : Env} : ∀ (v : Value) {t : RTy} {ty field : Str} {e : RExpr} {r : Res t.den},
    expandValue ty field v = some e → e.eval Γ t = some r → Means Γ t v r
  | .none, t, ty, field, e, r, he, h => by simp [expandValue] at he
  | .single x, t, ty, field, e, r, he, h => by
    simp only [expandValue, Option.some.injEq] at he
    subst he
    exact expandSingle_means h
  | .collection vs, t, ty, field, e, r, he, h => by
    simp only [expandValue, Option.map_eq_some_iff] at he
    obtain ⟨es, he, rfl⟩ := he
    obtain ⟨u, rfl, r', hr, rfl⟩ := eval_vec h
    obtain ⟨rs, hm, hs⟩ := expandSeq_means vs he hr
    exact .vec hm hs
  | .object es, t, ty, field, e, r, he, h => by
    simp only [expandValue, Option.bind_eq_some_iff, Option.map_eq_some_iff] at he
    obtain ⟨ot, _, fs, he, rfl⟩ := he
    have inner : ∀ (t : RTy) (r : Res t.den), (RExpr.struct ot fs).eval Γ t = some r → Means Γ t (.object es) r := by
      intro t r h
      obtain ⟨ms, d, f, hs, hn, hf, rfl⟩ := evalStruct h
      obtain ⟨as, hm, rfl⟩ := expandEntries_means es he hf
      rw [expandEntries_names he] at hn
      obtain ⟨h1, h2⟩ := means_names hm
      exact .object hs hn hm (combine_built (struct_good hs) d as h2 (h1 ▸ hn))
    split at h
    · obtain ⟨u, rfl, r', hr, rfl⟩ := eval_some h
      exact Means.some (inner _ _ hr)
    · exact inner _ _ h

theorem expandSeq_means {Γ : Env} : ∀ (vs : List Value) {t : RTy} {ty field : Str} {es : List RExpr}
    {r : Res (List t.den)}, expandSeq ty field vs = some es → evalSeq Γ t es = some r →
      ∃ rs, MeansAll Γ t vs rs ∧ Sequenced rs r
  | [], t, ty, field, es, r, he, h => by
    simp only [expandSeq, Option.some.injEq] at he
    subst he
    simp only [evalSeq, Option.some.injEq] at h
    subst h
    exact ⟨[], .nil, rfl⟩
  | v :: vs, t, ty, field, es, r, he, h => by
    simp only [expandSeq, Option.bind_eq_some_iff, Option.map_eq_some_iff] at he
    obtain ⟨e, hv, es', hes, rfl⟩ := he
    simp only [evalSeq, Option.bind_eq_some_iff, Option.map_eq_some_iff] at h
    obtain ⟨r1, h1, r2, h2, rfl⟩ := h
    obtain ⟨rs, hm, hs⟩ := expandSeq_means vs hes h2
    exact ⟨r1 :: rs, .cons (expandValue_means v hv h1) hm, sequenced_cons hs⟩

theorem expandEntries_means {Γ : Env} : ∀ (es : List (Str × Value)) {t : RTy} {ms : List (Member t.den)} {ty : Str}
    {fs : List (Str × RExpr)} {r : Res (t.den → t.den)}, expandEntries ty es = some fs → evalFields Γ ms fs = some r →
      ∃ as, MeansEntries Γ ms es as ∧ r = combine as
  | [], t, ms, ty, fs, r, he, h => by
    simp only [expandEntries, Option.some.injEq] at he
    subst he
    simp only [evalFields, Option.some.injEq] at h
    subst h
    exact ⟨[], .nil, rfl⟩
  | (k, .none) :: es, t, ms, ty, fs, r, he, h => by
    simp only [expandEntries, Option.map_eq_some_iff] at he
    obtain ⟨fs', he, rfl⟩ := he
    simp only [evalFields, Option.bind_eq_some_iff, Option.map_eq_some_iff] at h
    obtain ⟨m, hm, r1, h1, r2, h2, rfl⟩ := h
    obtain ⟨hmem, rfl⟩ := find_member hm
    obtain ⟨as, ha, rfl⟩ := expandEntries_means es he h2
    simp only [RExpr.eval, evalPlain, Option.map_eq_some_iff, Option.bind_eq_some_iff] at h1
    obtain ⟨x, ⟨⟨s, w⟩, hn, hx⟩, rfl⟩ := h1
    simp only [] at hx
    split at hx
    · rename_i he
      subst he
      cases hx
      exact ⟨_, .shorthand hmem hn ha, rfl⟩
    · cases hx
  | (k, .single v) :: es, t, ms, ty, fs, r, he, h => by
    simp only [expandEntries, Option.bind_eq_some_iff, Option.map_eq_some_iff] at he
    obtain ⟨e, hv, fs', he, rfl⟩ := he
    simp only [evalFields, Option.bind_eq_some_iff, Option.map_eq_some_iff] at h
    obtain ⟨m, hm, r1, h1, r2, h2, rfl⟩ := h
    obtain ⟨hmem, rfl⟩ := find_member hm
    obtain ⟨as, ha, rfl⟩ := expandEntries_means es he h2
    exact ⟨_, .entry hmem (expandValue_means (.single v) hv h1) ha, rfl⟩
  | (k, .object v) :: es, t, ms, ty, fs, r, he, h => by
    simp only [expandEntries, Option.bind_eq_some_iff, Option.map_eq_some_iff] at he
    obtain ⟨e, hv, fs', he, rfl⟩ := he
    simp only [evalFields, Option.bind_eq_some_iff, Option.map_eq_some_iff] at h
    obtain ⟨m, hm, r1, h1, r2, h2, rfl⟩ := h
    obtain ⟨hmem, rfl⟩ := find_member hm
    obtain ⟨as, ha, rfl⟩ := expandEntries_means es he h2
    exact ⟨_, .entry hmem (expandValue_means (.object v) hv h1) ha, rfl⟩
  | (k, .collection v) :: es, t, ms, ty, fs, r, he, h => by
    simp only [expandEntries, Option.bind_eq_some_iff, Option.map_eq_some_iff] at he
    obtain ⟨e, hv, fs', he, rfl⟩ := he
    simp only [evalFields, Option.bind_eq_some_iff, Option.map_eq_some_iff] at h
    obtain ⟨m, hm, r1, h1, r2, h2, rfl⟩ := h
    obtain ⟨hmem, rfl⟩ := find_member hm
    obtain ⟨as, ha, rfl⟩ := expandEntries_means es he h2
    exact ⟨_, .entry hmem (expandValue_means (.collection v) hv h1) ha, rfl⟩
end

/-- An accepted macro call evaluates to what its entries mean. -/
theorem componentMacro_means {Γ : Env} {t : RTy} {ts : List Token} {r : Res t.den}
    (h : componentMacro Γ t ts = some r) : ∃ es, Writes es ts ∧ Means Γ t (.object es) r := by
  simp only [componentMacro, Option.bind_eq_some_iff] at h
  obtain ⟨⟨name, ms', d'⟩, hs', es, hp, fs, he, h⟩ := h
  refine ⟨es, parseMap_iff.1 hp, ?_⟩
  obtain ⟨ms, d, f, hs, hn, hf, rfl⟩ := evalStruct h
  obtain ⟨as, hm, rfl⟩ := expandEntries_means es he hf
  rw [expandEntries_names he] at hn
  obtain ⟨h1, h2⟩ := means_names hm
  exact .object hs hn hm (combine_built (struct_good hs) d as h2 (h1 ▸ hn))

end

end Ikal
