import Verif.Lemmas.Meaning

/-! # Which macro calls are accepted -/

namespace Ikal

open Spec

section
variable [Platform]

/-- The entry is accepted by the compiler. -/
def EntryOk (Γ : Env) {σ : Type} (name : Str) (ms : List (Member σ)) (k : Str) (v : Value) : Prop :=
  ∃ m, ms.find? (fun m => m.name = k) = some m ∧
    ((v = .none ∧ ∃ x, Γ k = some ⟨m.ty, x⟩) ∨ ∃ e r, expandValue name k v = some e ∧ e.eval Γ m.ty = some r)

theorem evalName_iff {Γ : Env} {t : RTy} {n : Str} :
    (∃ r, (RExpr.plain (.name n)).eval Γ t = some r) ↔ ∃ x, Γ n = some ⟨t, x⟩ := by
  constructor
  · rintro ⟨r, h⟩
    simp only [RExpr.eval, evalPlain, Option.map_eq_some_iff, Option.bind_eq_some_iff] at h
    obtain ⟨x, ⟨⟨s, w⟩, hn, hx⟩, rfl⟩ := h
    simp only [] at hx
    split at hx
    · rename_i he; subst he; exact ⟨w, hn⟩
    · cases hx
  · rintro ⟨x, hx⟩
    exact ⟨.ok x, by simp [RExpr.eval, evalPlain, hx]⟩

theorem entries_ok {Γ : Env} {σ : Type} {name : Str} {ms : List (Member σ)} : ∀ {es : List (Str × Value)},
    (∃ fs r, expandEntries name es = some fs ∧ evalFields Γ ms fs = some r) ↔
      ∀ kv ∈ es, EntryOk Γ name ms kv.1 kv.2
  | [] => by simp [expandEntries, evalFields]
  | (k, v) :: es => by
    have ih := entries_ok (Γ := Γ) (name := name) (ms := ms) (es := es)
    rw [List.forall_mem_cons, ← ih]
    by_cases hv : v = .none
    · subst hv
      constructor
      · rintro ⟨fs, r, he, h⟩
        simp only [expandEntries, Option.map_eq_some_iff] at he
        obtain ⟨fs', he, rfl⟩ := he
        simp only [evalFields, Option.bind_eq_some_iff, Option.map_eq_some_iff] at h
        obtain ⟨m, hm, r1, h1, r2, h2, rfl⟩ := h
        exact ⟨⟨m, hm, .inl ⟨rfl, evalName_iff.1 ⟨r1, h1⟩⟩⟩, fs', r2, he, h2⟩
      · rintro ⟨⟨m, hm, h⟩, fs, r, he, hr⟩
        rcases h with ⟨_, h⟩ | ⟨e, r', h, _⟩
        · obtain ⟨r1, h1⟩ := evalName_iff.2 h
          refine ⟨(k, .plain (.name k)) :: fs, assign m r1 r, by simp [expandEntries, he], ?_⟩
          simp only [evalFields]
          rw [hm]
          simp [h1, hr]
        · simp [expandValue] at h
    · have hx : expandEntries name ((k, v) :: es) =
          (expandValue name k v).bind fun v => (expandEntries name es).map ((k, v) :: ·) := by
        cases v <;> first | exact absurd rfl hv | rfl
      rw [hx]
      constructor
      · rintro ⟨fs, r, he, h⟩
        simp only [Option.bind_eq_some_iff, Option.map_eq_some_iff] at he
        obtain ⟨e, hev, fs', he, rfl⟩ := he
        simp only [evalFields, Option.bind_eq_some_iff, Option.map_eq_some_iff] at h
        obtain ⟨m, hm, r1, h1, r2, h2, rfl⟩ := h
        exact ⟨⟨m, hm, .inr ⟨e, r1, hev, h1⟩⟩, fs', r2, he, h2⟩
      · rintro ⟨⟨m, hm, h⟩, fs, r, he, hr⟩
        rcases h with ⟨h, _⟩ | ⟨e, r1, hev, h1⟩
        · exact absurd h hv
        · refine ⟨(k, e) :: fs, assign m r1 r, by simp [hev, he], ?_⟩
          simp only [evalFields]
          rw [hm]
          simp [h1, hr]

theorem accepted_iff {Γ : Env} {t : RTy} {name : Str} {ms : List (Member t.den)} {d : t.den}
    (hs : t.struct = some (name, ms, d)) {ts : List Token} {es : List (Str × Value)} (hw : Writes es ts) :
    (∃ r, componentMacro Γ t ts = some r) ↔ (es.map (·.1)).Nodup ∧ ∀ kv ∈ es, EntryOk Γ name ms kv.1 kv.2 := by
  rw [← entries_ok]
  simp only [componentMacro, hs, Option.bind_some, parseMap_complete hw]
  constructor
  · rintro ⟨r, h⟩
    simp only [Option.bind_eq_some_iff] at h
    obtain ⟨fs, he, h⟩ := h
    obtain ⟨ms', d', f, hs', hn, hf, rfl⟩ := evalStruct h
    rw [hs] at hs'
    cases hs'
    exact ⟨expandEntries_names he ▸ hn, fs, f, he, hf⟩
  · rintro ⟨hn, fs, r, he, hr⟩
    refine ⟨r.map (· d), ?_⟩
    rw [he]
    simp only [Option.bind_some, RExpr.eval, hs]
    rw [if_pos ⟨trivial, by rw [expandEntries_names he]; exact hn⟩, hr]
    rfl

theorem GoodMembers.find {σ : Type} {ms : List (Member σ)} (g : GoodMembers ms) {m : Member σ} (hm : m ∈ ms) :
    ms.find? (fun n => n.name = m.name) = some m := by
  cases h : ms.find? (fun n => n.name = m.name) with
  | none =>
    rw [List.find?_eq_none] at h
    exact absurd (by simp) (h m hm)
  | some n =>
    obtain ⟨hn, he⟩ := find_member h
    rw [g.unique hn hm he]

/-- One entry for a field: accepted when its expansion type checks. -/
theorem accepted_one {Γ : Env} {t : RTy} {name : Str} {ms : List (Member t.den)} {d : t.den}
    (hs : t.struct = some (name, ms, d)) {m : Member t.den} (hm : m ∈ ms) {ts : List Token} {v : Value}
    (hw : Writes [(m.name, v)] ts) (hv : v ≠ .none) :
    (∃ r, componentMacro Γ t ts = some r) ↔
      ∃ e, expandValue name m.name v = some e ∧ ∃ r, e.eval Γ m.ty = some r := by
  rw [accepted_iff hs hw]
  simp only [List.map_cons, List.map_nil, List.nodup_cons, List.not_mem_nil, not_false_eq_true, List.nodup_nil, and_self,
    true_and, List.mem_cons, or_false, forall_eq]
  have hf := (struct_good hs).find hm
  constructor
  · rintro ⟨m', hm', h⟩
    rw [hf] at hm'
    cases hm'
    rcases h with ⟨h, _⟩ | ⟨e, r, he, hr⟩
    · exact absurd h hv
    · exact ⟨e, he, r, hr⟩
  · rintro ⟨e, he, r, hr⟩
    exact ⟨m, hf, .inr ⟨e, r, he, hr⟩⟩

/-! ## Single values -/

/-- The part of the expansion of a single value below `Some`. -/
def expandCore (field : Str) (e : Expr) : RExpr :=
  let v : RExpr := match enumOf field with
    | some t => .path t e
    | none => .plain e
  if shouldParsed field then
    if field = c!"duration" then .parseDuration v else .parse v
  else if shouldConvert field then .into v
  else v

theorem expandSingle_eq (ty field : Str) (e : Expr) :
    expandSingle ty field e = if isOption ty field then .some (expandCore field e) else expandCore field e := rfl

/-- The type below `Some`. -/
def underSome (ty field : Str) (t : RTy) : Option RTy :=
  if isOption ty field then (match t with | .option u => some u | _ => none) else some t

theorem single_accepted {Γ : Env} {ty field : Str} {e : Expr} {t : RTy} :
    (∃ r, (expandSingle ty field e).eval Γ t = some r) ↔
      ∃ u, underSome ty field t = some u ∧ ∃ r, (expandCore field e).eval Γ u = some r := by
  rw [expandSingle_eq]
  unfold underSome
  by_cases ho : isOption ty field = true
  · simp only [ho, if_true]
    constructor
    · rintro ⟨r, h⟩
      obtain ⟨u, rfl, r', hr, rfl⟩ := eval_some h
      exact ⟨u, rfl, r', hr⟩
    · rintro ⟨u, hu, r, hr⟩
      cases t with
      | option w =>
        cases hu
        exact ⟨r.map some, by simp [RExpr.eval, hr]⟩
      | _ => cases hu
  · simp only [ho]
    constructor
    · rintro ⟨r, h⟩; exact ⟨t, rfl, r, h⟩
    · rintro ⟨u, hu, h⟩; cases hu; exact h

/-- Whether a string literal is accepted. -/
def strOk (field : Str) (t : RTy) : Bool :=
  if (enumOf field).isSome then false
  else if shouldParsed field then
    if field = c!"duration" then t = .duration
    else [RTy.date, .dateTime, .trigger, .offset, .u8, .u32, .i8, .class_, .status, .transp, .freq, .weekday, .weekdayNum,
      .geo, .recur, .rstatus, .period, .audio, .display, .email, .alarm, .standard, .daylight, .event, .freebusy, .journal,
      .timezone, .todo, .calendar].contains t
  else if shouldConvert field then [RTy.str, .option .str, .text, .uri].contains t
  else t = .str

theorem strOk_iff {Γ : Env} {field : Str} {t : RTy} (s : Str) :
    (∃ r, (expandCore field (.str s)).eval Γ t = some r) ↔ strOk field t = true := by
  unfold expandCore strOk
  simp only []
  cases hen : enumOf field with
  | some en =>
    simp only [Option.isSome_some, if_true]
    constructor
    · rintro ⟨r, h⟩
      split at h
      · split at h <;> simp [RExpr.eval] at h
      · split at h
        · simp [RExpr.eval, evalPath] at h
        · simp [RExpr.eval, evalVariant] at h
    · intro h; cases h
  | none =>
    simp only [Option.isSome_none, Bool.false_eq_true, if_false]
    split
    · split
      · simp only [RExpr.eval, strOf, Option.bind_some]
        cases t <;> simp [evalDuration]
      · simp only [RExpr.eval, strOf, Option.map_some]
        cases t <;> simp [fromStr]
    · split
      · simp only [RExpr.eval, evalInto, intoTy]
        cases t with
        | option u => cases u <;> simp
        | _ => simp [convert]
      · simp only [RExpr.eval, evalPlain]
        cases t <;> simp [strLit]

/-- The largest integer literal a type takes. -/
def intMax : RTy → Option Nat
  | .u8 => some 255
  | .u32 => some 4294967295
  | .i8 => some 127
  | _ => none

/-- The largest integer literal accepted for a field. -/
def intOk (field : Str) (t : RTy) : Option Nat :=
  if (enumOf field).isSome || shouldParsed field then none
  else if shouldConvert field then
    (match t with
    | .u8 => some 255
    | .i8 => some 127
    | .option u => intMax u
    | _ => none)
  else intMax t

theorem intLit_iff {t : RTy} {n : Nat} : (∃ r, intLit t n = some r) ↔ ∃ m, intMax t = some m ∧ n ≤ m := by
  cases t <;> simp [intLit, intMax]

theorem intOk_iff {Γ : Env} {field : Str} {t : RTy} (n : Nat) :
    (∃ r, (expandCore field (.int n)).eval Γ t = some r) ↔ ∃ m, intOk field t = some m ∧ n ≤ m := by
  unfold expandCore intOk
  simp only []
  cases hen : enumOf field with
  | some en =>
    simp only [Option.isSome_some, Bool.true_or, if_true]
    constructor
    · rintro ⟨r, h⟩
      split at h
      · split at h <;> simp [RExpr.eval] at h
      · split at h
        · simp [RExpr.eval, evalPath] at h
        · simp [RExpr.eval, evalVariant] at h
    · rintro ⟨m, h, _⟩; cases h
  | none =>
    simp only [Option.isSome_none, Bool.false_or]
    split
    · constructor
      · rintro ⟨r, h⟩
        split at h <;> simp [RExpr.eval, strOf] at h
      · rintro ⟨m, h, _⟩; cases h
    · split
      · simp only [RExpr.eval, evalInto]
        cases t with
        | option u =>
          simp only [intInto, Option.map_eq_some_iff]
          constructor
          · rintro ⟨_, _, ⟨a, h, rfl⟩, rfl⟩; exact intLit_iff.1 ⟨a, h⟩
          · intro h; obtain ⟨a, ha⟩ := intLit_iff.2 h; exact ⟨_, _, ⟨a, ha, rfl⟩, rfl⟩
        | _ => simp [intInto, intLit]
      · simp only [RExpr.eval, evalPlain, Option.map_eq_some_iff]
        rw [← intLit_iff]
        constructor
        · rintro ⟨_, a, h, rfl⟩; exact ⟨a, h⟩
        · rintro ⟨a, h⟩; exact ⟨_, a, h, rfl⟩

/-- Whether a float literal is accepted; `neg` says whether it is negated. -/
def floatOk (neg : Bool) (field : Str) (t : RTy) : Bool :=
  if (enumOf field).isSome || shouldParsed field then false
  else if shouldConvert field then !neg && (t = .f32 || t = .option .f32)
  else t = .f32

theorem floatLit_iff {t : RTy} {x : Platform.F32} : (∃ r, floatLit t x = some r) ↔ t = .f32 := by
  cases t <;> simp [floatLit]

theorem floatInto_iff {t : RTy} {x : Platform.F32} : (∃ r, floatInto t x = some r) ↔ t = .f32 ∨ t = .option .f32 := by
  cases t with
  | option u => cases u <;> simp [floatInto, floatLit]
  | _ => simp [floatInto, floatLit]

theorem exists_ok {α : Type} {o : Option α} : (∃ r, o.map Res.ok = some r) ↔ ∃ r, o = some r := by
  cases o <;> simp

theorem floatOk_iff {Γ : Env} {field : Str} {t : RTy} (x : Platform.F32) :
    (∃ r, (expandCore field (.float x)).eval Γ t = some r) ↔ floatOk false field t = true := by
  unfold expandCore floatOk
  simp only []
  cases hen : enumOf field with
  | some en =>
    simp only [Option.isSome_some, Bool.true_or, if_true]
    constructor
    · rintro ⟨r, h⟩
      split at h
      · split at h <;> simp [RExpr.eval] at h
      · split at h
        · simp [RExpr.eval, evalPath] at h
        · simp [RExpr.eval, evalVariant] at h
    · intro h; cases h
  | none =>
    simp only [Option.isSome_none, Bool.false_or]
    split
    · constructor
      · rintro ⟨r, h⟩
        split at h <;> simp [RExpr.eval, strOf] at h
      · intro h; cases h
    · split
      · simp only [RExpr.eval, evalInto]
        rw [exists_ok, floatInto_iff]
        simp
      · simp only [RExpr.eval, evalPlain]
        rw [exists_ok, floatLit_iff]
        simp

theorem negFloatOk_iff {Γ : Env} {field : Str} {t : RTy} (x : Platform.F32) :
    (∃ r, (expandCore field (.negFloat x)).eval Γ t = some r) ↔ floatOk true field t = true := by
  unfold expandCore floatOk
  simp only []
  cases hen : enumOf field with
  | some en =>
    simp only [Option.isSome_some, Bool.true_or, if_true]
    constructor
    · rintro ⟨r, h⟩
      split at h
      · split at h <;> simp [RExpr.eval] at h
      · split at h
        · simp [RExpr.eval, evalPath] at h
        · simp [RExpr.eval, evalVariant] at h
    · intro h; cases h
  | none =>
    simp only [Option.isSome_none, Bool.false_or]
    split
    · constructor
      · rintro ⟨r, h⟩
        split at h <;> simp [RExpr.eval, strOf] at h
      · intro h; cases h
    · split
      · simp [RExpr.eval, evalInto]
      · simp only [RExpr.eval, evalPlain]
        rw [exists_ok, floatLit_iff]
        simp

/-- Whether a negated integer literal is accepted at all. -/
def negOk (field : Str) (t : RTy) : Bool :=
  (enumOf field).isNone && !shouldParsed field && !shouldConvert field && t = .i8

theorem negOk_of {Γ : Env} {field : Str} {t : RTy} {n : Nat}
    (h : ∃ r, (expandCore field (.negInt n)).eval Γ t = some r) : negOk field t = true := by
  obtain ⟨r, h⟩ := h
  unfold expandCore at h
  simp only [] at h
  unfold negOk
  cases hen : enumOf field with
  | some en =>
    rw [hen] at h
    simp only [] at h
    split at h
    · split at h <;> simp [RExpr.eval] at h
    · split at h
      · simp [RExpr.eval, evalPath] at h
      · simp [RExpr.eval, evalVariant] at h
  | none =>
    rw [hen] at h
    simp only [] at h
    split at h
    · split at h <;> simp [RExpr.eval, strOf] at h
    · split at h
      · simp [RExpr.eval, evalInto] at h
      · rename_i h1 h2
        simp only [RExpr.eval, evalPlain, Option.map_eq_some_iff] at h
        obtain ⟨a, h, _⟩ := h
        have : t = .i8 := by
          cases t <;> first | rfl | (simp [negLit] at h)
        simp [h1, h2, this]

/-! ### Enums -/

theorem variant_iff {t : RTy} {n : Str} {v : t.den} : variant t n = some v ↔ IsVariant t n v := by
  constructor
  · intro h
    cases t <;> simp only [variant, reduceCtorEq] at h
    · refine .class_ ?_
      unfold classNames
      split at h
      · cases h; subst_vars; simp
      · split at h
        · cases h; subst_vars; simp
        · split at h
          · cases h; subst_vars; simp
          · cases h
    · refine .status ?_
      unfold statusNames
      repeat (first | (split at h; · cases h; subst_vars; simp) | (cases h; done))
    · refine .transp ?_
      unfold transpNames
      repeat (first | (split at h; · cases h; subst_vars; simp) | (cases h; done))
    · refine .freq ?_
      unfold freqNames
      repeat (first | (split at h; · cases h; subst_vars; simp) | (cases h; done))
  · intro h
    cases h with
    | class_ h =>
      unfold classNames at h
      simp only [List.mem_cons, Prod.mk.injEq, List.not_mem_nil, or_false] at h
      rcases h with ⟨rfl, rfl⟩ | ⟨rfl, rfl⟩ | ⟨rfl, rfl⟩ <;> rfl
    | freq h =>
      unfold freqNames at h
      simp only [List.mem_cons, Prod.mk.injEq, List.not_mem_nil, or_false] at h
      rcases h with ⟨rfl, rfl⟩ | ⟨rfl, rfl⟩ | ⟨rfl, rfl⟩ | ⟨rfl, rfl⟩ | ⟨rfl, rfl⟩ | ⟨rfl, rfl⟩ | ⟨rfl, rfl⟩ <;> rfl
    | status h =>
      unfold statusNames at h
      simp only [List.mem_cons, Prod.mk.injEq, List.not_mem_nil, or_false] at h
      rcases h with ⟨rfl, rfl⟩ | ⟨rfl, rfl⟩ | ⟨rfl, rfl⟩ | ⟨rfl, rfl⟩ | ⟨rfl, rfl⟩ | ⟨rfl, rfl⟩ | ⟨rfl, rfl⟩ | ⟨rfl, rfl⟩
        <;> rfl
    | transp h =>
      unfold transpNames at h
      simp only [List.mem_cons, Prod.mk.injEq, List.not_mem_nil, or_false] at h
      rcases h with ⟨rfl, rfl⟩ | ⟨rfl, rfl⟩ <;> rfl

theorem intoTy_self {t : RTy} (v : t.den) : intoTy t t v = some v := by
  unfold intoTy; simp

/-- A name for a field that holds an enum. -/
theorem enumOk_iff {Γ : Env} {field : Str} {t : RTy} (he : enumOf field = some t) (hp : shouldParsed field = false) (n : Str) :
    (∃ r, (expandCore field (.name n)).eval Γ t = some r) ↔ ∃ v, IsVariant t n v := by
  unfold expandCore
  simp only [he, hp, Bool.false_eq_true, if_false]
  simp only [← variant_iff]
  split
  · simp only [RExpr.eval, evalPath]
    rw [exists_ok]
    cases variant t n <;> simp [intoTy_self]
  · simp only [RExpr.eval, evalVariant]
    rw [exists_ok]
    cases variant t n <;> simp

/-- A variant with a string for a field that holds an enum. -/
theorem customOk_iff {Γ : Env} {field : Str} {t : RTy} (he : enumOf field = some t) (hp : shouldParsed field = false)
    (n a : Str) :
    (∃ r, (expandCore field (.call n a)).eval Γ t = some r) ↔ t = .class_ ∧ n = c!"Custom" := by
  have hv : (∃ v, variantWith t n a = some v) ↔ t = .class_ ∧ n = c!"Custom" := by
    cases t <;> simp [variantWith]
  rw [← hv]
  unfold expandCore
  simp only [he, hp, Bool.false_eq_true, if_false]
  split
  · simp only [RExpr.eval, evalPath]
    rw [exists_ok]
    cases variantWith t n a <;> simp [intoTy_self]
  · simp only [RExpr.eval, evalVariant]
    rw [exists_ok]
    cases variantWith t n a <;> simp

theorem call_noEnum {Γ : Env} {field : Str} {t : RTy} (he : enumOf field = none) (n a : Str) :
    ¬ ∃ r, (expandCore field (.call n a)).eval Γ t = some r := by
  rintro ⟨r, h⟩
  unfold expandCore at h
  simp only [he] at h
  split at h
  · split at h <;> simp [RExpr.eval, strOf] at h
  · split at h
    · simp [RExpr.eval, evalInto] at h
    · simp [RExpr.eval, evalPlain] at h

/-! ### Variables -/

/-- The conversions. -/
def convOk : List (RTy × RTy) := [(.str, .text), (.str, .uri), (.date, .dateTime), (.dateTime, .date), (.audio, .alarm),
  (.display, .alarm), (.email, .alarm), (.u8, .u32)]

/-- Whether a variable of type `s` is accepted for a field that holds no enum. -/
def nameOk (field : Str) (s t : RTy) : Bool :=
  if shouldParsed field then
    if field = c!"duration" then t = .duration && s = .str
    else (s = .str || s = .text) && [RTy.date, .dateTime, .trigger, .offset, .u8, .u32, .i8, .class_, .status, .transp, .freq,
      .weekday, .weekdayNum, .geo, .recur, .rstatus, .period, .audio, .display, .email, .alarm, .standard, .daylight, .event,
      .freebusy, .journal, .timezone, .todo, .calendar].contains t
  else if shouldConvert field then s = t || t = .option s || convOk.contains (s, t)
  else s = t

theorem convert_ok {s t : RTy} : (∃ f, convert s t = some f) ↔ (s, t) ∈ convOk := by
  cases s <;> first
    | (simp [convert, convOk]; done)
    | (cases t <;> simp [convert, convOk])

theorem intoTy_ok {s t : RTy} (v : s.den) : (∃ r, intoTy s t v = some r) ↔ s = t ∨ t = .option s ∨ (s, t) ∈ convOk := by
  unfold intoTy
  by_cases h : s = t
  · subst h; simp
  · simp only [h, dif_neg, not_false_eq_true, false_or]
    rw [← convert_ok]
    cases t with
    | option u =>
      have hc : ¬ ∃ f, convert s (.option u) = some f := by
        rw [convert_ok]; simp [convOk]
      by_cases hu : s = u
      · subst hu; simp
      · simp only [hu, dif_neg, not_false_eq_true, reduceCtorEq, exists_false, RTy.option.injEq, hc, or_false, false_iff]
        exact fun h => hu h.symm
    | _ =>
      simp only [reduceCtorEq, false_or, Option.map_eq_some_iff]
      constructor
      · rintro ⟨r, f, hf, _⟩; exact ⟨f, hf⟩
      · rintro ⟨f, hf⟩; exact ⟨_, f, hf, rfl⟩

theorem nameOk_iff {Γ : Env} {field : Str} {t s : RTy} {n : Str} {v : s.den} (he : enumOf field = none)
    (hn : Γ n = some ⟨s, v⟩) :
    (∃ r, (expandCore field (.name n)).eval Γ t = some r) ↔ nameOk field s t = true := by
  unfold expandCore nameOk
  simp only [he]
  split
  · split
    · simp only [RExpr.eval, strOf, hn]
      cases s <;> simp only [Option.bind_some, Option.bind_none, reduceCtorEq, exists_false, Bool.false_eq_true, if_false,
        decide_false, Bool.and_false, decide_true, Bool.and_true]
      cases t <;> simp [evalDuration]
    · simp only [RExpr.eval, strOf, hn]
      cases s <;> simp only [if_true, Option.map_some, Option.map_none, Option.bind_none, Option.bind_fun_none, reduceCtorEq,
        exists_false, Bool.false_eq_true, if_false,
        decide_false, Bool.or_false, Bool.false_or, Bool.false_and, decide_true, Bool.true_and]
      all_goals cases t <;> simp [fromStr]
  · split
    · simp only [RExpr.eval, evalInto, hn, Option.bind_some]
      rw [exists_ok, intoTy_ok]
      simp [or_assoc]
    · simp only [RExpr.eval, evalPlain, hn, Option.bind_some]
      rw [exists_ok]
      by_cases h : s = t
      · subst h; simp
      · simp [h]

/-! ## Collections and objects -/

theorem list_accepted {Γ : Env} {ty field : Str} {vs : List Value} {t : RTy} :
    (∃ e, expandValue ty field (.collection vs) = some e ∧ ∃ r, e.eval Γ t = some r) ↔
      ∃ u, t = .vec u ∧ ∀ v ∈ vs, ∃ e, expandValue ty field v = some e ∧ ∃ r, e.eval Γ u = some r := by
  have key : ∀ (vs : List Value) (u : RTy),
      (∃ es, expandSeq ty field vs = some es ∧ ∃ r, evalSeq Γ u es = some r) ↔
        ∀ v ∈ vs, ∃ e, expandValue ty field v = some e ∧ ∃ r, e.eval Γ u = some r := by
    intro vs u
    induction vs with
    | nil => simp [expandSeq, evalSeq]
    | cons v vs ih =>
      rw [List.forall_mem_cons, ← ih]
      simp only [expandSeq, Option.bind_eq_some_iff, Option.map_eq_some_iff]
      constructor
      · rintro ⟨_, ⟨e, he, es, hes, rfl⟩, r, hr⟩
        simp only [evalSeq, Option.bind_eq_some_iff, Option.map_eq_some_iff] at hr
        obtain ⟨r1, h1, r2, h2, _⟩ := hr
        exact ⟨⟨e, he, r1, h1⟩, es, hes, r2, h2⟩
      · rintro ⟨⟨e, he, r1, h1⟩, es, hes, r2, h2⟩
        refine ⟨_, ⟨e, he, es, hes, rfl⟩, ?_⟩
        simp only [evalSeq, h1, h2, Option.bind_some, Option.map_some]
        exact ⟨_, rfl⟩
  simp only [expandValue, Option.map_eq_some_iff]
  constructor
  · rintro ⟨_, ⟨es, hes, rfl⟩, r, hr⟩
    cases t with
    | vec u =>
      simp only [RExpr.eval] at hr
      exact ⟨u, rfl, (key vs u).1 ⟨es, hes, r, hr⟩⟩
    | _ => simp only [RExpr.eval, reduceCtorEq] at hr
  · rintro ⟨u, rfl, h⟩
    obtain ⟨es, hes, r, hr⟩ := (key vs u).2 h
    exact ⟨_, ⟨es, hes, rfl⟩, r, by simp only [RExpr.eval]; exact hr⟩

theorem object_accepted {Γ : Env} {ty field : Str} {es : List (Str × Value)} {ts : List Token} (hw : Writes es ts) {t : RTy} :
    (∃ e, expandValue ty field (.object es) = some e ∧ ∃ r, e.eval Γ t = some r) ↔
      ∃ u, underSome ty field t = some u ∧ (∃ p, u.struct = some p ∧ objectTy field = some p.1) ∧
        ∃ r, componentMacro Γ u ts = some r := by
  have struct_ok : ∀ (u : RTy) (o : Str), (∃ fs, expandEntries o es = some fs ∧ ∃ r, (RExpr.struct o fs).eval Γ u = some r) ↔
      (∃ p, u.struct = some p ∧ some o = some p.1) ∧ ∃ r, componentMacro Γ u ts = some r := by
    intro u o
    constructor
    · rintro ⟨fs, he, r, hr⟩
      obtain ⟨ms, d, f, hs, hn, hf, rfl⟩ := evalStruct hr
      refine ⟨⟨_, hs, rfl⟩, f.map (· d), ?_⟩
      · simp only [componentMacro, hs, Option.bind_some, parseMap_complete hw, he]
        exact hr
    · rintro ⟨⟨p, hp, ho⟩, r, hr⟩
      cases ho
      simp only [componentMacro, hp, Option.bind_some, parseMap_complete hw, Option.bind_eq_some_iff] at hr
      obtain ⟨fs, he, hr⟩ := hr
      exact ⟨fs, he, r, hr⟩
  simp only [expandValue, Option.bind_eq_some_iff, Option.map_eq_some_iff]
  unfold underSome
  constructor
  · rintro ⟨_, ⟨o, ho, fs, hfs, rfl⟩, r, hr⟩
    split at hr
    · rename_i hi
      obtain ⟨u, rfl, r', hr', rfl⟩ := eval_some hr
      refine ⟨u, by simp [hi], ?_⟩
      rw [ho]
      exact (struct_ok u o).1 ⟨fs, hfs, r', hr'⟩
    · rename_i hi
      refine ⟨t, by simp [hi], ?_⟩
      rw [ho]
      exact (struct_ok t o).1 ⟨fs, hfs, r, hr⟩
  · rintro ⟨u, hu, ⟨p, hp, ho⟩, hm⟩
    obtain ⟨fs, hfs, r, hr⟩ := (struct_ok u p.1).2 ⟨⟨p, hp, rfl⟩, hm⟩
    refine ⟨_, ⟨p.1, ho, fs, hfs, rfl⟩, ?_⟩
    split at hu
    · rename_i hi
      cases t with
      | option w =>
        cases hu
        rw [if_pos hi]
        exact ⟨r.map some, by simp only [RExpr.eval] at hr ⊢; rw [hr]; rfl⟩
      | _ => cases hu
    · rename_i hi
      cases hu
      rw [if_neg hi]
      exact ⟨r, hr⟩

end

/-! ## The fields -/

/-- The fields of the structs. -/
def RTy.fieldList : RTy → List (Str × RTy)
  | .audio => [(c!"action", .text), (c!"trigger", .trigger), (c!"duration", (.option .duration)), (c!"repeat", (.option .u32)), (c!"attach", (.vec .text)), (c!"x_prop", .lines), (c!"iana_prop", .lines)]
  | .display => [(c!"action", .text), (c!"trigger", .trigger), (c!"description", .text), (c!"duration", (.option .duration)), (c!"repeat", (.option .u32)), (c!"x_prop", .lines), (c!"iana_prop", .lines)]
  | .email => [(c!"action", .text), (c!"trigger", .trigger), (c!"description", .text), (c!"summary", .text), (c!"attendee", (.vec .uri)), (c!"duration", (.option .duration)), (c!"repeat", (.option .u32)), (c!"attach", (.vec .text)), (c!"x_prop", .lines), (c!"iana_prop", .lines)]
  | .event => [(c!"dtstamp", .dateTime), (c!"uid", .text), (c!"dtstart", .date), (c!"class", (.option .class_)), (c!"created", (.option .dateTime)), (c!"description", (.option .text)), (c!"geo", (.option .geo)), (c!"last_modified", (.option .dateTime)), (c!"location", (.option .text)), (c!"organizer", (.option .uri)), (c!"priority", (.option .u8)), (c!"sequence", (.option .u32)), (c!"status", (.option .status)), (c!"summary", (.option .text)), (c!"transp", (.option .transp)), (c!"url", (.option .uri)), (c!"recurid", (.option .date)), (c!"rrule", (.option .recur)), (c!"dtend", (.option .date)), (c!"duration", (.option .duration)), (c!"attach", (.vec .text)), (c!"attendee", (.vec .uri)), (c!"categories", (.vec .text)), (c!"comment", (.vec .text)), (c!"contact", (.vec .text)), (c!"exdate", (.vec .date)), (c!"rstatus", (.vec .rstatus)), (c!"related_to", (.vec .text)), (c!"resources", (.vec .text)), (c!"rdate", (.vec .rdate)), (c!"alarms", (.vec .alarm)), (c!"x_prop", .lines), (c!"iana_prop", .lines)]
  | .freebusy => [(c!"dtstamp", .dateTime), (c!"uid", .text), (c!"contact", (.option .text)), (c!"dtstart", (.option .date)), (c!"dtend", (.option .date)), (c!"organizer", (.option .uri)), (c!"url", (.option .uri)), (c!"attendee", (.vec .uri)), (c!"comment", (.vec .text)), (c!"freebusy", (.vec .period)), (c!"rstatus", (.vec .rstatus)), (c!"x_prop", .lines), (c!"iana_prop", .lines)]
  | .journal => [(c!"dtstamp", .dateTime), (c!"uid", .text), (c!"class", (.option .class_)), (c!"created", (.option .dateTime)), (c!"dtstart", .date), (c!"last_modified", (.option .dateTime)), (c!"organizer", (.option .uri)), (c!"recurid", (.option .date)), (c!"sequence", (.option .u32)), (c!"status", (.option .status)), (c!"summary", (.option .text)), (c!"url", (.option .uri)), (c!"rrule", (.option .recur)), (c!"attach", (.vec .text)), (c!"attendee", (.vec .uri)), (c!"categories", (.vec .text)), (c!"comment", (.vec .text)), (c!"contact", (.vec .text)), (c!"description", (.vec .text)), (c!"exdate", (.vec .date)), (c!"related_to", (.vec .text)), (c!"rdate", (.vec .rdate)), (c!"rstatus", (.vec .rstatus)), (c!"x_prop", .lines), (c!"iana_prop", .lines)]
  | .standard => [(c!"dtstart", .date), (c!"tzoffsetto", .offset), (c!"tzoffsetfrom", .offset), (c!"rrule", (.option .recur)), (c!"comment", (.vec .text)), (c!"rdate", (.vec .rdate)), (c!"tzname", (.vec .text)), (c!"x_prop", .lines), (c!"iana_prop", .lines)]
  | .daylight => [(c!"dtstart", .date), (c!"tzoffsetto", .offset), (c!"tzoffsetfrom", .offset), (c!"rrule", (.option .recur)), (c!"comment", (.vec .text)), (c!"rdate", (.vec .rdate)), (c!"tzname", (.vec .text)), (c!"x_prop", .lines), (c!"iana_prop", .lines)]
  | .timezone => [(c!"tzid", .text), (c!"last_modified", (.option .dateTime)), (c!"tzurl", (.option .uri)), (c!"standard", (.vec .standard)), (c!"daylight", (.vec .daylight)), (c!"x_prop", .lines), (c!"iana_prop", .lines)]
  | .todo => [(c!"dtstamp", .dateTime), (c!"uid", .text), (c!"class", (.option .class_)), (c!"completed", (.option .dateTime)), (c!"created", (.option .dateTime)), (c!"dtstart", (.option .date)), (c!"geo", (.option .geo)), (c!"last_modified", (.option .dateTime)), (c!"location", (.option .text)), (c!"organizer", (.option .uri)), (c!"percent_complete", (.option .u8)), (c!"priority", (.option .u8)), (c!"recurid", (.option .date)), (c!"sequence", (.option .u32)), (c!"status", (.option .status)), (c!"summary", (.option .text)), (c!"url", (.option .uri)), (c!"rrule", (.option .recur)), (c!"due", (.option .date)), (c!"duration", (.option .duration)), (c!"attach", (.vec .text)), (c!"attendee", (.vec .uri)), (c!"categories", (.vec .text)), (c!"comment", (.vec .text)), (c!"contact", (.vec .text)), (c!"exdate", (.vec .date)), (c!"rstatus", (.vec .rstatus)), (c!"related_to", (.vec .text)), (c!"resources", (.vec .text)), (c!"rdate", (.vec .rdate)), (c!"x_prop", .lines), (c!"iana_prop", .lines)]
  | .calendar => [(c!"prodid", .text), (c!"version", .text), (c!"calscale", (.option .text)), (c!"method", (.option .text)), (c!"alarms", (.vec .alarm)), (c!"events", (.vec .event)), (c!"freebusy", (.vec .freebusy)), (c!"journals", (.vec .journal)), (c!"todo", (.vec .todo)), (c!"timezones", (.vec .timezone)), (c!"x_prop", .lines), (c!"iana_prop", .lines)]
  | .recur => [(c!"freq", .freq), (c!"until", (.option .date)), (c!"count", (.option .u8)), (c!"interval", .u8), (c!"by_second", (.vec .i8)), (c!"by_minute", (.vec .i8)), (c!"by_hour", (.vec .i8)), (c!"by_day", (.vec .weekdayNum)), (c!"by_monthday", (.vec .i8)), (c!"by_yearday", (.vec .i8)), (c!"by_weekno", (.vec .i8)), (c!"by_month", (.vec .i8)), (c!"by_setpos", (.vec .i8)), (c!"wkst", (.option .weekday))]
  | .geo => [(c!"lat", .f32), (c!"lon", .f32)]
  | .rstatus => [(c!"statcode", .f32), (c!"statdesc", .str), (c!"extdata", (.option .str))]
  | _ => []

/-- The names of the structs. -/
def RTy.structName : RTy → Str
  | .audio => c!"valarm::Audio"
  | .display => c!"valarm::Display"
  | .email => c!"valarm::Email"
  | .event => c!"VEvent"
  | .freebusy => c!"VFreebusy"
  | .journal => c!"VJournal"
  | .standard => c!"vtimezone::Standard"
  | .daylight => c!"vtimezone::Daylight"
  | .timezone => c!"VTimezone"
  | .todo => c!"VTodo"
  | .calendar => c!"VCalendar"
  | .recur => c!"Recur"
  | .geo => c!"Geo"
  | .rstatus => c!"RequestStatus"
  | _ => []

/-- The structs. -/
def structTys : List RTy := [.audio, .display, .email, .event, .freebusy, .journal, .standard, .daylight, .timezone, .todo, .calendar, .recur, .geo, .rstatus]

section
variable [Platform]

theorem struct_table {t : RTy} {name : Str} {ms : List (Member t.den)} {d : t.den} (h : t.struct = some (name, ms, d)) :
    t ∈ structTys ∧ name = t.structName ∧ ms.map (fun m => (m.name, m.ty)) = t.fieldList := by
  cases t <;> first | (cases h; done) | (cases h; exact ⟨by decide, rfl, rfl⟩)

theorem member_table {t : RTy} {name : Str} {ms : List (Member t.den)} {d : t.den} (h : t.struct = some (name, ms, d))
    {m : Member t.den} (hm : m ∈ ms) : (m.name, m.ty) ∈ t.fieldList :=
  (struct_table h).2.2 ▸ List.mem_map.2 ⟨m, hm, rfl⟩

/-- A property of the fields of the structs, checked on the table of fields. -/
theorem all_fields {P : RTy → Str → RTy → Prop} (hP : ∀ t ∈ structTys, ∀ f ∈ t.fieldList, P t f.1 f.2)
    {t : RTy} {name : Str} {ms : List (Member t.den)} {d : t.den} (h : t.struct = some (name, ms, d)) {m : Member t.den}
    (hm : m ∈ ms) : P t m.name m.ty :=
  hP t (struct_table h).1 _ (member_table h hm)

end

end Ikal
