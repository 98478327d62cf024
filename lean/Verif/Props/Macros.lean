import Verif.Lemmas.MacroAccept
import Verif.TestPlatform

/-!
# C71, C72: the component macros

`vevent! { … }` and its siblings.  C71: an accepted call builds what is written, whatever the call.  C72: which fields accept
which kind of value (the documentation of `vcalendar!` says that one need not care).
-/

namespace Ikal

open Spec

section
variable [Platform]

/-- The compiler accepts the call. -/
def Spec.Accepted (Γ : Env) (t : RTy) (ts : List Token) : Prop := ∃ r, componentMacro Γ t ts = some r

/-! ## C71 -/

/-- An accepted call is a list of entries, and evaluates to what they mean: each named field has the value that is written for
it, the others are those of the default, and the first value that cannot be read, in written order, is the error. -/
theorem C71_macro {Γ : Env} {t : RTy} {ts : List Token} {r : Res t.den} (h : componentMacro Γ t ts = some r) :
    ∃ es, Writes es ts ∧ Means Γ t (.object es) r :=
  componentMacro_means h

/-- There is only one way to read the tokens and, unless a variable hides a variant, only one result they mean. -/
theorem C71_macro_unique {Γ : Env} {t : RTy} {ts : List Token} {r r' : Res t.den} {es : List (Str × Value)}
    (h : componentMacro Γ t ts = some r) (hΓ : NoShadow Γ) (hw : Writes es ts) (hm : Means Γ t (.object es) r') :
    r' = r := by
  obtain ⟨es', hw', hm'⟩ := componentMacro_means h
  have h1 := parseMap_complete hw
  rw [parseMap_complete hw'] at h1
  cases h1
  exact means_unique hΓ _ _ hm hm'

/-- The struct that is built, field by field: a field that is not named is that of the default. -/
theorem C71_unnamed {Γ : Env} {t : RTy} {name : Str} {ms : List (Member t.den)} {d : t.den}
    (hs : t.struct = some (name, ms, d)) {ts : List Token} {v : t.den} (h : componentMacro Γ t ts = some (.ok v))
    {es : List (Str × Value)} (hw : Writes es ts) {m : Member t.den} (hm : m ∈ ms) (hn : ∀ kv ∈ es, kv.1 ≠ m.name) :
    m.get v = m.get d := by
  obtain ⟨es', hw', hm'⟩ := componentMacro_means h
  have h1 := parseMap_complete hw
  rw [parseMap_complete hw'] at h1
  cases h1
  generalize hr : Res.ok v = r at hm'
  cases hm' with
  | some _ => cases hs
  | object hs' _ he hb =>
    rw [hs] at hs'
    cases hs'
    subst hr
    refine hb.2 m hm ?_
    intro a ha hna
    have : a.1.name ∈ es.map (·.1) := (means_names he).1 ▸ List.mem_map.2 ⟨a, ha, rfl⟩
    obtain ⟨kv, hkv, hk⟩ := List.mem_map.1 this
    exact hn kv hkv (hk.trans hna)

/-- A field that is named holds a value that is written for it. -/
theorem C71_named {Γ : Env} {t : RTy} {name : Str} {ms : List (Member t.den)} {d : t.den}
    (hs : t.struct = some (name, ms, d)) {ts : List Token} {v : t.den} (h : componentMacro Γ t ts = some (.ok v))
    {es : List (Str × Value)} (hw : Writes es ts) {m : Member t.den} (hm : m ∈ ms) {x : Value} (hx : (m.name, x) ∈ es) :
    (x ≠ .none ∧ Means Γ m.ty x (.ok (m.get v))) ∨ (x = .none ∧ Γ m.name = some ⟨m.ty, m.get v⟩) := by
  obtain ⟨es', hw', hm'⟩ := componentMacro_means h
  have h1 := parseMap_complete hw
  rw [parseMap_complete hw'] at h1
  cases h1
  generalize hr : Res.ok v = r at hm'
  cases hm' with
  | some _ => cases hs
  | object hs' _ he hb =>
    rw [hs] at hs'
    cases hs'
    subst hr
    have key : ∀ (es : List (Str × Value)) (as : List ((m : Member t.den) × Res m.ty.den)), MeansEntries Γ ms es as →
        (m.name, x) ∈ es → ∃ r : Res m.ty.den, ⟨m, r⟩ ∈ as ∧
          ((x ≠ .none ∧ Means Γ m.ty x r) ∨ (x = .none ∧ ∃ y, r = .ok y ∧ Γ m.name = some ⟨m.ty, y⟩)) := by
      intro es as
      induction as generalizing es with
      | nil => intro h hx; cases h; cases hx
      | cons a as ih =>
        intro h hx
        cases h with
        | entry hm' hv he =>
          rcases List.mem_cons.1 hx with hx | hx
          · simp only [Prod.mk.injEq] at hx
            obtain ⟨hn, rfl⟩ := hx
            have := (struct_good hs).unique hm hm' hn
            subst this
            refine ⟨_, List.mem_cons_self .., .inl ⟨?_, hv⟩⟩
            rintro rfl
            exact no_none _ hv
          · obtain ⟨r, hr, h⟩ := ih _ he hx
            exact ⟨r, List.mem_cons_of_mem _ hr, h⟩
        | shorthand hm' hv he =>
          rcases List.mem_cons.1 hx with hx | hx
          · simp only [Prod.mk.injEq] at hx
            obtain ⟨hn, rfl⟩ := hx
            have := (struct_good hs).unique hm hm' hn
            subst this
            exact ⟨_, List.mem_cons_self .., .inr ⟨rfl, _, rfl, hv⟩⟩
          · obtain ⟨r, hr, h⟩ := ih _ he hx
            exact ⟨r, List.mem_cons_of_mem _ hr, h⟩
    obtain ⟨r, hr, h⟩ := key es _ he hx
    have := hb.1 _ hr
    simp only [] at this
    subst this
    rcases h with h | ⟨h1, y, hy, h2⟩
    · exact .inl h
    · cases hy
      exact .inr ⟨h1, h2⟩

/-- Commas after values are optional: two writings of the same entries are the same call. -/
theorem C71_commas (Γ : Env) (t : RTy) {es : List (Str × Value)} {ts ts' : List Token} (h : Writes es ts)
    (h' : Writes es ts') : componentMacro Γ t ts = componentMacro Γ t ts' := by
  unfold componentMacro
  rw [parseMap_complete h, parseMap_complete h']

/-- A call without entries is accepted and gives the default value: no field is mandatory. -/
theorem C71_empty (Γ : Env) {t : RTy} {name : Str} {ms : List (Member t.den)} {d : t.den}
    (hs : t.struct = some (name, ms, d)) : componentMacro Γ t [] = some (.ok d) := by
  simp only [componentMacro, hs, Option.bind_some, parseMap, expandEntries, RExpr.eval, evalFields, List.map_nil,
    List.nodup_nil, and_self, if_true, Option.map_some, Res.map, id]

/-- What the fields of the default value are: empty, absent or zero, and for required dates the first of January 1970. -/
theorem C71_default {t : RTy} {name : Str} {ms : List (Member t.den)} {d : t.den} (hs : t.struct = some (name, ms, d)) :
    ∀ m ∈ ms, IsDefault m.ty (m.get d) := by
  cases t <;> simp only [RTy.struct, Option.some.injEq, Prod.mk.injEq, reduceCtorEq] at hs <;> obtain ⟨_, rfl, rfl⟩ := hs <;>
    simp only [Audio.members, Display.members, Email.members, Standard.members, Daylight.members, VEvent.members, VFreebusy.members, VJournal.members,
      VTimezone.members, VTodo.members, VCalendar.members, Recur.members, Geo.members, RequestStatus.members, List.forall_mem_cons, List.forall_mem_nil]
  all_goals
    repeat (refine ⟨?_, ?_⟩; first | exact rfl | exact ⟨rfl, rfl⟩)
    simp

/-- So a field that is not named is empty, absent or zero. -/
theorem C71_unnamed_default {Γ : Env} {t : RTy} {name : Str} {ms : List (Member t.den)} {d : t.den}
    (hs : t.struct = some (name, ms, d)) {ts : List Token} {v : t.den} (h : componentMacro Γ t ts = some (.ok v))
    {es : List (Str × Value)} (hw : Writes es ts) {m : Member t.den} (hm : m ∈ ms) (hn : ∀ kv ∈ es, kv.1 ≠ m.name) :
    IsDefault m.ty (m.get v) := by
  rw [C71_unnamed hs h hw hm hn]
  exact C71_default hs m hm

/-- Tokens that are not a list of entries are rejected. -/
theorem C71_grammar {Γ : Env} {t : RTy} {ts : List Token} (h : Accepted Γ t ts) : ∃ es, Writes es ts := by
  obtain ⟨r, h⟩ := h
  obtain ⟨es, hw, _⟩ := componentMacro_means h
  exact ⟨es, hw⟩

/-- The action of an alarm. -/
def Spec.actionOf : VAlarm → Text
  | .audio a => a.action
  | .display a => a.action
  | .email a => a.action

/-- `valarm!` accepts what the macro of the kind accepts, and fails as it does; the alarm is the one of that macro, except for
its action, which is the kind, whatever is written for it. -/
theorem C71_alarm_audio (Γ : Env) (ts : List Token) :
    valarmMacro Γ .audio ts = (componentMacro Γ .audio ts).map fun r =>
      match r with
      | .ok (a : Audio) => .ok (.audio { a with action := ⟨[], c!"AUDIO"⟩ })
      | .err e => .err e
      | .panic => .panic := by
  unfold valarmMacro
  cases componentMacro Γ .audio ts with
  | none => rfl
  | some r => cases r <;> rfl

theorem C71_alarm_display (Γ : Env) (ts : List Token) :
    valarmMacro Γ .display ts = (componentMacro Γ .display ts).map fun r =>
      match r with
      | .ok (a : Display) => .ok (.display { a with action := ⟨[], c!"DISPLAY"⟩ })
      | .err e => .err e
      | .panic => .panic := by
  unfold valarmMacro
  cases componentMacro Γ .display ts with
  | none => rfl
  | some r => cases r <;> rfl

theorem C71_alarm_email (Γ : Env) (ts : List Token) :
    valarmMacro Γ .email ts = (componentMacro Γ .email ts).map fun r =>
      match r with
      | .ok (a : Email) => .ok (.email { a with action := ⟨[], c!"EMAIL"⟩ })
      | .err e => .err e
      | .panic => .panic := by
  unfold valarmMacro
  cases componentMacro Γ .email ts with
  | none => rfl
  | some r => cases r <;> rfl

/-- A rule written as an object without `interval` has interval 0, where a rule read from text has interval 1. -/
theorem C71_rule_interval {Γ : Env} {es : List (Str × Value)} {r : Recur}
    (h : Means Γ .recur (.object es) (.ok r)) (hn : ∀ kv ∈ es, kv.1 ≠ c!"interval") : r.interval = 0 := by
  generalize hr : Res.ok r = q at h
  cases h with
  | object hs _ he hb =>
    cases hs
    subst hr
    have hm : (⟨c!"interval", .u8, (·.interval), fun x v => { v with interval := x }⟩ : Member Recur) ∈ Recur.members := by
      simp [Recur.members]
    refine hb.2 _ hm ?_
    intro a ha hna
    have : a.1.name ∈ es.map (·.1) := (means_names he).1 ▸ List.mem_map.2 ⟨a, ha, rfl⟩
    obtain ⟨kv, hkv, hk⟩ := List.mem_map.1 this
    exact hn kv hkv (hk.trans hna)

/-! ## C72 -/

/-- A call is accepted exactly when it is a list of entries with different names, each of which is accepted alone. -/
theorem C72_entries (Γ : Env) {t : RTy} {name : Str} {ms : List (Member t.den)} {d : t.den}
    (hs : t.struct = some (name, ms, d)) {ts : List Token} {es : List (Str × Value)} (hw : Writes es ts) :
    Accepted Γ t ts ↔ (es.map (·.1)).Nodup ∧ ∀ kv ∈ es, ∃ ts', Writes [kv] ts' ∧ Accepted Γ t ts' := by
  have one : ∀ {es ts}, Writes es ts → ∀ kv ∈ es, ∃ ts', Writes [kv] ts' := by
    intro es ts hw
    induction es generalizing ts with
    | nil => intro kv h; cases h
    | cons e es ih =>
      intro kv h
      cases hw with
      | entry hv hr =>
        rcases List.mem_cons.1 h with rfl | h
        · exact ⟨_, .entry hv .nil⟩
        · exact ih hr kv h
      | entryComma hv hr =>
        rcases List.mem_cons.1 h with rfl | h
        · exact ⟨_, .entry hv .nil⟩
        · exact ih hr kv h
      | shorthand hr =>
        rcases List.mem_cons.1 h with rfl | h
        · exact ⟨_, .shorthand .nil⟩
        · exact ih hr kv h
  unfold Accepted
  rw [accepted_iff hs hw]
  constructor
  · rintro ⟨h1, h2⟩
    refine ⟨h1, fun kv hkv => ?_⟩
    obtain ⟨ts', hw'⟩ := one hw kv hkv
    refine ⟨ts', hw', (accepted_iff hs hw').2 ⟨by simp, ?_⟩⟩
    intro q hq
    simp only [List.mem_cons, List.not_mem_nil, or_false] at hq
    subst hq
    exact h2 q hkv
  · rintro ⟨h1, h2⟩
    refine ⟨h1, fun kv hkv => ?_⟩
    obtain ⟨ts', hw', h⟩ := h2 kv hkv
    exact ((accepted_iff hs hw').1 h).2 kv (by simp)

/-- An entry that names no field is rejected. -/
theorem C72_unknown {Γ : Env} {t : RTy} {name : Str} {ms : List (Member t.den)} {d : t.den}
    (hs : t.struct = some (name, ms, d)) {ts : List Token} {es : List (Str × Value)} (hw : Writes es ts)
    (h : Accepted Γ t ts) : ∀ kv ∈ es, ∃ m ∈ ms, m.name = kv.1 := by
  intro kv hkv
  obtain ⟨m, hm, _⟩ := ((accepted_iff hs hw).1 h).2 kv hkv
  exact ⟨m, find_member hm⟩

/-- A name alone is accepted exactly when a variable of that name has the type of the field, option and all. -/
theorem C72_shorthand (Γ : Env) {t : RTy} {name : Str} {ms : List (Member t.den)} {d : t.den}
    (hs : t.struct = some (name, ms, d)) {m : Member t.den} (hm : m ∈ ms) :
    Accepted Γ t [.ident m.name, .comma] ↔ ∃ x, Γ m.name = some ⟨m.ty, x⟩ := by
  unfold Accepted
  rw [accepted_iff hs (.shorthand .nil)]
  simp only [List.map_cons, List.map_nil, List.nodup_cons, List.not_mem_nil, not_false_eq_true, List.nodup_nil, and_self,
    true_and, List.mem_cons, or_false, forall_eq]
  have hf := (struct_good hs).find hm
  constructor
  · rintro ⟨m', hm', h⟩
    rw [hf] at hm'
    cases hm'
    rcases h with ⟨_, h⟩ | ⟨e, r, he, hr⟩
    · exact h
    · simp [expandValue] at he
  · rintro h
    exact ⟨m, hf, .inl ⟨rfl, h⟩⟩

/-- The types that have a textual form: texts, and what is read from a string. -/
def Spec.textTypes : List RTy := [.text, .uri, .str, .date, .dateTime, .duration, .trigger, .offset, .geo, .recur, .rstatus,
  .period, .weekday, .weekdayNum]

theorem single_entry (Γ : Env) {t : RTy} {name : Str} {ms : List (Member t.den)} {d : t.den}
    (hs : t.struct = some (name, ms, d)) {m : Member t.den} (hm : m ∈ ms) {tok : Token} {e : Expr}
    (hw : WritesValue (.single e) tok) :
    Accepted Γ t [.ident m.name, .colon, tok] ↔
      ∃ u, underSome t.structName m.name m.ty = some u ∧ ∃ r, (expandCore m.name e).eval Γ u = some r := by
  unfold Accepted
  rw [accepted_one hs hm (.entry hw .nil) (by simp), ← (struct_table hs).2.1, ← single_accepted]
  simp [expandValue]

/-- The fields with a textual form that do not accept a string. -/
def Spec.noString : List (RTy × Str) :=
  [(.calendar, c!"calscale"), (.calendar, c!"method"), (.recur, c!"until"), (.recur, c!"wkst")]

/-- A field with a textual form, optional or not, accepts every string literal, except four fields that accept none. -/
theorem C72_text (Γ : Env) {t : RTy} {name : Str} {ms : List (Member t.den)} {d : t.den}
    (hs : t.struct = some (name, ms, d)) {m : Member t.den} (hm : m ∈ ms) {b : RTy} (hb : b ∈ textTypes)
    (ht : m.ty = b ∨ m.ty = .option b) (s : Str) :
    Accepted Γ t [.ident m.name, .colon, .expr (.str s)] ↔ (t, m.name) ∉ noString := by
  rw [single_entry Γ hs hm .expr]
  simp only [strOk_iff]
  have key := all_fields (P := fun t f ty => ∀ b ∈ textTypes, (ty = b ∨ ty = .option b) →
      ((underSome t.structName f ty).any (strOk f) = true ↔ (t, f) ∉ noString)) (by decide +kernel) hs hm b hb ht
  rw [← key, Option.any_eq_true]

/-- An entry whose value is a list. -/
theorem list_entry (Γ : Env) {t : RTy} {name : Str} {ms : List (Member t.den)} {d : t.den}
    (hs : t.struct = some (name, ms, d)) {m : Member t.den} (hm : m ∈ ms) {es : List Expr} {ts : List Token}
    (hw : WritesSeq (es.map .single) ts) :
    Accepted Γ t [.ident m.name, .colon, .bracket ts] ↔ ∃ b, m.ty = .vec b ∧ ∀ e ∈ es,
      ∃ u, underSome t.structName m.name b = some u ∧ ∃ r, (expandCore m.name e).eval Γ u = some r := by
  unfold Accepted
  rw [accepted_one hs hm (.entry (.collection hw) .nil) (by simp), list_accepted]
  refine exists_congr fun b => and_congr_right fun _ => ?_
  rw [List.forall_mem_map]
  refine forall_congr' fun e => forall_congr' fun _ => ?_
  rw [← (struct_table hs).2.1, ← single_accepted]
  simp [expandValue]

/-- The empty list is accepted exactly for the list fields. -/
theorem C72_empty_list (Γ : Env) {t : RTy} {name : Str} {ms : List (Member t.den)} {d : t.den}
    (hs : t.struct = some (name, ms, d)) {m : Member t.den} (hm : m ∈ ms) :
    Accepted Γ t [.ident m.name, .colon, .bracket []] ↔ ∃ b, m.ty = .vec b := by
  rw [list_entry Γ hs hm (es := []) .nil]
  simp

/-- A list field whose elements have a textual form accepts every non-empty list of string literals, except two fields that
accept none. -/
theorem C72_text_list (Γ : Env) {t : RTy} {name : Str} {ms : List (Member t.den)} {d : t.den}
    (hs : t.struct = some (name, ms, d)) {m : Member t.den} (hm : m ∈ ms) {b : RTy} (hb : b ∈ textTypes)
    (ht : m.ty = .vec b) {ss : List Str} (hne : ss ≠ []) {ts : List Token}
    (hw : WritesSeq (ss.map fun s => .single (.str s)) ts) :
    Accepted Γ t [.ident m.name, .colon, .bracket ts] ↔
      (t, m.name) ≠ (.freebusy, c!"freebusy") ∧ (t, m.name) ≠ (.recur, c!"by_day") := by
  have hw' : WritesSeq ((ss.map Expr.str).map .single) ts := by
    rw [List.map_map]; exact hw
  rw [list_entry Γ hs hm hw']
  simp only [List.forall_mem_map, strOk_iff, ht, RTy.vec.injEq, exists_eq_left']
  have key := all_fields (P := fun t f ty => ∀ b ∈ textTypes, ty = .vec b →
      ((underSome t.structName f b).any (strOk f) = true ↔ (t, f) ≠ (.freebusy, c!"freebusy") ∧ (t, f) ≠ (.recur, c!"by_day")))
      (by decide +kernel) hs hm b hb ht
  rw [← key, Option.any_eq_true]
  constructor
  · intro h
    obtain ⟨s, hs⟩ := List.exists_mem_of_ne_nil ss hne
    exact h s hs
  · intro h s _
    exact h

/-- No list of the extension points `rdate` accepts a string. -/
theorem C72_no_rdate (Γ : Env) {t : RTy} {name : Str} {ms : List (Member t.den)} {d : t.den}
    (hs : t.struct = some (name, ms, d)) {m : Member t.den} (hm : m ∈ ms) (ht : m.ty = .vec .rdate) {ss : List Str}
    {ts : List Token} (hw : WritesSeq (ss.map fun s => .single (.str s)) ts) :
    Accepted Γ t [.ident m.name, .colon, .bracket ts] ↔ ss = [] := by
  have hw' : WritesSeq ((ss.map Expr.str).map .single) ts := by
    rw [List.map_map]; exact hw
  rw [list_entry Γ hs hm hw']
  simp only [List.forall_mem_map, strOk_iff, ht, RTy.vec.injEq, exists_eq_left']
  have key := all_fields (P := fun t f ty => ty = .vec .rdate →
      (underSome t.structName f .rdate).any (strOk f) = false) (by decide +kernel) hs hm ht
  constructor
  · intro h
    cases ss with
    | nil => rfl
    | cons s ss =>
      have := (Option.any_eq_true _ _).2 (h s (List.mem_cons_self ..))
      rw [key] at this
      cases this
  · rintro rfl s hs; cases hs

/-- The integer types and the largest number of each. -/
def Spec.integers : List (RTy × Nat) := [(.u8, 255), (.u32, 4294967295), (.i8, 127)]

/-- An integer literal is accepted exactly for the fields that hold an integer, optional or not, of a type it fits in. -/
theorem C72_int (Γ : Env) {t : RTy} {name : Str} {ms : List (Member t.den)} {d : t.den}
    (hs : t.struct = some (name, ms, d)) {m : Member t.den} (hm : m ∈ ms) (n : Nat) :
    Accepted Γ t [.ident m.name, .colon, .expr (.int n)] ↔
      ∃ b max, (b, max) ∈ integers ∧ (m.ty = b ∨ m.ty = .option b) ∧ n ≤ max := by
  rw [single_entry Γ hs hm .expr]
  simp only [intOk_iff]
  have key := all_fields (P := fun t f ty => ∀ i ∈ integers, (ty = i.1 ∨ ty = .option i.1) →
      (underSome t.structName f ty).bind (intOk f) = some i.2) (by decide +kernel) hs hm
  have key' := all_fields (P := fun t f ty => (∀ i ∈ integers, ¬ (ty = i.1 ∨ ty = .option i.1)) →
      (underSome t.structName f ty).bind (intOk f) = none) (by decide +kernel) hs hm
  by_cases h : ∃ i ∈ integers, (m.ty = i.1 ∨ m.ty = .option i.1)
  · obtain ⟨⟨b, mx⟩, hi, hty⟩ := h
    have hk := key _ hi hty
    simp only [Option.bind_eq_some_iff] at hk
    constructor
    · rintro ⟨u, hu, mx', h1, h2⟩
      obtain ⟨u', hu', hk⟩ := hk
      rw [hu] at hu'; cases hu'
      rw [h1] at hk; cases hk
      exact ⟨b, _, hi, hty, h2⟩
    · rintro ⟨b', mx', hi', hty', h2⟩
      have hk' := key _ hi' hty'
      simp only [Option.bind_eq_some_iff] at hk'
      obtain ⟨u', hu', hk'⟩ := hk'
      exact ⟨u', hu', _, hk', h2⟩
  · have hk := key' fun i hi hty => h ⟨i, hi, hty⟩
    constructor
    · rintro ⟨u, hu, mx, h1, _⟩
      rw [hu, Option.bind_some, h1] at hk
      cases hk
    · rintro ⟨b, mx, hi, hty, _⟩
      exact absurd ⟨_, hi, hty⟩ h

/-- A list of integer literals is accepted exactly for the list fields that hold integers, when each fits. -/
theorem C72_int_list (Γ : Env) {t : RTy} {name : Str} {ms : List (Member t.den)} {d : t.den}
    (hs : t.struct = some (name, ms, d)) {m : Member t.den} (hm : m ∈ ms) {ns : List Nat} (hne : ns ≠ []) {ts : List Token}
    (hw : WritesSeq (ns.map fun n => .single (.int n)) ts) :
    Accepted Γ t [.ident m.name, .colon, .bracket ts] ↔ m.ty = .vec .i8 ∧ ∀ n ∈ ns, n ≤ 127 := by
  have hw' : WritesSeq ((ns.map Expr.int).map .single) ts := by
    rw [List.map_map]; exact hw
  rw [list_entry Γ hs hm hw']
  simp only [List.forall_mem_map, intOk_iff]
  have key := all_fields (P := fun t f ty => ty = .vec .i8 →
      (underSome t.structName f .i8).bind (intOk f) = some 127) (by decide +kernel) hs hm
  have key' := all_fields (P := fun t f ty => ty ≠ .vec .i8 →
      (match ty with | .vec b => (underSome t.structName f b).bind (intOk f) | _ => none) = none) (by decide +kernel) hs hm
  by_cases h : m.ty = .vec .i8
  · have hk := key h
    simp only [Option.bind_eq_some_iff] at hk
    obtain ⟨u, hu, hk⟩ := hk
    simp only [h, RTy.vec.injEq, exists_eq_left', hu, Option.some.injEq, hk, true_and]
  · have hk := key' h
    simp only [h, false_and, iff_false]
    rintro ⟨b, hb, hall⟩
    obtain ⟨n, hn⟩ := List.exists_mem_of_ne_nil ns hne
    obtain ⟨u, hu, mx, h1, _⟩ := hall n hn
    rw [hb] at hk
    simp only [hu, Option.bind_some, h1] at hk
    cases hk

/-- A negative integer is accepted nowhere, alone or in a list: `by_monthday: [-1]` does not compile. -/
theorem C72_negative (Γ : Env) {t : RTy} {name : Str} {ms : List (Member t.den)} {d : t.den}
    (hs : t.struct = some (name, ms, d)) {m : Member t.den} (hm : m ∈ ms) (n : Nat) :
    ¬ Accepted Γ t [.ident m.name, .colon, .expr (.negInt n)] := by
  rw [single_entry Γ hs hm .expr]
  rintro ⟨u, hu, h⟩
  have key := all_fields (P := fun t f ty => (underSome t.structName f ty).any (negOk f) = false) (by decide +kernel) hs hm
  rw [hu] at key
  simp only [Option.any_some, negOk_of h] at key
  cases key

theorem C72_negative_list (Γ : Env) {t : RTy} {name : Str} {ms : List (Member t.den)} {d : t.den}
    (hs : t.struct = some (name, ms, d)) {m : Member t.den} (hm : m ∈ ms) {es : List Expr} {ts : List Token}
    (hw : WritesSeq (es.map .single) ts) {n : Nat} (hn : .negInt n ∈ es) :
    ¬ Accepted Γ t [.ident m.name, .colon, .bracket ts] := by
  rw [list_entry Γ hs hm hw]
  rintro ⟨b, hb, hall⟩
  obtain ⟨u, hu, h⟩ := hall _ hn
  have key := all_fields (P := fun t f ty =>
      (match ty with | .vec b => (underSome t.structName f b).any (negOk f) | _ => false) = false) (by decide +kernel) hs hm
  rw [hb] at key
  simp only [hu, Option.any_some, negOk_of h] at key
  cases key

/-- A float literal is accepted exactly for the fields that hold a float. -/
theorem C72_float (Γ : Env) {t : RTy} {name : Str} {ms : List (Member t.den)} {d : t.den}
    (hs : t.struct = some (name, ms, d)) {m : Member t.den} (hm : m ∈ ms) (x : Platform.F32) :
    Accepted Γ t [.ident m.name, .colon, .expr (.float x)] ↔ m.ty = .f32 := by
  rw [single_entry Γ hs hm .expr]
  simp only [floatOk_iff]
  have key := all_fields (P := fun t f ty => (underSome t.structName f ty).any (floatOk false f) = true ↔ ty = .f32)
    (by decide +kernel) hs hm
  rw [← key, Option.any_eq_true]

/-- A negative float is accepted for the coordinates only. -/
theorem C72_negative_float (Γ : Env) {t : RTy} {name : Str} {ms : List (Member t.den)} {d : t.den}
    (hs : t.struct = some (name, ms, d)) {m : Member t.den} (hm : m ∈ ms) (x : Platform.F32) :
    Accepted Γ t [.ident m.name, .colon, .expr (.negFloat x)] ↔ m.ty = .f32 ∧ t = .geo := by
  rw [single_entry Γ hs hm .expr]
  simp only [negFloatOk_iff]
  have key := all_fields (P := fun t f ty => (underSome t.structName f ty).any (floatOk true f) = true ↔ ty = .f32 ∧ t = .geo)
    (by decide +kernel) hs hm
  rw [← key, Option.any_eq_true]

/-- A field that holds an enum, optional or not, accepts exactly the names of its variants, whatever variables are in scope:
a variable holding the enum is not accepted. -/
theorem C72_variant (Γ : Env) {t : RTy} {name : Str} {ms : List (Member t.den)} {d : t.den}
    (hs : t.struct = some (name, ms, d)) {m : Member t.den} (hm : m ∈ ms) {b : RTy} (hb : b ∈ [RTy.class_, .freq, .status,
      .transp]) (ht : m.ty = b ∨ m.ty = .option b) (n : Str) :
    Accepted Γ t [.ident m.name, .colon, .ident n] ↔ ∃ v, IsVariant b n v := by
  rw [single_entry Γ hs hm .name]
  have key := all_fields (P := fun t f ty => ∀ b ∈ [RTy.class_, .freq, .status, .transp], (ty = b ∨ ty = .option b) →
      (underSome t.structName f ty = some b ∧ enumOf f = some b ∧ shouldParsed f = false)) (by decide +kernel) hs hm b hb ht
  simp only [key.1, Option.some.injEq, exists_eq_left']
  exact enumOk_iff key.2.1 key.2.2 n

/-- `Custom("…".to_string())` is accepted for the classes only. -/
theorem C72_custom (Γ : Env) {t : RTy} {name : Str} {ms : List (Member t.den)} {d : t.den}
    (hs : t.struct = some (name, ms, d)) {m : Member t.den} (hm : m ∈ ms) (n a : Str) :
    Accepted Γ t [.ident m.name, .colon, .expr (.call n a)] ↔ m.ty = .option .class_ ∧ n = c!"Custom" := by
  rw [single_entry Γ hs hm .expr]
  cases he : enumOf m.name with
  | none =>
    have key := all_fields (P := fun t f ty => enumOf f = none → ty ≠ .option .class_) (by decide +kernel) hs hm he
    constructor
    · rintro ⟨u, hu, h⟩
      exact absurd h (call_noEnum he n a)
    · rintro ⟨h, _⟩; exact absurd h key
  | some b =>
    have key := all_fields (P := fun t f ty => ∀ b ∈ enumOf f, (underSome t.structName f ty = some b ∧
      shouldParsed f = false ∧ (ty = .option .class_ ↔ b = .class_))) (by decide +kernel) hs hm b he
    simp only [key.1, Option.some.injEq, exists_eq_left', key.2.2]
    exact customOk_iff he key.2.1 n a

/-- The types that are only read from strings and texts: dates, date-times, durations, triggers, offsets, positions, rules,
and the lists of dates, dates or periods, and request statuses. -/
def Spec.onlyRead : List RTy := [.date, .dateTime, .duration, .trigger, .offset, .geo, .recur, .vec .date, .vec .rdate,
  .vec .rstatus]

/-- A variable of the type of a field (or of the type the field holds, if it is optional): accepted, except for the fields
of the types of `onlyRead`; the end of a rule, `until`, is a date and accepts one. -/
theorem C72_own_type {Γ : Env} {t : RTy} {name : Str} {ms : List (Member t.den)} {d : t.den}
    (hs : t.struct = some (name, ms, d)) {m : Member t.den} (hm : m ∈ ms) {b : RTy}
    (hb : b ∉ [RTy.class_, .freq, .status, .transp]) (hbv : ∀ c, b ≠ .option c)
    (ht : m.ty = b ∨ m.ty = .option b) {n : Str} {v : b.den} (hn : Γ n = some ⟨b, v⟩) :
    Accepted Γ t [.ident m.name, .colon, .ident n] ↔
      b ∉ onlyRead ∨ (t, m.name) = (.recur, c!"until") := by
  rw [single_entry Γ hs hm .name]
  have key := all_fields (P := fun t f ty => ∀ b ∈ [match ty with | .option b => b | b => b],
      b ∉ [RTy.class_, .freq, .status, .transp] → enumOf f = none ∧
        ((underSome t.structName f ty).any (nameOk f b) = true ↔
        b ∉ onlyRead ∨ (t, f) = (.recur, c!"until")))
      (by decide +kernel) hs hm b (by
        rcases ht with ht | ht
        · rw [ht]
          cases b with
          | option c => exact absurd rfl (hbv c)
          | _ => simp
        · rw [ht]; simp) hb
  simp only [nameOk_iff key.1 hn]
  rw [← key.2, Option.any_eq_true]

/-- The fields that accept an object alone, with the struct the object is. -/
def Spec.objectFields : List (Str × RTy) := [(c!"geo", .geo), (c!"rrule", .recur)]

/-- The list fields that accept objects. -/
def Spec.objectLists : List (Str × RTy) := [(c!"rstatus", .rstatus), (c!"standard", .standard), (c!"daylight", .daylight),
  (c!"events", .event)]

theorem struct_of_table {u : RTy} {p : Str × List (Member u.den) × u.den} (h : u.struct = some p) :
    u ∈ structTys ∧ p.1 = u.structName := by
  obtain ⟨a, b, c⟩ := p
  have := struct_table h
  exact ⟨this.1, this.2.1⟩

theorem struct_exists {u : RTy} (h : u ∈ structTys) : ∃ p, u.struct = some p := by
  cases u <;> first | exact ⟨_, rfl⟩ | (exact absurd h (by simp [structTys]))

theorem structName_iff {u : RTy} {o : Option Str} : (∃ p, u.struct = some p ∧ o = some p.1) ↔
    u ∈ structTys ∧ o = some u.structName := by
  constructor
  · rintro ⟨p, hp, ho⟩
    obtain ⟨h1, h2⟩ := struct_of_table hp
    exact ⟨h1, h2 ▸ ho⟩
  · rintro ⟨h1, h2⟩
    obtain ⟨p, hp⟩ := struct_exists h1
    exact ⟨p, hp, (struct_of_table hp).2 ▸ h2⟩

set_option synthInstance.maxSize 2000 in
/-- An object is accepted alone exactly for `geo` and `rrule`, when its entries are accepted there. -/
theorem C72_object (Γ : Env) {t : RTy} {name : Str} {ms : List (Member t.den)} {d : t.den}
    (hs : t.struct = some (name, ms, d)) {m : Member t.den} (hm : m ∈ ms) {es : List (Str × Value)} {ts : List Token}
    (hw : Writes es ts) :
    Accepted Γ t [.ident m.name, .colon, .brace ts] ↔ ∃ u, (m.name, u) ∈ objectFields ∧ Accepted Γ u ts := by
  unfold Accepted
  rw [accepted_one hs hm (.entry (.object hw) .nil) (by simp), object_accepted hw, (struct_table hs).2.1]
  simp only [structName_iff]
  have key := all_fields (P := fun t f ty => ∀ u ∈ (underSome t.structName f ty).toList, u ∈ structTys ∧
      objectTy f = some u.structName → (f, u) ∈ objectFields) (by decide +kernel) hs hm
  have key' := all_fields (P := fun t f ty => ∀ p ∈ objectFields, p.1 = f → underSome t.structName f ty = some p.2 ∧
      p.2 ∈ structTys ∧ objectTy f = some p.2.structName) (by decide +kernel) hs hm
  constructor
  · rintro ⟨u, hu, ⟨h1, h2⟩, h⟩
    exact ⟨u, key u (by simp [hu]) ⟨h1, h2⟩, h⟩
  · rintro ⟨u, hu, h⟩
    obtain ⟨h1, h2, h3⟩ := key' _ hu rfl
    exact ⟨u, h1, ⟨h2, h3⟩, h⟩

set_option synthInstance.maxSize 2000 in
/-- A non-empty list of objects is accepted exactly for request statuses, the two kinds of observances and events, when the
entries of each are accepted there: not for alarms, to-dos, journals, free/busy times and time zones. -/
theorem C72_object_list (Γ : Env) {t : RTy} {name : Str} {ms : List (Member t.den)} {d : t.den}
    (hs : t.struct = some (name, ms, d)) {m : Member t.den} (hm : m ∈ ms) {os : List (List (Str × Value))} (hne : os ≠ [])
    {ts : List Token} (hw : WritesSeq (os.map .object) ts) :
    Accepted Γ t [.ident m.name, .colon, .bracket ts] ↔
      ∃ u, (m.name, u) ∈ objectLists ∧ ∀ es ∈ os, ∃ ts', Writes es ts' ∧ Accepted Γ u ts' := by
  have wr : ∀ {os : List (List (Str × Value))} {ts}, WritesSeq (os.map .object) ts → ∀ es ∈ os, ∃ ts', Writes es ts' := by
    intro os
    induction os with
    | nil => intro ts _ es h; cases h
    | cons o os ih =>
      intro ts hw es h
      rw [List.map_cons] at hw
      generalize hl : os.map Value.object = l at hw
      cases hw with
      | one hv =>
        rcases List.mem_cons.1 h with rfl | h
        · cases hv with | object hv => exact ⟨_, hv⟩
        · cases os with
          | nil => cases h
          | cons => cases hl
      | cons hv hr =>
        rcases List.mem_cons.1 h with rfl | h
        · cases hv with | object hv => exact ⟨_, hv⟩
        · subst hl; exact ih hr es h
  unfold Accepted
  rw [accepted_one hs hm (.entry (.collection hw) .nil) (by simp), list_accepted, (struct_table hs).2.1]
  simp only [List.forall_mem_map]
  have key := all_fields (P := fun t f ty => ∀ b ∈ (match ty with | .vec b => [b] | _ => []),
      ∀ u ∈ (underSome t.structName f b).toList, u ∈ structTys ∧ objectTy f = some u.structName → (f, u) ∈ objectLists)
      (by decide +kernel) hs hm
  have key' := all_fields (P := fun t f ty => ∀ p ∈ objectLists, p.1 = f → ty = .vec p.2 ∧
      underSome t.structName f p.2 = some p.2 ∧ p.2 ∈ structTys ∧ objectTy f = some p.2.structName) (by decide +kernel) hs hm
  have one : ∀ es ∈ os, ∀ b, (∃ e, expandValue t.structName m.name (.object es) = some e ∧ ∃ r, e.eval Γ b = some r) ↔
      ∃ u, underSome t.structName m.name b = some u ∧ (u ∈ structTys ∧ objectTy m.name = some u.structName) ∧
        ∃ ts', Writes es ts' ∧ ∃ r, componentMacro Γ u ts' = some r := by
    intro es hes b
    obtain ⟨ts', hw'⟩ := wr hw es hes
    rw [object_accepted hw']
    simp only [structName_iff]
    refine exists_congr fun u => and_congr_right fun _ => and_congr_right fun _ => ?_
    constructor
    · intro h; exact ⟨ts', hw', h⟩
    · rintro ⟨ts'', hw'', h⟩
      rw [C71_commas Γ u hw' hw'']; exact h
  constructor
  · rintro ⟨b, hb, hall⟩
    rw [hb] at key
    obtain ⟨es0, h0⟩ := List.exists_mem_of_ne_nil os hne
    obtain ⟨u, hu, ⟨h1, h2⟩, _⟩ := (one es0 h0 b).1 (hall es0 h0)
    refine ⟨u, key b (by simp) u (by simp [hu]) ⟨h1, h2⟩, fun es hes => ?_⟩
    obtain ⟨u', hu', _, h⟩ := (one es hes b).1 (hall es hes)
    rw [hu] at hu'; cases hu'
    exact h
  · rintro ⟨u, hu, hall⟩
    obtain ⟨h1, h2, h3, h4⟩ := key' _ hu rfl
    exact ⟨u, h1, fun es hes => (one es hes u).2 ⟨u, h2, ⟨h3, h4⟩, hall es hes⟩⟩

end

/-! ## Examples: calls that meet the hypotheses -/

section
attribute [local instance] utc

/-- No variable is in scope. -/
def noVars : Env := fun _ => none

/-- One variable, `s`, of type `&str`; one, `location`, of type `Option<Text>`; one, `d`, a date. -/
def someVars : Env := fun n =>
  if n = c!"s" then some ⟨.str, c!"P1D"⟩
  else if n = c!"location" then some ⟨.option .text, some ⟨[], c!"here"⟩⟩
  else if n = c!"d" then some ⟨.date, .date ⟨2020, 1, 1⟩⟩
  else none

/-- ```
vevent! {
    dtstart: "19970714T170000Z",
    summary: "Bastille Day"
    status: Confirmed,
    rrule: { freq: Daily, by_monthday: [1, 14] }
    categories: ["A", "B",]
}
``` -/
def bastille : List Token := [.ident c!"dtstart", .colon, .expr (.str c!"19970714T170000Z"), .comma,
  .ident c!"summary", .colon, .expr (.str c!"Bastille Day"),
  .ident c!"status", .colon, .ident c!"Confirmed", .comma,
  .ident c!"rrule", .colon, .brace [.ident c!"freq", .colon, .ident c!"Daily", .comma,
    .ident c!"by_monthday", .colon, .bracket [.expr (.int 1), .comma, .expr (.int 14)]],
  .ident c!"categories", .colon, .bracket [.expr (.str c!"A"), .comma, .expr (.str c!"B"), .comma]]

example : (match componentMacro noVars .event bastille with
    | some (.ok (e : VEvent)) => decide (e.summary = some ⟨[], c!"Bastille Day"⟩ ∧ e.status = some .confirmed ∧
        e.categories = [⟨[], c!"A"⟩, ⟨[], c!"B"⟩] ∧ e.uid = ⟨[], []⟩ ∧ e.duration = none ∧
        e.rrule.map (fun r => (r.freq, r.byMonthday, r.interval)) = some (.daily, [1, 14], 0))
    | _ => false) = true := by decide +kernel

/-- The shorthand and a variable that is read. -/
example : (match componentMacro someVars .event [.ident c!"location", .comma, .ident c!"duration", .colon, .ident c!"s"] with
    | some (.ok (e : VEvent)) => decide (e.location = some ⟨[], c!"here"⟩ ∧ e.duration = some ⟨86400 * 1000000000⟩)
    | _ => false) = true := by decide +kernel

/-- The first value that cannot be read is the error. -/
example : (match componentMacro someVars .event [.ident c!"duration", .colon, .expr (.str c!"1D"), .comma,
      .ident c!"dtstart", .colon, .expr (.str c!"today")] with
    | some (.err e) => decide (e = .parseDuration)
    | _ => false) = true := by decide +kernel

/-- A rule read from text has interval 1. -/
example : (match componentMacro noVars .event [.ident c!"rrule", .colon, .expr (.str c!"FREQ=DAILY")] with
    | some (.ok (e : VEvent)) => decide (e.rrule.map (·.interval) = some 1)
    | _ => false) = true := by decide +kernel

/-- `valarm! { @display, action: "X" description: "wake up" }` -/
example : (match valarmMacro noVars .display [.ident c!"action", .colon, .expr (.str c!"X"),
      .ident c!"description", .colon, .expr (.str c!"wake up")] with
    | some (.ok (.display a)) => decide (a.action = ⟨[], c!"DISPLAY"⟩ ∧ a.description = ⟨[], c!"wake up"⟩)
    | _ => false) = true := by decide +kernel

/-- Rejected: a date for a date, a negative number in a list, a string for the end of a rule, an object for an alarm, an
unknown field, a field written twice, a missing comma after a name alone, a number that does not fit. -/
example : (componentMacro someVars .event [.ident c!"dtstart", .colon, .ident c!"d"]).isNone ∧
    (componentMacro noVars .recur [.ident c!"by_monthday", .colon, .bracket [.expr (.negInt 1)]]).isNone ∧
    (componentMacro noVars .recur [.ident c!"until", .colon, .expr (.str c!"20200101")]).isNone ∧
    (componentMacro noVars .event [.ident c!"alarms", .colon, .bracket [.brace []]]).isNone ∧
    (componentMacro noVars .event [.ident c!"nothing", .colon, .expr (.str [])]).isNone ∧
    (componentMacro noVars .event [.ident c!"uid", .colon, .expr (.str []), .ident c!"uid", .colon, .expr (.str [])]).isNone ∧
    (componentMacro someVars .event [.ident c!"location"]).isNone ∧
    (componentMacro noVars .event [.ident c!"priority", .colon, .expr (.int 256)]).isNone := by decide +kernel

/-- Accepted: a date for the end of a rule, events and observances as objects, a position with negative coordinates. -/
example : (componentMacro someVars .recur [.ident c!"until", .colon, .ident c!"d"]).isSome ∧
    (componentMacro noVars .calendar [.ident c!"events", .colon, .bracket [.brace bastille, .comma, .brace []]]).isSome ∧
    (componentMacro noVars .timezone [.ident c!"standard", .colon, .bracket [.brace [.ident c!"tzoffsetto", .colon,
      .expr (.str c!"-0500")]]]).isSome ∧
    (componentMacro noVars .event [.ident c!"geo", .colon, .brace [.ident c!"lat", .colon, .expr (.negFloat c!"-1.5")]]).isSome ∧
    (componentMacro noVars .event [.ident c!"priority", .colon, .expr (.int 255)]).isSome ∧
    (componentMacro noVars .event [.ident c!"class", .colon, .expr (.call c!"Custom" c!"X")]).isSome := by decide +kernel

/-- A display alarm of which only the description is written: its trigger is the start itself, and its action is empty. -/
example : ∃ v : Display, componentMacro noVars .display [.ident c!"description", .colon, .expr (.str c!"d")] = some (.ok v) ∧ v.trigger = .duration ⟨0⟩ ∧ v.action.text = [] := by
  have h : ∃ v : Display, componentMacro noVars .display [.ident c!"description", .colon, .expr (.str c!"d")] = some (.ok v) := by
    have h : (match componentMacro noVars .display [.ident c!"description", .colon, .expr (.str c!"d")] with | some (.ok _) => true | _ => false) = true := by
      decide +kernel
    split at h
    · next v e => exact ⟨v, e⟩
    · exact absurd h (by decide)
  obtain ⟨v, h⟩ := h
  have hw : Writes [(c!"description", .single (.str c!"d"))] [.ident c!"description", .colon, .expr (.str c!"d")] := .entry WritesValue.expr .nil
  refine ⟨v, h, ?_, ?_⟩
  · exact C71_unnamed_default (t := .display) rfl h hw (m := ⟨c!"trigger", .trigger, (·.trigger), fun x v => { v with trigger := x }⟩) (by simp [Display.members]) (by decide)
  · exact (C71_unnamed_default (t := .display) rfl h hw (m := ⟨c!"action", .text, (·.action), fun x v => { v with action := x }⟩) (by simp [Display.members]) (by decide)).1

/-- The writing relations hold of these tokens. -/
example : ∃ es, Writes es bastille ∧ es.length = 5 := ⟨_, .entryComma .expr (.entry .expr (.entryComma .name
  (.entry (.object (.entryComma .name (.entry (.collection (.cons .expr (.one .expr))) .nil)))
    (.entry (.collection (.cons .expr (.cons .expr .nil))) .nil)))), rfl⟩

example : NoShadow someVars := by
  intro t n v h
  cases h with
  | class_ h => simp only [classNames, List.mem_cons, Prod.mk.injEq, List.not_mem_nil, or_false] at h; rcases h with ⟨rfl, rfl⟩ | ⟨rfl, rfl⟩ | ⟨rfl, rfl⟩ <;> rfl
  | freq h => simp only [freqNames, List.mem_cons, Prod.mk.injEq, List.not_mem_nil, or_false] at h; rcases h with ⟨rfl, rfl⟩ | ⟨rfl, rfl⟩ | ⟨rfl, rfl⟩ | ⟨rfl, rfl⟩ | ⟨rfl, rfl⟩ | ⟨rfl, rfl⟩ | ⟨rfl, rfl⟩ <;> rfl
  | status h => simp only [statusNames, List.mem_cons, Prod.mk.injEq, List.not_mem_nil, or_false] at h; rcases h with ⟨rfl, rfl⟩ | ⟨rfl, rfl⟩ | ⟨rfl, rfl⟩ | ⟨rfl, rfl⟩ | ⟨rfl, rfl⟩ | ⟨rfl, rfl⟩ | ⟨rfl, rfl⟩ | ⟨rfl, rfl⟩ <;> rfl
  | transp h => simp only [transpNames, List.mem_cons, Prod.mk.injEq, List.not_mem_nil, or_false] at h; rcases h with ⟨rfl, rfl⟩ | ⟨rfl, rfl⟩ <;> rfl

end

end Ikal
