import Verif.Macros

/-!
# What a value written in a component macro means

Independent of how the macro expands: the type of the field alone says what the text, number, name, object or collection
written for it stands for.
-/

namespace Ikal.Spec

section
variable [Platform]

/-- The expression is a string: a literal or a variable holding one. -/
inductive IsString (Γ : Env) : Expr → Str → Prop where
  | literal (s) : IsString Γ (.str s) s
  | inScope {n s} : Γ n = some ⟨.str, s⟩ → IsString Γ (.name n) s

/-- The expression is a string or a variable holding a text. -/
inductive IsText (Γ : Env) : Expr → Str → Prop where
  | string {e s} : IsString Γ e s → IsText Γ e s
  | text {n} {x : Text} : Γ n = some ⟨.text, x⟩ → IsText Γ (.name n) x.text

/-- The names of the variants. -/
def classNames : List (Str × Class) := [(c!"Public", .pub), (c!"Private", .priv), (c!"Confidential", .confidential)]
def freqNames : List (Str × Freq) := [(c!"Secondly", .secondly), (c!"Minutely", .minutely), (c!"Hourly", .hourly),
  (c!"Daily", .daily), (c!"Weekly", .weekly), (c!"Monthly", .monthly), (c!"Yearly", .yearly)]
def statusNames : List (Str × Status) := [(c!"Tentative", .tentative), (c!"Confirmed", .confirmed),
  (c!"Cancelled", .cancelled), (c!"NeedsAction", .needsAction), (c!"Completed", .completed), (c!"InProcess", .inProcess),
  (c!"Draft", .draft), (c!"Final", .final)]
def transpNames : List (Str × TimeTransparency) := [(c!"Opaque", .opaque), (c!"Transparent", .transparent)]

/-- The variant `n` of the enum `t` is `v`. -/
inductive IsVariant : (t : RTy) → Str → t.den → Prop where
  | class_ {n v} : (n, v) ∈ classNames → IsVariant .class_ n v
  | freq {n v} : (n, v) ∈ freqNames → IsVariant .freq n v
  | status {n v} : (n, v) ∈ statusNames → IsVariant .status n v
  | transp {n v} : (n, v) ∈ transpNames → IsVariant .transp n v

/-- No variable in scope has the name of a variant. -/
def NoShadow (Γ : Env) : Prop := ∀ t n (v : t.den), IsVariant t n v → Γ n = none

/-- A string stands for the value of type `t` it is read as. -/
inductive Reads : (t : RTy) → Str → Res t.den → Prop where
  | date (s) : Reads .date s (Date.ofStr s)
  | dateTime (s) : Reads .dateTime s (DateTime.ofStr s)
  | trigger (s) : Reads .trigger s (Trigger.ofStr s)
  | offset (s) : Reads .offset s (Res.ofOption .date (FixedOffset.parse s))
  | geo (s) : Reads .geo s (Ikal.geo ⟨[], [], s⟩)
  | recur (s) : Reads .recur s (Ikal.rrule ⟨[], [], s⟩)
  | rstatus (s) : Reads .rstatus s (Ikal.rstatus ⟨[], [], s⟩)
  | period (s) : Reads .period s (Ikal.period s)
  | weekday (s) : Reads .weekday s (Weekday.ofStr s)
  | weekdayNum (s) : Reads .weekdayNum s (WeekdayNum.ofStr s)
  | class_ (s) : Reads .class_ s (Class.ofStr s)
  | status (s) : Reads .status s (Status.ofStr s)
  | transp (s) : Reads .transp s (TimeTransparency.ofStr s)
  | freq (s) : Reads .freq s (Freq.ofStr s)
  | u8 (s) : Reads .u8 s (Res.ofOption .parseInt (parseU8 s))
  | u32 (s) : Reads .u32 s (Res.ofOption .parseInt (parseU32 s))
  | i8 (s) : Reads .i8 s (Res.ofOption .parseInt (parseI8 s))
  | audio (s) : Reads .audio s (Audio.ofStr s)
  | display (s) : Reads .display s (Display.ofStr s)
  | email (s) : Reads .email s (Email.ofStr s)
  | alarm (s) : Reads .alarm s (VAlarm.ofStr s)
  | standard (s) : Reads .standard s (Standard.ofStr s)
  | daylight (s) : Reads .daylight s (Daylight.ofStr s)
  | event (s) : Reads .event s (VEvent.ofStr s)
  | freebusy (s) : Reads .freebusy s (VFreebusy.ofStr s)
  | journal (s) : Reads .journal s (VJournal.ofStr s)
  | timezone (s) : Reads .timezone s (VTimezone.ofStr s)
  | todo (s) : Reads .todo s (VTodo.ofStr s)
  | calendar (s) : Reads .calendar s (VCalendar.ofStr s)

/-- Every entry before the failing one is good. -/
def FirstFailure {σ : Type} (failed : ((m : Member σ) × Res m.ty.den) → Prop)
    (as : List ((m : Member σ) × Res m.ty.den)) : Prop :=
  ∃ before a after, as = before ++ a :: after ∧ (∀ b ∈ before, ∃ x, b.2 = .ok x) ∧ failed a

/-- The outcome of building a struct with default `d` from assignments: every named field holds its value and the others
that of the default; or the first assignment that fails, in written order, decides. -/
def Built {σ : Type} (d : σ) (ms : List (Member σ)) (as : List ((m : Member σ) × Res m.ty.den)) : Res σ → Prop
  | .ok v => (∀ a ∈ as, a.2 = .ok (a.1.get v)) ∧
      ∀ m ∈ ms, (∀ a ∈ as, a.1.name ≠ m.name) → m.get v = m.get d
  | .err e => FirstFailure (fun a => a.2 = .err e) as
  | .panic => FirstFailure (fun a => a.2 = .panic) as

/-- The outcome of a list of results: all good, or the first that fails. -/
def Sequenced {α : Type} (rs : List (Res α)) : Res (List α) → Prop
  | .ok l => rs = l.map Res.ok
  | .err e => ∃ (good : List α) (after : List (Res α)), rs = good.map Res.ok ++ .err e :: after
  | .panic => ∃ (good : List α) (after : List (Res α)), rs = good.map Res.ok ++ .panic :: after

mutual
/-- `Means Γ t v r`: the value `v`, written for a field of type `t`, stands for the result `r`. -/
inductive Means (Γ : Env) : (t : RTy) → Value → Res t.den → Prop where
  | text {e s} : IsString Γ e s → Means Γ .text (.single e) (.ok ⟨[], s⟩)
  | uri {e s} : IsString Γ e s → Means Γ .uri (.single e) (.ok ⟨[], s⟩)
  | string {e s} : IsString Γ e s → Means Γ .str (.single e) (.ok s)
  | duration {e s} : IsString Γ e s → Means Γ .duration (.single e) (Ikal.parseDuration s)
  | reads {t e s r} : IsText Γ e s → Reads t s r → Means Γ t (.single e) r
  | u8 {n} : n ≤ 255 → Means Γ .u8 (.single (.int n)) (.ok n)
  | u32 {n} : n ≤ 4294967295 → Means Γ .u32 (.single (.int n)) (.ok n)
  | i8 {n} : n ≤ 127 → Means Γ .i8 (.single (.int n)) (.ok (n : Int))
  | neg {n} : n ≤ 128 → Means Γ .i8 (.single (.negInt n)) (.ok (-(n : Int)))
  | float {x} : Means Γ .f32 (.single (.float x)) (.ok x)
  | negFloat {x} : Means Γ .f32 (.single (.negFloat x)) (.ok x)
  | variant {t n v} : IsVariant t n v → Means Γ t (.single (.name n)) (.ok v)
  | custom {s} : Means Γ .class_ (.single (.call c!"Custom" s)) (.ok (.custom s))
  | inScope {t n v} : Γ n = some ⟨t, v⟩ → Means Γ t (.single (.name n)) (.ok v)
  | dateTimeOfDate {n d} : Γ n = some ⟨.date, d⟩ → Means Γ .dateTime (.single (.name n)) (.ok d.toDateTime)
  | dateOfDateTime {n d} : Γ n = some ⟨.dateTime, d⟩ → Means Γ .date (.single (.name n)) (.ok (.dateTime d))
  | u32OfU8 {n d} : Γ n = some ⟨.u8, d⟩ → Means Γ .u32 (.single (.name n)) (.ok d)
  | audio {n} {a : Audio} : Γ n = some ⟨.audio, a⟩ →
      Means Γ .alarm (.single (.name n)) (.ok (.audio { a with action := ⟨[], c!"AUDIO"⟩ }))
  | display {n} {a : Display} : Γ n = some ⟨.display, a⟩ →
      Means Γ .alarm (.single (.name n)) (.ok (.display { a with action := ⟨[], c!"DISPLAY"⟩ }))
  | email {n} {a : Email} : Γ n = some ⟨.email, a⟩ →
      Means Γ .alarm (.single (.name n)) (.ok (.email { a with action := ⟨[], c!"EMAIL"⟩ }))
  | some {t v r} : Means Γ t v r → Means Γ (.option t) v (r.map some)
  | vec {t vs rs r} : MeansAll Γ t vs rs → Sequenced rs r → Means Γ (.vec t) (.collection vs) r
  | object {t name ms d es as r} : t.struct = Option.some (name, ms, d) → (es.map (·.1)).Nodup →
      MeansEntries Γ ms es as → Built d ms as r → Means Γ t (.object es) r

/-- Each element of a collection means its result. -/
inductive MeansAll (Γ : Env) : (t : RTy) → List Value → List (Res t.den) → Prop where
  | nil {t : RTy} : MeansAll Γ t [] []
  | cons {t v r vs rs} : Means Γ t v r → MeansAll Γ t vs rs → MeansAll Γ t (v :: vs) (r :: rs)

/-- Each entry names a field and means an assignment to it; a name alone is the variable of that name, of the type of the
field. -/
inductive MeansEntries (Γ : Env) : {t : RTy} → List (Member t.den) → List (Str × Value) →
    List ((m : Member t.den) × Res m.ty.den) → Prop where
  | nil {t : RTy} {ms : List (Member t.den)} : MeansEntries Γ ms [] []
  | entry {t : RTy} {ms : List (Member t.den)} {m v r es as} : m ∈ ms → Means Γ m.ty v r → MeansEntries Γ ms es as →
      MeansEntries Γ ms ((m.name, v) :: es) (⟨m, r⟩ :: as)
  | shorthand {t : RTy} {ms : List (Member t.den)} {m x es as} : m ∈ ms → Γ m.name = Option.some ⟨m.ty, x⟩ →
      MeansEntries Γ ms es as → MeansEntries Γ ms ((m.name, .none) :: es) (⟨m, .ok x⟩ :: as)
end

/-! ## The grammar of a macro call -/

mutual
/-- The entries, written as tokens: `name: value` with an optional comma, or `name,`. -/
inductive Writes : List (Str × Value) → List Token → Prop where
  | nil : Writes [] []
  | entry {k v t es ts} : WritesValue v t → Writes es ts → Writes ((k, v) :: es) (.ident k :: .colon :: t :: ts)
  | entryComma {k v t es ts} : WritesValue v t → Writes es ts →
      Writes ((k, v) :: es) (.ident k :: .colon :: t :: .comma :: ts)
  | shorthand {k es ts} : Writes es ts → Writes ((k, .none) :: es) (.ident k :: .comma :: ts)

/-- A value is an expression, a map in braces or a list in brackets. -/
inductive WritesValue : Value → Token → Prop where
  | name {n} : WritesValue (.single (.name n)) (.ident n)
  | expr {e} : WritesValue (.single e) (.expr e)
  | object {es ts} : Writes es ts → WritesValue (.object es) (.brace ts)
  | collection {vs ts} : WritesSeq vs ts → WritesValue (.collection vs) (.bracket ts)

/-- Values separated by commas, with an optional comma after the last. -/
inductive WritesSeq : List Value → List Token → Prop where
  | nil : WritesSeq [] []
  | one {v t} : WritesValue v t → WritesSeq [v] [t]
  | cons {v t vs ts} : WritesValue v t → WritesSeq vs ts → WritesSeq (v :: vs) (t :: .comma :: ts)
end

end

/-! ## Default values -/

section
variable [Platform]

/-- The default value of a field of each type: nothing for an `Option`, an empty list, an empty text, midnight of the first of January 1970 without a
zone, no time before the start, no offset from UTC, every day and the number zero. -/
def IsDefault : (t : RTy) → t.den → Prop
  | .option _, o => o = none
  | .vec _, l => l = []
  | .lines, m => m = []
  | .str, s => s = []
  | .text, t => t.text = [] ∧ t.params = []
  | .uri, u => u.uri = [] ∧ u.params = []
  | .dateTime, t => t = .naive ⟨⟨1970, 1, 1⟩, 0, 0⟩
  | .date, d => d = .dateTime (.naive ⟨⟨1970, 1, 1⟩, 0, 0⟩)
  | .trigger, t => t = .duration ⟨0⟩
  | .offset, o => o.secs = 0
  | .freq, f => f = .daily
  | .u8, n => n = 0
  | .f32, x => x = Platform.f32Default
  | _, _ => False

end

end Ikal.Spec
