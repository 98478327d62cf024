import Verif.Spec.Generate
import Verif.Lemmas.Generate
import Verif.TestPlatform

/-! # Components follow from their declarations (C85) -/

namespace Ikal
open Spec

section
variable [Platform]

omit [Platform] in
theorem snake_lt {c : Char} (h : ('a' ≤ c ∧ c ≤ 'z') ∨ ('0' ≤ c ∧ c ≤ '9') ∨ c = '_') : c.toNat < 128 := by
  rcases h with ⟨_, h⟩ | ⟨_, h⟩ | rfl
  · have : c.toNat ≤ 'z'.toNat := h
    exact Nat.lt_of_le_of_lt this (by decide)
  · have : c.toNat ≤ '9'.toNat := h
    exact Nat.lt_of_le_of_lt this (by decide)
  · decide

theorem upperChar_snake {c : Char} (h : ('a' ≤ c ∧ c ≤ 'z') ∨ ('0' ≤ c ∧ c ≤ '9') ∨ c = '_') :
    replaceChar '_' ['-'] (upperChar c) = [if c = '_' then '-' else if 'a' ≤ c ∧ c ≤ 'z' then Char.ofNat (c.toNat - 32) else c] := by
  have hlt : c.toNat < 128 := snake_lt h
  have key : ∀ n : Fin 128, (('a' ≤ Char.ofNat n ∧ Char.ofNat n ≤ 'z') ∨ ('0' ≤ Char.ofNat n ∧ Char.ofNat n ≤ '9') ∨ Char.ofNat n = '_') →
      replaceChar '_' ['-'] [(Char.ofNat n).toUpper] =
        [if Char.ofNat n = '_' then '-' else if 'a' ≤ Char.ofNat n ∧ Char.ofNat n ≤ 'z' then Char.ofNat ((Char.ofNat n).toNat - 32) else Char.ofNat n] := by
    decide
  have := key ⟨c.toNat, hlt⟩
  simp only [Char.ofNat_toNat] at this
  rw [upperChar, if_pos hlt]
  exact this h

theorem propertyName_cons (c : Char) (s : Str) : propertyName (c :: s) = replaceChar '_' ['-'] (upperChar c) ++ propertyName s := by
  simp [propertyName, upperStr, replaceChar]

/-- **C85**: the property of a field has its identifier as name, in capitals and with hyphens for underscores. -/
theorem C85_name {s : Str} (h : Snake s) : propertyName s = kebab s := by
  induction s with
  | nil => rfl
  | cons c s ih =>
    rw [propertyName_cons, upperChar_snake (h c (List.mem_cons_self ..)), ih fun x hx => h x (List.mem_cons_of_mem _ hx)]
    rfl

/-- The inverse of `kebab` on a character. -/
def unkebab (c : Char) : Char := if c = '-' then '_' else if 'A' ≤ c ∧ c ≤ 'Z' then Char.ofNat (c.toNat + 32) else c

omit [Platform] in
theorem unkebab_kebab {s : Str} (h : Snake s) : (kebab s).map unkebab = s := by
  have key : ∀ n : Fin 128, (('a' ≤ Char.ofNat n ∧ Char.ofNat n ≤ 'z') ∨ ('0' ≤ Char.ofNat n ∧ Char.ofNat n ≤ '9') ∨ Char.ofNat n = '_') →
      unkebab (if Char.ofNat n = '_' then '-' else if 'a' ≤ Char.ofNat n ∧ Char.ofNat n ≤ 'z' then Char.ofNat ((Char.ofNat n).toNat - 32) else Char.ofNat n) =
        Char.ofNat n := by
    decide
  induction s with
  | nil => rfl
  | cons c s ih =>
    have hlt : c.toNat < 128 := snake_lt (h c (List.mem_cons_self ..))
    have := key ⟨c.toNat, hlt⟩
    simp only [Char.ofNat_toNat] at this
    simp only [kebab, List.map_cons, List.cons.injEq]
    exact ⟨this (h c (List.mem_cons_self ..)), ih fun x hx => h x (List.mem_cons_of_mem _ hx)⟩

/-- **C85**: fields with different identifiers have different properties. -/
theorem C85_names_differ {s t : Str} (hs : Snake s) (ht : Snake t) (h : propertyName s = propertyName t) : s = t := by
  rw [C85_name hs, C85_name ht] at h
  rw [← unkebab_kebab hs, ← unkebab_kebab ht, h]

example : Snake c!"last_modified" := by
  unfold Snake
  decide
example : (propertyName c!"last_modified", propertyName c!"x_prop") = (c!"LAST-MODIFIED", c!"X-PROP") := by rfl

omit [Platform] in
theorem tyname_eq {segs : List Str} {args : List RustType} {s : Str} (hne : segs ≠ []) (h : ∀ x ∈ segs, ':' ∉ x) (hs : ':' ∉ s) :
    (RustType.path segs args).tyname = s ↔ segs = [s] := by
  match segs, hne with
  | [a], _ => simp [RustType.tyname, join]
  | a :: b :: r, _ =>
    constructor
    · intro e
      exfalso
      apply hs
      rw [← e]
      simp [RustType.tyname, join]
    · intro e
      simp at e

omit [Platform] in
/-- **C85**: what a line does to a field depends only on how its type is written: `Option<..>` and `Vec<..>` count only if they are written just so. -/
theorem C85_kind (d : FieldDecl) (h : ∀ segs args, d.ty = .path segs args → segs ≠ [] ∧ ∀ s ∈ segs, ':' ∉ s) : d.action = (kind d).action := by
  obtain ⟨i, ty, ap, ig⟩ := d
  cases ty with
  | other => simp [FieldDecl.action, RustType.isOption, RustType.isVec, RustType.tyname, kind, Kind.action]
  | path segs args =>
    obtain ⟨hne, hc⟩ := h segs args rfl
    have h1 := tyname_eq (args := args) (s := c!"Option") hne hc (by decide)
    have h2 := tyname_eq (args := args) (s := c!"Vec") hne hc (by decide)
    simp only [FieldDecl.action, RustType.isOption, RustType.isVec, h1, h2, decide_eq_true_eq]
    match segs, hne with
    | [s], _ =>
      simp only [kind, List.cons.injEq, and_true]
      split
      · rfl
      · split
        · split <;> rfl
        · rfl
    | a :: b :: r, _ =>
      simp [kind, Kind.action]

omit [Platform] in
example : (kind ⟨c!"url", .path [c!"std", c!"option", c!"Option"] [.path [c!"crate", c!"Uri"] []], false, false⟩ = .required) ∧
    (kind ⟨c!"url", .path [c!"Option"] [.path [c!"crate", c!"Uri"] []], false, false⟩ = .optional) := by decide

omit [Platform] in
theorem kind_required {d : FieldDecl} (h : ∀ segs args, d.ty = .path segs args → segs ≠ [] ∧ ∀ s ∈ segs, ':' ∉ s) :
    (d.ty.isOption ∨ d.ty.isVec) ↔ kind d ≠ .required := by
  have := C85_kind d h
  simp only [FieldDecl.action] at this
  cases ho : d.ty.isOption <;> cases hv : d.ty.isVec <;> cases ha : d.append <;> cases hk : kind d <;> simp [ho, hv, ha, hk, Kind.action] at this ⊢

/-- **C85**: the generated code has an arm for each field that is not ignored, in the order of the declaration, under the name of its property; exactly the required ones must
be there; and it writes every field, ignored or not, in the order of the declaration. -/
theorem C85_code {ds : List FieldDecl} (h : Declared ds) :
    (generate ds).arms = (ds.filter fun d => !d.ignore).map (fun d => (kebab d.ident, d.ident, (kind d).action)) ∧
      (generate ds).new = (ds.filter fun d => !d.ignore && kind d = .required).map (fun d => (d.ident, kebab d.ident)) ∧
      (generate ds).sers = ds.map (fun d => (d.ident, kebab d.ident, decide (kind d = .repeated ∨ kind d = .flattened))) := by
  obtain ⟨hs, hnd, ht⟩ := h
  clear hnd
  induction ds with
  | nil => exact ⟨rfl, rfl, rfl⟩
  | cons d ds ih =>
    obtain ⟨i1, i2, i3⟩ := ih (fun x hx => hs x (List.mem_cons_of_mem _ hx)) (fun x hx => ht x (List.mem_cons_of_mem _ hx))
    have hd := ht d (List.mem_cons_self ..)
    have hn := C85_name (hs d (List.mem_cons_self ..))
    have hr := kind_required hd
    have hv : d.ty.isVec = decide (kind d = .repeated ∨ kind d = .flattened) := by
      have := C85_kind d hd
      simp only [FieldDecl.action] at this
      cases ho : d.ty.isOption <;> cases hv : d.ty.isVec <;> cases ha : d.append <;> cases hk : kind d <;> simp [ho, hv, ha, hk, Kind.action] at this ⊢
      all_goals
        simp only [RustType.isOption, RustType.isVec, decide_eq_true_eq] at ho hv
        rw [ho] at hv
        exact absurd hv (by decide)
    cases hig : d.ignore
    · refine ⟨?_, ?_, ?_⟩
      · simp [generate, hig, hn, C85_kind d hd, i1]
      · by_cases hk : kind d = .required
        · have : ¬ (d.ty.isOption ∨ d.ty.isVec) := fun h => hr.1 h hk
          simp only [generate, hig, Bool.false_eq_true, if_false, if_neg this, i2, hn]
          simp [hig, hk]
        · simp only [generate, hig, Bool.false_eq_true, if_false, if_pos (hr.2 hk), i2]
          simp [hig, hk]
      · simp [generate, hig, hn, hv, i3]
    · refine ⟨?_, ?_, ?_⟩
      · simp [generate, hig, i1]
      · simp [generate, hig, i2]
      · simp [generate, hig, hn, hv, i3]

/-- **C85**: no arm hides another. -/
theorem C85_arms_differ {ds : List FieldDecl} (h : Declared ds) : ((generate ds).arms.map (·.1)).Nodup := by
  rw [(C85_code h).1, List.map_map]
  have hn : ((ds.filter fun d => !d.ignore).map (·.ident)).Nodup := h.nodup.sublist (List.filter_sublist.map _)
  rw [List.nodup_iff_pairwise_ne, List.pairwise_map] at hn ⊢
  refine hn.imp_of_mem ?_
  intro a b ha hb hab e
  have hsa := h.snake a (List.mem_filter.1 ha |>.1)
  have hsb := h.snake b (List.mem_filter.1 hb |>.1)
  refine hab ?_
  rw [← unkebab_kebab hsa, ← unkebab_kebab hsb]
  exact congrArg _ e

omit [Platform] in
/-- A test for `Declared`. -/
def declaredTest (ds : List FieldDecl) : Bool :=
  ds.all (fun d => d.ident.all fun c => ('a' ≤ c && c ≤ 'z') || ('0' ≤ c && c ≤ '9') || c = '_') && decide (ds.map (·.ident)).Nodup &&
    ds.all fun d => match d.ty with
      | .path segs _ => !segs.isEmpty && segs.all fun s => !s.contains ':'
      | .other => true

omit [Platform] in
theorem declared_of {ds : List FieldDecl} (h : declaredTest ds = true) : Declared ds := by
  simp only [declaredTest, Bool.and_eq_true, List.all_eq_true, Bool.or_eq_true, decide_eq_true_eq] at h
  obtain ⟨⟨h1, h2⟩, h3⟩ := h
  refine ⟨fun d hd c hc => ?_, h2, fun d hd segs args e => ?_⟩
  · rcases h1 d hd c hc with (h | h) | h
    · exact .inl h
    · exact .inr (.inl h)
    · exact .inr (.inr h)
  · have := h3 d hd
    rw [e] at this
    simp only [Bool.and_eq_true, Bool.not_eq_true', List.isEmpty_eq_false_iff, List.all_eq_true, List.contains_eq_mem, decide_eq_false_iff_not] at this
    exact this

omit [Platform] in
theorem Audio.declared : Declared Audio.declaration :=
  declared_of (by decide +kernel)

/-- **C85**: the fields of `Audio` are those of its declaration, with the types that are written there. -/
theorem C85_members_Audio : Audio.declaration.map (fun d => (d.ident, d.ty.resolve)) = Audio.members.map (fun m => (m.name, some m.ty)) := by rfl

/-- **C85**: the code that the macro makes from the declaration of `Audio` compiles, and it reads and writes as the theorems about `Audio` say. -/
theorem C85_Audio : ∃ P, (generate Audio.declaration).compile Audio.members Audio.default = some P ∧ (∀ ls, P.tryFrom ls = Audio.tryFrom ls) ∧
    ∀ v, P.ical (componentName c!"Audio") v = Ser.ical v :=
  Good.compile (toComp := Audio.toComp) Audio.generated rfl rfl (fun _ _ => rfl) (fun _ _ => rfl) (s0 := Audio.default.toComp.slots) rfl (by simp [Slots.Fresh, Audio.toComp, Audio.default]) (fun _ => rfl)

omit [Platform] in
theorem Display.declared : Declared Display.declaration :=
  declared_of (by decide +kernel)

/-- **C85**: the fields of `Display` are those of its declaration, with the types that are written there. -/
theorem C85_members_Display : Display.declaration.map (fun d => (d.ident, d.ty.resolve)) = Display.members.map (fun m => (m.name, some m.ty)) := by rfl

/-- **C85**: the code that the macro makes from the declaration of `Display` compiles, and it reads and writes as the theorems about `Display` say. -/
theorem C85_Display : ∃ P, (generate Display.declaration).compile Display.members Display.default = some P ∧ (∀ ls, P.tryFrom ls = Display.tryFrom ls) ∧
    ∀ v, P.ical (componentName c!"Display") v = Ser.ical v :=
  Good.compile (toComp := Display.toComp) Display.generated rfl rfl (fun _ _ => rfl) (fun _ _ => rfl) (s0 := Display.default.toComp.slots) rfl (by simp [Slots.Fresh, Display.toComp, Display.default]) (fun _ => rfl)

omit [Platform] in
theorem Email.declared : Declared Email.declaration :=
  declared_of (by decide +kernel)

/-- **C85**: the fields of `Email` are those of its declaration, with the types that are written there. -/
theorem C85_members_Email : Email.declaration.map (fun d => (d.ident, d.ty.resolve)) = Email.members.map (fun m => (m.name, some m.ty)) := by rfl

/-- **C85**: the code that the macro makes from the declaration of `Email` compiles, and it reads and writes as the theorems about `Email` say. -/
theorem C85_Email : ∃ P, (generate Email.declaration).compile Email.members Email.default = some P ∧ (∀ ls, P.tryFrom ls = Email.tryFrom ls) ∧
    ∀ v, P.ical (componentName c!"Email") v = Ser.ical v :=
  Good.compile (toComp := Email.toComp) Email.generated rfl rfl (fun _ _ => rfl) (fun _ _ => rfl) (s0 := Email.default.toComp.slots) rfl (by simp [Slots.Fresh, Email.toComp, Email.default]) (fun _ => rfl)

omit [Platform] in
theorem VEvent.declared : Declared VEvent.declaration :=
  declared_of (by decide +kernel)

/-- **C85**: the fields of `VEvent` are those of its declaration, with the types that are written there. -/
theorem C85_members_VEvent : VEvent.declaration.map (fun d => (d.ident, d.ty.resolve)) = VEvent.members.map (fun m => (m.name, some m.ty)) := by rfl

/-- **C85**: the code that the macro makes from the declaration of `VEvent` compiles, and it reads and writes as the theorems about `VEvent` say. -/
theorem C85_VEvent : ∃ P, (generate VEvent.declaration).compile VEvent.members VEvent.default = some P ∧ (∀ ls, P.tryFrom ls = VEvent.tryFrom ls) ∧
    ∀ v, P.ical (componentName c!"VEvent") v = Ser.ical v :=
  Good.compile (toComp := VEvent.toComp) VEvent.generated rfl rfl (fun _ _ => rfl) (fun _ _ => rfl) (s0 := VEvent.default.toComp.slots) rfl (by simp [Slots.Fresh, VEvent.toComp, VEvent.default]) (fun _ => rfl)

omit [Platform] in
theorem VFreebusy.declared : Declared VFreebusy.declaration :=
  declared_of (by decide +kernel)

/-- **C85**: the fields of `VFreebusy` are those of its declaration, with the types that are written there. -/
theorem C85_members_VFreebusy : VFreebusy.declaration.map (fun d => (d.ident, d.ty.resolve)) = VFreebusy.members.map (fun m => (m.name, some m.ty)) := by rfl

/-- **C85**: the code that the macro makes from the declaration of `VFreebusy` compiles, and it reads and writes as the theorems about `VFreebusy` say. -/
theorem C85_VFreebusy : ∃ P, (generate VFreebusy.declaration).compile VFreebusy.members VFreebusy.default = some P ∧ (∀ ls, P.tryFrom ls = VFreebusy.tryFrom ls) ∧
    ∀ v, P.ical (componentName c!"VFreebusy") v = Ser.ical v :=
  Good.compile (toComp := VFreebusy.toComp) VFreebusy.generated rfl rfl (fun _ _ => rfl) (fun _ _ => rfl) (s0 := VFreebusy.default.toComp.slots) rfl (by simp [Slots.Fresh, VFreebusy.toComp, VFreebusy.default]) (fun _ => rfl)

omit [Platform] in
theorem VJournal.declared : Declared VJournal.declaration :=
  declared_of (by decide +kernel)

/-- **C85**: the fields of `VJournal` are those of its declaration, with the types that are written there. -/
theorem C85_members_VJournal : VJournal.declaration.map (fun d => (d.ident, d.ty.resolve)) = VJournal.members.map (fun m => (m.name, some m.ty)) := by rfl

/-- **C85**: the code that the macro makes from the declaration of `VJournal` compiles, and it reads and writes as the theorems about `VJournal` say. -/
theorem C85_VJournal : ∃ P, (generate VJournal.declaration).compile VJournal.members VJournal.default = some P ∧ (∀ ls, P.tryFrom ls = VJournal.tryFrom ls) ∧
    ∀ v, P.ical (componentName c!"VJournal") v = Ser.ical v :=
  Good.compile (toComp := VJournal.toComp) VJournal.generated rfl rfl (fun _ _ => rfl) (fun _ _ => rfl) (s0 := VJournal.default.toComp.slots) rfl (by simp [Slots.Fresh, VJournal.toComp, VJournal.default]) (fun _ => rfl)

omit [Platform] in
theorem Standard.declared : Declared Standard.declaration :=
  declared_of (by decide +kernel)

/-- **C85**: the fields of `Standard` are those of its declaration, with the types that are written there. -/
theorem C85_members_Standard : Standard.declaration.map (fun d => (d.ident, d.ty.resolve)) = Standard.members.map (fun m => (m.name, some m.ty)) := by rfl

/-- **C85**: the code that the macro makes from the declaration of `Standard` compiles, and it reads and writes as the theorems about `Standard` say. -/
theorem C85_Standard : ∃ P, (generate Standard.declaration).compile Standard.members Standard.default = some P ∧ (∀ ls, P.tryFrom ls = Standard.tryFrom ls) ∧
    ∀ v, P.ical (componentName c!"Standard") v = Ser.ical v :=
  Good.compile (toComp := Standard.toComp) Standard.generated rfl rfl (fun _ _ => rfl) (fun _ _ => rfl) (s0 := Standard.default.toComp.slots) rfl (by simp [Slots.Fresh, Standard.toComp, Standard.default]) (fun _ => rfl)

omit [Platform] in
theorem Daylight.declared : Declared Daylight.declaration :=
  declared_of (by decide +kernel)

/-- **C85**: the fields of `Daylight` are those of its declaration, with the types that are written there. -/
theorem C85_members_Daylight : Daylight.declaration.map (fun d => (d.ident, d.ty.resolve)) = Daylight.members.map (fun m => (m.name, some m.ty)) := by rfl

/-- **C85**: the code that the macro makes from the declaration of `Daylight` compiles, and it reads and writes as the theorems about `Daylight` say. -/
theorem C85_Daylight : ∃ P, (generate Daylight.declaration).compile Daylight.members Daylight.default = some P ∧ (∀ ls, P.tryFrom ls = Daylight.tryFrom ls) ∧
    ∀ v, P.ical (componentName c!"Daylight") v = Ser.ical v :=
  Good.compile (toComp := Daylight.toComp) Daylight.generated rfl rfl (fun _ _ => rfl) (fun _ _ => rfl) (s0 := Daylight.default.toComp.slots) rfl (by simp [Slots.Fresh, Daylight.toComp, Daylight.default]) (fun _ => rfl)

omit [Platform] in
theorem VTimezone.declared : Declared VTimezone.declaration :=
  declared_of (by decide +kernel)

/-- **C85**: the fields of `VTimezone` are those of its declaration, with the types that are written there. -/
theorem C85_members_VTimezone : VTimezone.declaration.map (fun d => (d.ident, d.ty.resolve)) = VTimezone.members.map (fun m => (m.name, some m.ty)) := by rfl

/-- **C85**: the code that the macro makes from the declaration of `VTimezone` compiles, and it reads and writes as the theorems about `VTimezone` say. -/
theorem C85_VTimezone : ∃ P, (generate VTimezone.declaration).compile VTimezone.members VTimezone.default = some P ∧ (∀ ls, P.tryFrom ls = VTimezone.tryFrom ls) ∧
    ∀ v, P.ical (componentName c!"VTimezone") v = Ser.ical v :=
  Good.compile (toComp := VTimezone.toComp) VTimezone.generated rfl rfl (fun _ _ => rfl) (fun _ _ => rfl) (s0 := VTimezone.default.toComp.slots) rfl (by simp [Slots.Fresh, VTimezone.toComp, VTimezone.default]) (fun _ => rfl)

omit [Platform] in
theorem VTodo.declared : Declared VTodo.declaration :=
  declared_of (by decide +kernel)

/-- **C85**: the fields of `VTodo` are those of its declaration, with the types that are written there. -/
theorem C85_members_VTodo : VTodo.declaration.map (fun d => (d.ident, d.ty.resolve)) = VTodo.members.map (fun m => (m.name, some m.ty)) := by rfl

/-- **C85**: the code that the macro makes from the declaration of `VTodo` compiles, and it reads and writes as the theorems about `VTodo` say. -/
theorem C85_VTodo : ∃ P, (generate VTodo.declaration).compile VTodo.members VTodo.default = some P ∧ (∀ ls, P.tryFrom ls = VTodo.tryFrom ls) ∧
    ∀ v, P.ical (componentName c!"VTodo") v = Ser.ical v :=
  Good.compile (toComp := VTodo.toComp) VTodo.generated rfl rfl (fun _ _ => rfl) (fun _ _ => rfl) (s0 := VTodo.default.toComp.slots) rfl (by simp [Slots.Fresh, VTodo.toComp, VTodo.default]) (fun _ => rfl)

omit [Platform] in
theorem VCalendar.declared : Declared VCalendar.declaration :=
  declared_of (by decide +kernel)

/-- **C85**: the fields of `VCalendar` are those of its declaration, with the types that are written there. -/
theorem C85_members_VCalendar : VCalendar.declaration.map (fun d => (d.ident, d.ty.resolve)) = VCalendar.members.map (fun m => (m.name, some m.ty)) := by rfl

/-- **C85**: the code that the macro makes from the declaration of `VCalendar` compiles, and it reads and writes as the theorems about `VCalendar` say. -/
theorem C85_VCalendar : ∃ P, (generate VCalendar.declaration).compile VCalendar.members VCalendar.default = some P ∧ (∀ ls, P.tryFrom ls = VCalendar.tryFrom ls) ∧
    ∀ v, P.ical (componentName c!"VCalendar") v = Ser.ical v :=
  Good.compile (toComp := VCalendar.toComp) VCalendar.generated rfl rfl (fun _ _ => rfl) (fun _ _ => rfl) (s0 := VCalendar.default.toComp.slots) rfl (by simp [Slots.Fresh, VCalendar.toComp, VCalendar.default]) (fun _ => rfl)

/-- **C85**: the fields of `Recur` are those of its declaration, with the types that are written there. -/
theorem C85_members_Recur : Recur.declaration.map (fun d => (d.ident, d.ty.resolve)) = Recur.members.map (fun m => (m.name, some m.ty)) := by rfl

/-- **C85**: the code that the macro makes from the declaration of `Recur` compiles, and it writes as the theorems about rules say. -/
theorem C85_Recur : ∃ f, serializeCode Recur.declaration Recur.members = some f ∧ ∀ r, f r = Ser.ical r := by
  refine ⟨_, rfl, fun r => ?_⟩
  show Res.map List.dropLast (Program.body [fun r => recurItem c!"FREQ" r.freq, fun r => recurItem c!"UNTIL" r.until_, fun r => recurItem c!"COUNT" r.count, fun r => recurItem c!"INTERVAL" r.interval, fun r => recurItem c!"BYSECOND" r.bySecond, fun r => recurItem c!"BYMINUTE" r.byMinute, fun r => recurItem c!"BYHOUR" r.byHour, fun r => recurItem c!"BYDAY" r.byDay, fun r => recurItem c!"BYMONTHDAY" r.byMonthday, fun r => recurItem c!"BYYEARDAY" r.byYearday, fun r => recurItem c!"BYWEEKNO" r.byWeekno, fun r => recurItem c!"BYMONTH" r.byMonth, fun r => recurItem c!"BYSETPOS" r.bySetpos, fun r => recurItem c!"WKST" r.wkst] r) = _
  simp only [Program.body, Ser.ical]
  cases recurItem c!"FREQ" r.freq with
  | err => rfl
  | panic => rfl
  | ok freq' =>
  cases recurItem c!"UNTIL" r.until_ with
  | err => rfl
  | panic => rfl
  | ok until_' =>
  cases recurItem c!"COUNT" r.count with
  | err => rfl
  | panic => rfl
  | ok count' =>
  cases recurItem c!"INTERVAL" r.interval with
  | err => rfl
  | panic => rfl
  | ok interval' =>
  cases recurItem c!"BYSECOND" r.bySecond with
  | err => rfl
  | panic => rfl
  | ok bySecond' =>
  cases recurItem c!"BYMINUTE" r.byMinute with
  | err => rfl
  | panic => rfl
  | ok byMinute' =>
  cases recurItem c!"BYHOUR" r.byHour with
  | err => rfl
  | panic => rfl
  | ok byHour' =>
  cases recurItem c!"BYDAY" r.byDay with
  | err => rfl
  | panic => rfl
  | ok byDay' =>
  cases recurItem c!"BYMONTHDAY" r.byMonthday with
  | err => rfl
  | panic => rfl
  | ok byMonthday' =>
  cases recurItem c!"BYYEARDAY" r.byYearday with
  | err => rfl
  | panic => rfl
  | ok byYearday' =>
  cases recurItem c!"BYWEEKNO" r.byWeekno with
  | err => rfl
  | panic => rfl
  | ok byWeekno' =>
  cases recurItem c!"BYMONTH" r.byMonth with
  | err => rfl
  | panic => rfl
  | ok byMonth' =>
  cases recurItem c!"BYSETPOS" r.bySetpos with
  | err => rfl
  | panic => rfl
  | ok bySetpos' =>
  cases recurItem c!"WKST" r.wkst with
  | err => rfl
  | panic => rfl
  | ok wkst' =>
  simp [List.append_assoc]

end

end Ikal
