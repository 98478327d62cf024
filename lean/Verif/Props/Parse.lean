import Verif.Spec.Components
import Verif.Lemmas.Derive

/-!
# C13 – C18: components from property lines

For each component `X`: `C14_X_iff` says that the conversion from property lines succeeds with `v` exactly when `v`
satisfies the specification `Spec.XFrom` (`Verif/Spec/Components.lean`), which lists for each property its name, parser and
multiplicity.  C13 and C15 – C18 are stated separately.
-/

namespace Ikal

open Nom Spec

/-- The lines `ls'` are the lines `ls` in an order that keeps the relative order of lines of the same name. -/
def SameByName (ls ls' : List ContentLine) : Prop := ∀ n, named n ls = named n ls'

theorem lastNamed_congr {ls ls' : List ContentLine} (h : SameByName ls ls') (n : Str) :
    lastNamed n ls = lastNamed n ls' := by unfold lastNamed; rw [h n]

theorem Spec.IsReq.congr {α : Type} {ls ls' : List ContentLine} (h : SameByName ls ls') {n : Str} {p : ContentLine → Res α} {v : α}
    (hv : IsReq ls n p v) : IsReq ls' n p v := by unfold IsReq at *; rw [← lastNamed_congr h]; exact hv

theorem Spec.IsOpt.congr {α : Type} {ls ls' : List ContentLine} (h : SameByName ls ls') {n : Str} {p : ContentLine → Res α} {v : Option α}
    (hv : IsOpt ls n p v) : IsOpt ls' n p v := by unfold IsOpt at *; rw [← lastNamed_congr h, ← h n]; exact hv

theorem Spec.IsPush.congr {α : Type} {ls ls' : List ContentLine} (h : SameByName ls ls') {n : Str} {p : ContentLine → Res α} {v : List α}
    (hv : IsPush ls n p v) : IsPush ls' n p v := by unfold IsPush at *; rw [← h n]; exact hv

theorem Spec.IsAppend.congr {α : Type} {ls ls' : List ContentLine} (h : SameByName ls ls') {n : Str} {p : ContentLine → Res (List α)} {v : List α}
    (hv : IsAppend ls n p v) : IsAppend ls' n p v := by unfold IsAppend at *; rw [← h n]; exact hv

theorem Spec.IsExt.congr {ls ls' : List ContentLine} (h : SameByName ls ls') {ns : List Str} {sel : Str → Prop} {m : SMap ContentLine}
    (hv : IsExt ns sel ls m) : IsExt ns sel ls' m :=
  ⟨hv.1, fun k h1 h2 => by rw [← lastNamed_congr h]; exact hv.2.1 k h1 h2, hv.2.2⟩

theorem SameByName.symm {ls ls' : List ContentLine} (h : SameByName ls ls') : SameByName ls' ls := fun n => (h n).symm

/-- Swapping two adjacent lines of different names is such a reordering (and so is any sequence of swaps). -/
theorem sameByName_swap (a b : List ContentLine) (x y : ContentLine) (h : x.key ≠ y.key) :
    SameByName (a ++ x :: y :: b) (a ++ y :: x :: b) := by
  intro n
  simp only [named, List.filter_append, List.filter_cons]
  congr 1
  by_cases h1 : x.key = n <;> by_cases h2 : y.key = n <;> simp [h1, h2]
  exact absurd (h1.trans h2.symm) h

theorem SameByName.trans {a b c : List ContentLine} (h : SameByName a b) (h' : SameByName b c) : SameByName a c :=
  fun n => (h n).trans (h' n)

/-- Such a reordering is a permutation. -/
theorem SameByName.perm {ls ls' : List ContentLine} (h : SameByName ls ls') : ls.Perm ls' := by
  rw [List.perm_iff_count]
  intro l
  have h1 : ∀ ls : List ContentLine, ls.count l = (named l.key ls).count l := by
    intro ls
    unfold named
    rw [List.count_filter]
    simp
  rw [h1 ls, h1 ls', h]

theorem Spec.IsReq.mem {α : Type} {ls : List ContentLine} {n : Str} {p : ContentLine → Res α} {v : α}
    (h : IsReq ls n p v) : ∃ l ∈ ls, l.key = n := by
  obtain ⟨l, h1, _⟩ := h
  have := List.mem_of_getLast? h1
  simp [named] at this
  exact ⟨l, this⟩

theorem Spec.IsOpt.readable {α : Type} {ls : List ContentLine} {n : Str} {p : ContentLine → Res α} {v : Option α}
    (h : IsOpt ls n p v) : ∀ l ∈ ls, l.key = n → ∃ a, p l = .ok a :=
  fun l hl hk => h.1 l (by simp [named, hl, hk])

theorem readable_of_map {α : Type} {ls : List ContentLine} {n : Str} {p : ContentLine → Res α} {v : List α}
    (h : (named n ls).map p = v.map .ok) : ∀ l ∈ ls, l.key = n → ∃ a, p l = .ok a := by
  intro l hl hk
  have : p l ∈ (named n ls).map p := List.mem_map_of_mem (by simp [named, hl, hk])
  rw [h, List.mem_map] at this
  obtain ⟨a, _, ha⟩ := this
  exact ⟨a, ha.symm⟩

theorem Spec.IsPush.readable {α : Type} {ls : List ContentLine} {n : Str} {p : ContentLine → Res α} {v : List α}
    (h : IsPush ls n p v) : ∀ l ∈ ls, l.key = n → ∃ a, p l = .ok a := readable_of_map h

theorem Spec.IsAppend.readable {α : Type} {ls : List ContentLine} {n : Str} {p : ContentLine → Res (List α)} {v : List α}
    (h : IsAppend ls n p v) : ∀ l ∈ ls, l.key = n → ∃ a, p l = .ok a := by
  obtain ⟨vss, h, _⟩ := h; exact readable_of_map h

variable [Platform]

/-! ## Audio -/

theorem Audio.ofComp_eq (c : Comp Audio.fields) (v : Audio) : Audio.ofComp c = v ↔ c = v.toComp := by
  constructor
  · rintro rfl; rfl
  · rintro rfl; rfl

/-- **C13 – C18** for `Audio`: the conversion of property lines succeeds with `v` exactly when `v` is what the specification says. -/
theorem C14_Audio_iff (ls : List ContentLine) (v : Audio) : Audio.tryFrom ls = .ok v ↔ AudioFrom ls v := by
  have h1 : Audio.tryFrom ls = .ok v ↔ Comp.tryFrom Audio.fields ls = .ok v.toComp := by
    unfold Audio.tryFrom
    cases Comp.tryFrom Audio.fields ls with
    | ok c => simp only [Res.map_ok, Res.ok.injEq]; exact Audio.ofComp_eq c v
    | err e => simp
    | panic => simp
  rw [h1, Comp.tryFrom_ok (fs := Audio.fields) (show ([c!"ACTION", c!"TRIGGER", c!"DURATION", c!"REPEAT", c!"ATTACH"] : List Str).Nodup by decide +kernel)]
  constructor
  · rintro ⟨⟨h0, h1, h2, h3, h4, _⟩, hx, hi⟩
    exact ⟨h0, h1, h2, h3, h4, hx, hi⟩
  · rintro ⟨h0, h1, h2, h3, h4, hx, hi⟩
    exact ⟨⟨h0, h1, h2, h3, h4, trivial⟩, hx, hi⟩

/-- **C13** for `Audio`: every required property has a line. -/
theorem C13_Audio (ls : List ContentLine) (v : Audio) (h : Audio.tryFrom ls = .ok v) :
    (∃ l ∈ ls, l.key = c!"ACTION") ∧
    (∃ l ∈ ls, l.key = c!"TRIGGER") := by
  have h := (C14_Audio_iff ls v).1 h
  exact ⟨h.action.mem, h.trigger.mem⟩

/-- **C17** for `Audio`: reordering lines of different names does not change the result. -/
theorem C17_Audio (ls ls' : List ContentLine) (hs : SameByName ls ls') (v : Audio) :
    Audio.tryFrom ls = .ok v ↔ Audio.tryFrom ls' = .ok v := by
  have key : ∀ a b, SameByName a b → AudioFrom a v → AudioFrom b v := fun a b hab h =>
    ⟨h.action.congr hab, h.trigger.congr hab, h.duration.congr hab, h.repeat_.congr hab, h.attach.congr hab, h.xProp.congr hab, h.ianaProp.congr hab⟩
  rw [C14_Audio_iff, C14_Audio_iff]
  exact ⟨key _ _ hs, key _ _ hs.symm⟩

/-- **C18** for `Audio`: every line of an optional or repeatable property is readable, and the last line of every required one. -/
theorem C18_Audio (ls : List ContentLine) (v : Audio) (h : Audio.tryFrom ls = .ok v) :
    (∀ l ∈ ls, l.key = c!"DURATION" → ∃ a, Ikal.duration l = .ok a) ∧
    (∀ l ∈ ls, l.key = c!"REPEAT" → ∃ a, u32Prop l = .ok a) ∧
    (∀ l ∈ ls, l.key = c!"ATTACH" → ∃ a, textProp l = .ok a) ∧
    (∃ l, lastNamed c!"ACTION" ls = some l ∧ ∃ a, textProp l = .ok a) ∧
    (∃ l, lastNamed c!"TRIGGER" ls = some l ∧ ∃ a, Ikal.trigger l = .ok a) := by
  have h := (C14_Audio_iff ls v).1 h
  exact ⟨h.duration.readable, h.repeat_.readable, h.attach.readable, (h.action.imp fun _ x => ⟨x.1, _, x.2⟩), (h.trigger.imp fun _ x => ⟨x.1, _, x.2⟩)⟩

/-! ## Display -/

theorem Display.ofComp_eq (c : Comp Display.fields) (v : Display) : Display.ofComp c = v ↔ c = v.toComp := by
  constructor
  · rintro rfl; rfl
  · rintro rfl; rfl

/-- **C13 – C18** for `Display`: the conversion of property lines succeeds with `v` exactly when `v` is what the specification says. -/
theorem C14_Display_iff (ls : List ContentLine) (v : Display) : Display.tryFrom ls = .ok v ↔ DisplayFrom ls v := by
  have h1 : Display.tryFrom ls = .ok v ↔ Comp.tryFrom Display.fields ls = .ok v.toComp := by
    unfold Display.tryFrom
    cases Comp.tryFrom Display.fields ls with
    | ok c => simp only [Res.map_ok, Res.ok.injEq]; exact Display.ofComp_eq c v
    | err e => simp
    | panic => simp
  rw [h1, Comp.tryFrom_ok (fs := Display.fields) (show ([c!"ACTION", c!"TRIGGER", c!"DESCRIPTION", c!"DURATION", c!"REPEAT"] : List Str).Nodup by decide +kernel)]
  constructor
  · rintro ⟨⟨h0, h1, h2, h3, h4, _⟩, hx, hi⟩
    exact ⟨h0, h1, h2, h3, h4, hx, hi⟩
  · rintro ⟨h0, h1, h2, h3, h4, hx, hi⟩
    exact ⟨⟨h0, h1, h2, h3, h4, trivial⟩, hx, hi⟩

/-- **C13** for `Display`: every required property has a line. -/
theorem C13_Display (ls : List ContentLine) (v : Display) (h : Display.tryFrom ls = .ok v) :
    (∃ l ∈ ls, l.key = c!"ACTION") ∧
    (∃ l ∈ ls, l.key = c!"TRIGGER") ∧
    (∃ l ∈ ls, l.key = c!"DESCRIPTION") := by
  have h := (C14_Display_iff ls v).1 h
  exact ⟨h.action.mem, h.trigger.mem, h.description.mem⟩

/-- **C17** for `Display`: reordering lines of different names does not change the result. -/
theorem C17_Display (ls ls' : List ContentLine) (hs : SameByName ls ls') (v : Display) :
    Display.tryFrom ls = .ok v ↔ Display.tryFrom ls' = .ok v := by
  have key : ∀ a b, SameByName a b → DisplayFrom a v → DisplayFrom b v := fun a b hab h =>
    ⟨h.action.congr hab, h.trigger.congr hab, h.description.congr hab, h.duration.congr hab, h.repeat_.congr hab, h.xProp.congr hab, h.ianaProp.congr hab⟩
  rw [C14_Display_iff, C14_Display_iff]
  exact ⟨key _ _ hs, key _ _ hs.symm⟩

/-- **C18** for `Display`: every line of an optional or repeatable property is readable, and the last line of every required one. -/
theorem C18_Display (ls : List ContentLine) (v : Display) (h : Display.tryFrom ls = .ok v) :
    (∀ l ∈ ls, l.key = c!"DURATION" → ∃ a, Ikal.duration l = .ok a) ∧
    (∀ l ∈ ls, l.key = c!"REPEAT" → ∃ a, u32Prop l = .ok a) ∧
    (∃ l, lastNamed c!"ACTION" ls = some l ∧ ∃ a, textProp l = .ok a) ∧
    (∃ l, lastNamed c!"TRIGGER" ls = some l ∧ ∃ a, Ikal.trigger l = .ok a) ∧
    (∃ l, lastNamed c!"DESCRIPTION" ls = some l ∧ ∃ a, textProp l = .ok a) := by
  have h := (C14_Display_iff ls v).1 h
  exact ⟨h.duration.readable, h.repeat_.readable, (h.action.imp fun _ x => ⟨x.1, _, x.2⟩), (h.trigger.imp fun _ x => ⟨x.1, _, x.2⟩), (h.description.imp fun _ x => ⟨x.1, _, x.2⟩)⟩

/-! ## Email -/

theorem Email.ofComp_eq (c : Comp Email.fields) (v : Email) : Email.ofComp c = v ↔ c = v.toComp := by
  constructor
  · rintro rfl; rfl
  · rintro rfl; rfl

/-- **C13 – C18** for `Email`: the conversion of property lines succeeds with `v` exactly when `v` is what the specification says. -/
theorem C14_Email_iff (ls : List ContentLine) (v : Email) : Email.tryFrom ls = .ok v ↔ EmailFrom ls v := by
  have h1 : Email.tryFrom ls = .ok v ↔ Comp.tryFrom Email.fields ls = .ok v.toComp := by
    unfold Email.tryFrom
    cases Comp.tryFrom Email.fields ls with
    | ok c => simp only [Res.map_ok, Res.ok.injEq]; exact Email.ofComp_eq c v
    | err e => simp
    | panic => simp
  rw [h1, Comp.tryFrom_ok (fs := Email.fields) (show ([c!"ACTION", c!"TRIGGER", c!"DESCRIPTION", c!"SUMMARY", c!"ATTENDEE", c!"DURATION", c!"REPEAT", c!"ATTACH"] : List Str).Nodup by decide +kernel)]
  constructor
  · rintro ⟨⟨h0, h1, h2, h3, h4, h5, h6, h7, _⟩, hx, hi⟩
    exact ⟨h0, h1, h2, h3, h4, h5, h6, h7, hx, hi⟩
  · rintro ⟨h0, h1, h2, h3, h4, h5, h6, h7, hx, hi⟩
    exact ⟨⟨h0, h1, h2, h3, h4, h5, h6, h7, trivial⟩, hx, hi⟩

/-- **C13** for `Email`: every required property has a line. -/
theorem C13_Email (ls : List ContentLine) (v : Email) (h : Email.tryFrom ls = .ok v) :
    (∃ l ∈ ls, l.key = c!"ACTION") ∧
    (∃ l ∈ ls, l.key = c!"TRIGGER") ∧
    (∃ l ∈ ls, l.key = c!"DESCRIPTION") ∧
    (∃ l ∈ ls, l.key = c!"SUMMARY") := by
  have h := (C14_Email_iff ls v).1 h
  exact ⟨h.action.mem, h.trigger.mem, h.description.mem, h.summary.mem⟩

/-- **C17** for `Email`: reordering lines of different names does not change the result. -/
theorem C17_Email (ls ls' : List ContentLine) (hs : SameByName ls ls') (v : Email) :
    Email.tryFrom ls = .ok v ↔ Email.tryFrom ls' = .ok v := by
  have key : ∀ a b, SameByName a b → EmailFrom a v → EmailFrom b v := fun a b hab h =>
    ⟨h.action.congr hab, h.trigger.congr hab, h.description.congr hab, h.summary.congr hab, h.attendee.congr hab, h.duration.congr hab, h.repeat_.congr hab, h.attach.congr hab, h.xProp.congr hab, h.ianaProp.congr hab⟩
  rw [C14_Email_iff, C14_Email_iff]
  exact ⟨key _ _ hs, key _ _ hs.symm⟩

/-- **C18** for `Email`: every line of an optional or repeatable property is readable, and the last line of every required one. -/
theorem C18_Email (ls : List ContentLine) (v : Email) (h : Email.tryFrom ls = .ok v) :
    (∀ l ∈ ls, l.key = c!"ATTENDEE" → ∃ a, uriProp l = .ok a) ∧
    (∀ l ∈ ls, l.key = c!"DURATION" → ∃ a, Ikal.duration l = .ok a) ∧
    (∀ l ∈ ls, l.key = c!"REPEAT" → ∃ a, u32Prop l = .ok a) ∧
    (∀ l ∈ ls, l.key = c!"ATTACH" → ∃ a, textProp l = .ok a) ∧
    (∃ l, lastNamed c!"ACTION" ls = some l ∧ ∃ a, textProp l = .ok a) ∧
    (∃ l, lastNamed c!"TRIGGER" ls = some l ∧ ∃ a, Ikal.trigger l = .ok a) ∧
    (∃ l, lastNamed c!"DESCRIPTION" ls = some l ∧ ∃ a, textProp l = .ok a) ∧
    (∃ l, lastNamed c!"SUMMARY" ls = some l ∧ ∃ a, textProp l = .ok a) := by
  have h := (C14_Email_iff ls v).1 h
  exact ⟨h.attendee.readable, h.duration.readable, h.repeat_.readable, h.attach.readable, (h.action.imp fun _ x => ⟨x.1, _, x.2⟩), (h.trigger.imp fun _ x => ⟨x.1, _, x.2⟩), (h.description.imp fun _ x => ⟨x.1, _, x.2⟩), (h.summary.imp fun _ x => ⟨x.1, _, x.2⟩)⟩

/-! ## VEvent -/

theorem VEvent.ofComp_eq (c : Comp VEvent.fields) (v : VEvent) : VEvent.ofComp c = v ↔ c = v.toComp := by
  constructor
  · rintro rfl; rfl
  · rintro rfl; rfl

/-- **C13 – C18** for `VEvent`: the conversion of property lines succeeds with `v` exactly when `v` is what the specification says. -/
theorem C14_VEvent_iff (ls : List ContentLine) (v : VEvent) : VEvent.tryFrom ls = .ok v ↔ VEventFrom ls v := by
  have h1 : VEvent.tryFrom ls = .ok v ↔ Comp.tryFrom VEvent.fields ls = .ok v.toComp := by
    unfold VEvent.tryFrom
    cases Comp.tryFrom VEvent.fields ls with
    | ok c => simp only [Res.map_ok, Res.ok.injEq]; exact VEvent.ofComp_eq c v
    | err e => simp
    | panic => simp
  rw [h1, Comp.tryFrom_ok (fs := VEvent.fields) (show ([c!"DTSTAMP", c!"UID", c!"DTSTART", c!"CLASS", c!"CREATED", c!"DESCRIPTION", c!"GEO", c!"LAST-MODIFIED", c!"LOCATION", c!"ORGANIZER", c!"PRIORITY", c!"SEQUENCE", c!"STATUS", c!"SUMMARY", c!"TRANSP", c!"URL", c!"RECURID", c!"RRULE", c!"DTEND", c!"DURATION", c!"ATTACH", c!"ATTENDEE", c!"CATEGORIES", c!"COMMENT", c!"CONTACT", c!"EXDATE", c!"RSTATUS", c!"RELATED-TO", c!"RESOURCES", c!"RDATE"] : List Str).Nodup by decide +kernel)]
  constructor
  · rintro ⟨⟨h0, h1, h2, h3, h4, h5, h6, h7, h8, h9, h10, h11, h12, h13, h14, h15, h16, h17, h18, h19, h20, h21, h22, h23, h24, h25, h26, h27, h28, h29, h30, _⟩, hx, hi⟩
    exact ⟨h0, h1, h2, h3, h4, h5, h6, h7, h8, h9, h10, h11, h12, h13, h14, h15, h16, h17, h18, h19, h20, h21, h22, h23, h24, h25, h26, h27, h28, h29, h30, hx, hi⟩
  · rintro ⟨h0, h1, h2, h3, h4, h5, h6, h7, h8, h9, h10, h11, h12, h13, h14, h15, h16, h17, h18, h19, h20, h21, h22, h23, h24, h25, h26, h27, h28, h29, h30, hx, hi⟩
    exact ⟨⟨h0, h1, h2, h3, h4, h5, h6, h7, h8, h9, h10, h11, h12, h13, h14, h15, h16, h17, h18, h19, h20, h21, h22, h23, h24, h25, h26, h27, h28, h29, h30, trivial⟩, hx, hi⟩

/-- **C13** for `VEvent`: every required property has a line. -/
theorem C13_VEvent (ls : List ContentLine) (v : VEvent) (h : VEvent.tryFrom ls = .ok v) :
    (∃ l ∈ ls, l.key = c!"DTSTAMP") ∧
    (∃ l ∈ ls, l.key = c!"UID") ∧
    (∃ l ∈ ls, l.key = c!"DTSTART") := by
  have h := (C14_VEvent_iff ls v).1 h
  exact ⟨h.dtstamp.mem, h.uid.mem, h.dtstart.mem⟩

/-- **C17** for `VEvent`: reordering lines of different names does not change the result. -/
theorem C17_VEvent (ls ls' : List ContentLine) (hs : SameByName ls ls') (v : VEvent) :
    VEvent.tryFrom ls = .ok v ↔ VEvent.tryFrom ls' = .ok v := by
  have key : ∀ a b, SameByName a b → VEventFrom a v → VEventFrom b v := fun a b hab h =>
    ⟨h.dtstamp.congr hab, h.uid.congr hab, h.dtstart.congr hab, h.class_.congr hab, h.created.congr hab, h.description.congr hab, h.geo.congr hab, h.lastModified.congr hab, h.location.congr hab, h.organizer.congr hab, h.priority.congr hab, h.sequence.congr hab, h.status.congr hab, h.summary.congr hab, h.transp.congr hab, h.url.congr hab, h.recurid.congr hab, h.rrule.congr hab, h.dtend.congr hab, h.duration.congr hab, h.attach.congr hab, h.attendee.congr hab, h.categories.congr hab, h.comment.congr hab, h.contact.congr hab, h.exdate.congr hab, h.rstatus.congr hab, h.relatedTo.congr hab, h.resources.congr hab, h.rdate.congr hab, h.alarms, h.xProp.congr hab, h.ianaProp.congr hab⟩
  rw [C14_VEvent_iff, C14_VEvent_iff]
  exact ⟨key _ _ hs, key _ _ hs.symm⟩

/-- **C18** for `VEvent`: every line of an optional or repeatable property is readable, and the last line of every required one. -/
theorem C18_VEvent (ls : List ContentLine) (v : VEvent) (h : VEvent.tryFrom ls = .ok v) :
    (∀ l ∈ ls, l.key = c!"CLASS" → ∃ a, classProp l = .ok a) ∧
    (∀ l ∈ ls, l.key = c!"CREATED" → ∃ a, dateTimeProp l = .ok a) ∧
    (∀ l ∈ ls, l.key = c!"DESCRIPTION" → ∃ a, textProp l = .ok a) ∧
    (∀ l ∈ ls, l.key = c!"GEO" → ∃ a, Ikal.geo l = .ok a) ∧
    (∀ l ∈ ls, l.key = c!"LAST-MODIFIED" → ∃ a, dateTimeProp l = .ok a) ∧
    (∀ l ∈ ls, l.key = c!"LOCATION" → ∃ a, textProp l = .ok a) ∧
    (∀ l ∈ ls, l.key = c!"ORGANIZER" → ∃ a, uriProp l = .ok a) ∧
    (∀ l ∈ ls, l.key = c!"PRIORITY" → ∃ a, Ikal.priority l = .ok a) ∧
    (∀ l ∈ ls, l.key = c!"SEQUENCE" → ∃ a, u32Prop l = .ok a) ∧
    (∀ l ∈ ls, l.key = c!"STATUS" → ∃ a, Ikal.status l = .ok a) ∧
    (∀ l ∈ ls, l.key = c!"SUMMARY" → ∃ a, textProp l = .ok a) ∧
    (∀ l ∈ ls, l.key = c!"TRANSP" → ∃ a, Ikal.transp l = .ok a) ∧
    (∀ l ∈ ls, l.key = c!"URL" → ∃ a, uriProp l = .ok a) ∧
    (∀ l ∈ ls, l.key = c!"RECURID" → ∃ a, dateProp l = .ok a) ∧
    (∀ l ∈ ls, l.key = c!"RRULE" → ∃ a, Ikal.rrule l = .ok a) ∧
    (∀ l ∈ ls, l.key = c!"DTEND" → ∃ a, dateProp l = .ok a) ∧
    (∀ l ∈ ls, l.key = c!"DURATION" → ∃ a, Ikal.duration l = .ok a) ∧
    (∀ l ∈ ls, l.key = c!"ATTACH" → ∃ a, textProp l = .ok a) ∧
    (∀ l ∈ ls, l.key = c!"ATTENDEE" → ∃ a, uriProp l = .ok a) ∧
    (∀ l ∈ ls, l.key = c!"CATEGORIES" → ∃ a, textListProp l = .ok a) ∧
    (∀ l ∈ ls, l.key = c!"COMMENT" → ∃ a, textProp l = .ok a) ∧
    (∀ l ∈ ls, l.key = c!"CONTACT" → ∃ a, textProp l = .ok a) ∧
    (∀ l ∈ ls, l.key = c!"EXDATE" → ∃ a, Ikal.exdate l = .ok a) ∧
    (∀ l ∈ ls, l.key = c!"RSTATUS" → ∃ a, Ikal.rstatus l = .ok a) ∧
    (∀ l ∈ ls, l.key = c!"RELATED-TO" → ∃ a, textProp l = .ok a) ∧
    (∀ l ∈ ls, l.key = c!"RESOURCES" → ∃ a, textListProp l = .ok a) ∧
    (∀ l ∈ ls, l.key = c!"RDATE" → ∃ a, Ikal.rdate l = .ok a) ∧
    (∃ l, lastNamed c!"DTSTAMP" ls = some l ∧ ∃ a, dateTimeProp l = .ok a) ∧
    (∃ l, lastNamed c!"UID" ls = some l ∧ ∃ a, textProp l = .ok a) ∧
    (∃ l, lastNamed c!"DTSTART" ls = some l ∧ ∃ a, dateProp l = .ok a) := by
  have h := (C14_VEvent_iff ls v).1 h
  exact ⟨h.class_.readable, h.created.readable, h.description.readable, h.geo.readable, h.lastModified.readable, h.location.readable, h.organizer.readable, h.priority.readable, h.sequence.readable, h.status.readable, h.summary.readable, h.transp.readable, h.url.readable, h.recurid.readable, h.rrule.readable, h.dtend.readable, h.duration.readable, h.attach.readable, h.attendee.readable, h.categories.readable, h.comment.readable, h.contact.readable, h.exdate.readable, h.rstatus.readable, h.relatedTo.readable, h.resources.readable, h.rdate.readable, (h.dtstamp.imp fun _ x => ⟨x.1, _, x.2⟩), (h.uid.imp fun _ x => ⟨x.1, _, x.2⟩), (h.dtstart.imp fun _ x => ⟨x.1, _, x.2⟩)⟩

/-! ## VFreebusy -/

theorem VFreebusy.ofComp_eq (c : Comp VFreebusy.fields) (v : VFreebusy) : VFreebusy.ofComp c = v ↔ c = v.toComp := by
  constructor
  · rintro rfl; rfl
  · rintro rfl; rfl

/-- **C13 – C18** for `VFreebusy`: the conversion of property lines succeeds with `v` exactly when `v` is what the specification says. -/
theorem C14_VFreebusy_iff (ls : List ContentLine) (v : VFreebusy) : VFreebusy.tryFrom ls = .ok v ↔ VFreebusyFrom ls v := by
  have h1 : VFreebusy.tryFrom ls = .ok v ↔ Comp.tryFrom VFreebusy.fields ls = .ok v.toComp := by
    unfold VFreebusy.tryFrom
    cases Comp.tryFrom VFreebusy.fields ls with
    | ok c => simp only [Res.map_ok, Res.ok.injEq]; exact VFreebusy.ofComp_eq c v
    | err e => simp
    | panic => simp
  rw [h1, Comp.tryFrom_ok (fs := VFreebusy.fields) (show ([c!"DTSTAMP", c!"UID", c!"CONTACT", c!"DTSTART", c!"DTEND", c!"ORGANIZER", c!"URL", c!"ATTENDEE", c!"COMMENT", c!"FREEBUSY", c!"RSTATUS"] : List Str).Nodup by decide +kernel)]
  constructor
  · rintro ⟨⟨h0, h1, h2, h3, h4, h5, h6, h7, h8, h9, h10, _⟩, hx, hi⟩
    exact ⟨h0, h1, h2, h3, h4, h5, h6, h7, h8, h9, h10, hx, hi⟩
  · rintro ⟨h0, h1, h2, h3, h4, h5, h6, h7, h8, h9, h10, hx, hi⟩
    exact ⟨⟨h0, h1, h2, h3, h4, h5, h6, h7, h8, h9, h10, trivial⟩, hx, hi⟩

/-- **C13** for `VFreebusy`: every required property has a line. -/
theorem C13_VFreebusy (ls : List ContentLine) (v : VFreebusy) (h : VFreebusy.tryFrom ls = .ok v) :
    (∃ l ∈ ls, l.key = c!"DTSTAMP") ∧
    (∃ l ∈ ls, l.key = c!"UID") := by
  have h := (C14_VFreebusy_iff ls v).1 h
  exact ⟨h.dtstamp.mem, h.uid.mem⟩

/-- **C17** for `VFreebusy`: reordering lines of different names does not change the result. -/
theorem C17_VFreebusy (ls ls' : List ContentLine) (hs : SameByName ls ls') (v : VFreebusy) :
    VFreebusy.tryFrom ls = .ok v ↔ VFreebusy.tryFrom ls' = .ok v := by
  have key : ∀ a b, SameByName a b → VFreebusyFrom a v → VFreebusyFrom b v := fun a b hab h =>
    ⟨h.dtstamp.congr hab, h.uid.congr hab, h.contact.congr hab, h.dtstart.congr hab, h.dtend.congr hab, h.organizer.congr hab, h.url.congr hab, h.attendee.congr hab, h.comment.congr hab, h.freebusy.congr hab, h.rstatus.congr hab, h.xProp.congr hab, h.ianaProp.congr hab⟩
  rw [C14_VFreebusy_iff, C14_VFreebusy_iff]
  exact ⟨key _ _ hs, key _ _ hs.symm⟩

/-- **C18** for `VFreebusy`: every line of an optional or repeatable property is readable, and the last line of every required one. -/
theorem C18_VFreebusy (ls : List ContentLine) (v : VFreebusy) (h : VFreebusy.tryFrom ls = .ok v) :
    (∀ l ∈ ls, l.key = c!"CONTACT" → ∃ a, textProp l = .ok a) ∧
    (∀ l ∈ ls, l.key = c!"DTSTART" → ∃ a, dateProp l = .ok a) ∧
    (∀ l ∈ ls, l.key = c!"DTEND" → ∃ a, dateProp l = .ok a) ∧
    (∀ l ∈ ls, l.key = c!"ORGANIZER" → ∃ a, uriProp l = .ok a) ∧
    (∀ l ∈ ls, l.key = c!"URL" → ∃ a, uriProp l = .ok a) ∧
    (∀ l ∈ ls, l.key = c!"ATTENDEE" → ∃ a, uriProp l = .ok a) ∧
    (∀ l ∈ ls, l.key = c!"COMMENT" → ∃ a, textProp l = .ok a) ∧
    (∀ l ∈ ls, l.key = c!"FREEBUSY" → ∃ a, Ikal.freebusy l = .ok a) ∧
    (∀ l ∈ ls, l.key = c!"RSTATUS" → ∃ a, Ikal.rstatus l = .ok a) ∧
    (∃ l, lastNamed c!"DTSTAMP" ls = some l ∧ ∃ a, dateTimeProp l = .ok a) ∧
    (∃ l, lastNamed c!"UID" ls = some l ∧ ∃ a, textProp l = .ok a) := by
  have h := (C14_VFreebusy_iff ls v).1 h
  exact ⟨h.contact.readable, h.dtstart.readable, h.dtend.readable, h.organizer.readable, h.url.readable, h.attendee.readable, h.comment.readable, h.freebusy.readable, h.rstatus.readable, (h.dtstamp.imp fun _ x => ⟨x.1, _, x.2⟩), (h.uid.imp fun _ x => ⟨x.1, _, x.2⟩)⟩

/-! ## VJournal -/

theorem VJournal.ofComp_eq (c : Comp VJournal.fields) (v : VJournal) : VJournal.ofComp c = v ↔ c = v.toComp := by
  constructor
  · rintro rfl; rfl
  · rintro rfl; rfl

/-- **C13 – C18** for `VJournal`: the conversion of property lines succeeds with `v` exactly when `v` is what the specification says. -/
theorem C14_VJournal_iff (ls : List ContentLine) (v : VJournal) : VJournal.tryFrom ls = .ok v ↔ VJournalFrom ls v := by
  have h1 : VJournal.tryFrom ls = .ok v ↔ Comp.tryFrom VJournal.fields ls = .ok v.toComp := by
    unfold VJournal.tryFrom
    cases Comp.tryFrom VJournal.fields ls with
    | ok c => simp only [Res.map_ok, Res.ok.injEq]; exact VJournal.ofComp_eq c v
    | err e => simp
    | panic => simp
  rw [h1, Comp.tryFrom_ok (fs := VJournal.fields) (show ([c!"DTSTAMP", c!"UID", c!"CLASS", c!"CREATED", c!"DTSTART", c!"LAST-MODIFIED", c!"ORGANIZER", c!"RECURID", c!"SEQUENCE", c!"STATUS", c!"SUMMARY", c!"URL", c!"RRULE", c!"ATTACH", c!"ATTENDEE", c!"CATEGORIES", c!"COMMENT", c!"CONTACT", c!"DESCRIPTION", c!"EXDATE", c!"RELATED-TO", c!"RDATE", c!"RSTATUS"] : List Str).Nodup by decide +kernel)]
  constructor
  · rintro ⟨⟨h0, h1, h2, h3, h4, h5, h6, h7, h8, h9, h10, h11, h12, h13, h14, h15, h16, h17, h18, h19, h20, h21, h22, _⟩, hx, hi⟩
    exact ⟨h0, h1, h2, h3, h4, h5, h6, h7, h8, h9, h10, h11, h12, h13, h14, h15, h16, h17, h18, h19, h20, h21, h22, hx, hi⟩
  · rintro ⟨h0, h1, h2, h3, h4, h5, h6, h7, h8, h9, h10, h11, h12, h13, h14, h15, h16, h17, h18, h19, h20, h21, h22, hx, hi⟩
    exact ⟨⟨h0, h1, h2, h3, h4, h5, h6, h7, h8, h9, h10, h11, h12, h13, h14, h15, h16, h17, h18, h19, h20, h21, h22, trivial⟩, hx, hi⟩

/-- **C13** for `VJournal`: every required property has a line. -/
theorem C13_VJournal (ls : List ContentLine) (v : VJournal) (h : VJournal.tryFrom ls = .ok v) :
    (∃ l ∈ ls, l.key = c!"DTSTAMP") ∧
    (∃ l ∈ ls, l.key = c!"UID") ∧
    (∃ l ∈ ls, l.key = c!"DTSTART") := by
  have h := (C14_VJournal_iff ls v).1 h
  exact ⟨h.dtstamp.mem, h.uid.mem, h.dtstart.mem⟩

/-- **C17** for `VJournal`: reordering lines of different names does not change the result. -/
theorem C17_VJournal (ls ls' : List ContentLine) (hs : SameByName ls ls') (v : VJournal) :
    VJournal.tryFrom ls = .ok v ↔ VJournal.tryFrom ls' = .ok v := by
  have key : ∀ a b, SameByName a b → VJournalFrom a v → VJournalFrom b v := fun a b hab h =>
    ⟨h.dtstamp.congr hab, h.uid.congr hab, h.class_.congr hab, h.created.congr hab, h.dtstart.congr hab, h.lastModified.congr hab, h.organizer.congr hab, h.recurid.congr hab, h.sequence.congr hab, h.status.congr hab, h.summary.congr hab, h.url.congr hab, h.rrule.congr hab, h.attach.congr hab, h.attendee.congr hab, h.categories.congr hab, h.comment.congr hab, h.contact.congr hab, h.description.congr hab, h.exdate.congr hab, h.relatedTo.congr hab, h.rdate.congr hab, h.rstatus.congr hab, h.xProp.congr hab, h.ianaProp.congr hab⟩
  rw [C14_VJournal_iff, C14_VJournal_iff]
  exact ⟨key _ _ hs, key _ _ hs.symm⟩

/-- **C18** for `VJournal`: every line of an optional or repeatable property is readable, and the last line of every required one. -/
theorem C18_VJournal (ls : List ContentLine) (v : VJournal) (h : VJournal.tryFrom ls = .ok v) :
    (∀ l ∈ ls, l.key = c!"CLASS" → ∃ a, classProp l = .ok a) ∧
    (∀ l ∈ ls, l.key = c!"CREATED" → ∃ a, dateTimeProp l = .ok a) ∧
    (∀ l ∈ ls, l.key = c!"LAST-MODIFIED" → ∃ a, dateTimeProp l = .ok a) ∧
    (∀ l ∈ ls, l.key = c!"ORGANIZER" → ∃ a, uriProp l = .ok a) ∧
    (∀ l ∈ ls, l.key = c!"RECURID" → ∃ a, dateProp l = .ok a) ∧
    (∀ l ∈ ls, l.key = c!"SEQUENCE" → ∃ a, u32Prop l = .ok a) ∧
    (∀ l ∈ ls, l.key = c!"STATUS" → ∃ a, Ikal.status l = .ok a) ∧
    (∀ l ∈ ls, l.key = c!"SUMMARY" → ∃ a, textProp l = .ok a) ∧
    (∀ l ∈ ls, l.key = c!"URL" → ∃ a, uriProp l = .ok a) ∧
    (∀ l ∈ ls, l.key = c!"RRULE" → ∃ a, Ikal.rrule l = .ok a) ∧
    (∀ l ∈ ls, l.key = c!"ATTACH" → ∃ a, textProp l = .ok a) ∧
    (∀ l ∈ ls, l.key = c!"ATTENDEE" → ∃ a, uriProp l = .ok a) ∧
    (∀ l ∈ ls, l.key = c!"CATEGORIES" → ∃ a, textListProp l = .ok a) ∧
    (∀ l ∈ ls, l.key = c!"COMMENT" → ∃ a, textProp l = .ok a) ∧
    (∀ l ∈ ls, l.key = c!"CONTACT" → ∃ a, textProp l = .ok a) ∧
    (∀ l ∈ ls, l.key = c!"DESCRIPTION" → ∃ a, textProp l = .ok a) ∧
    (∀ l ∈ ls, l.key = c!"EXDATE" → ∃ a, Ikal.exdate l = .ok a) ∧
    (∀ l ∈ ls, l.key = c!"RELATED-TO" → ∃ a, textProp l = .ok a) ∧
    (∀ l ∈ ls, l.key = c!"RDATE" → ∃ a, Ikal.rdate l = .ok a) ∧
    (∀ l ∈ ls, l.key = c!"RSTATUS" → ∃ a, Ikal.rstatus l = .ok a) ∧
    (∃ l, lastNamed c!"DTSTAMP" ls = some l ∧ ∃ a, dateTimeProp l = .ok a) ∧
    (∃ l, lastNamed c!"UID" ls = some l ∧ ∃ a, textProp l = .ok a) ∧
    (∃ l, lastNamed c!"DTSTART" ls = some l ∧ ∃ a, dateProp l = .ok a) := by
  have h := (C14_VJournal_iff ls v).1 h
  exact ⟨h.class_.readable, h.created.readable, h.lastModified.readable, h.organizer.readable, h.recurid.readable, h.sequence.readable, h.status.readable, h.summary.readable, h.url.readable, h.rrule.readable, h.attach.readable, h.attendee.readable, h.categories.readable, h.comment.readable, h.contact.readable, h.description.readable, h.exdate.readable, h.relatedTo.readable, h.rdate.readable, h.rstatus.readable, (h.dtstamp.imp fun _ x => ⟨x.1, _, x.2⟩), (h.uid.imp fun _ x => ⟨x.1, _, x.2⟩), (h.dtstart.imp fun _ x => ⟨x.1, _, x.2⟩)⟩

/-! ## Standard -/

theorem Standard.ofComp_eq (c : Comp Standard.fields) (v : Standard) : Standard.ofComp c = v ↔ c = v.toComp := by
  constructor
  · rintro rfl; rfl
  · rintro rfl; rfl

/-- **C13 – C18** for `Standard`: the conversion of property lines succeeds with `v` exactly when `v` is what the specification says. -/
theorem C14_Standard_iff (ls : List ContentLine) (v : Standard) : Standard.tryFrom ls = .ok v ↔ StandardFrom ls v := by
  have h1 : Standard.tryFrom ls = .ok v ↔ Comp.tryFrom Standard.fields ls = .ok v.toComp := by
    unfold Standard.tryFrom
    cases Comp.tryFrom Standard.fields ls with
    | ok c => simp only [Res.map_ok, Res.ok.injEq]; exact Standard.ofComp_eq c v
    | err e => simp
    | panic => simp
  rw [h1, Comp.tryFrom_ok (fs := Standard.fields) (show ([c!"DTSTART", c!"TZOFFSETTO", c!"TZOFFSETFROM", c!"RRULE", c!"COMMENT", c!"RDATE", c!"TZNAME"] : List Str).Nodup by decide +kernel)]
  constructor
  · rintro ⟨⟨h0, h1, h2, h3, h4, h5, h6, _⟩, hx, hi⟩
    exact ⟨h0, h1, h2, h3, h4, h5, h6, hx, hi⟩
  · rintro ⟨h0, h1, h2, h3, h4, h5, h6, hx, hi⟩
    exact ⟨⟨h0, h1, h2, h3, h4, h5, h6, trivial⟩, hx, hi⟩

/-- **C13** for `Standard`: every required property has a line. -/
theorem C13_Standard (ls : List ContentLine) (v : Standard) (h : Standard.tryFrom ls = .ok v) :
    (∃ l ∈ ls, l.key = c!"DTSTART") ∧
    (∃ l ∈ ls, l.key = c!"TZOFFSETTO") ∧
    (∃ l ∈ ls, l.key = c!"TZOFFSETFROM") := by
  have h := (C14_Standard_iff ls v).1 h
  exact ⟨h.dtstart.mem, h.tzoffsetto.mem, h.tzoffsetfrom.mem⟩

/-- **C17** for `Standard`: reordering lines of different names does not change the result. -/
theorem C17_Standard (ls ls' : List ContentLine) (hs : SameByName ls ls') (v : Standard) :
    Standard.tryFrom ls = .ok v ↔ Standard.tryFrom ls' = .ok v := by
  have key : ∀ a b, SameByName a b → StandardFrom a v → StandardFrom b v := fun a b hab h =>
    ⟨h.dtstart.congr hab, h.tzoffsetto.congr hab, h.tzoffsetfrom.congr hab, h.rrule.congr hab, h.comment.congr hab, h.rdate.congr hab, h.tzname.congr hab, h.xProp.congr hab, h.ianaProp.congr hab⟩
  rw [C14_Standard_iff, C14_Standard_iff]
  exact ⟨key _ _ hs, key _ _ hs.symm⟩

/-- **C18** for `Standard`: every line of an optional or repeatable property is readable, and the last line of every required one. -/
theorem C18_Standard (ls : List ContentLine) (v : Standard) (h : Standard.tryFrom ls = .ok v) :
    (∀ l ∈ ls, l.key = c!"RRULE" → ∃ a, Ikal.rrule l = .ok a) ∧
    (∀ l ∈ ls, l.key = c!"COMMENT" → ∃ a, textProp l = .ok a) ∧
    (∀ l ∈ ls, l.key = c!"RDATE" → ∃ a, Ikal.rdate l = .ok a) ∧
    (∀ l ∈ ls, l.key = c!"TZNAME" → ∃ a, textProp l = .ok a) ∧
    (∃ l, lastNamed c!"DTSTART" ls = some l ∧ ∃ a, dateProp l = .ok a) ∧
    (∃ l, lastNamed c!"TZOFFSETTO" ls = some l ∧ ∃ a, offsetProp l = .ok a) ∧
    (∃ l, lastNamed c!"TZOFFSETFROM" ls = some l ∧ ∃ a, offsetProp l = .ok a) := by
  have h := (C14_Standard_iff ls v).1 h
  exact ⟨h.rrule.readable, h.comment.readable, h.rdate.readable, h.tzname.readable, (h.dtstart.imp fun _ x => ⟨x.1, _, x.2⟩), (h.tzoffsetto.imp fun _ x => ⟨x.1, _, x.2⟩), (h.tzoffsetfrom.imp fun _ x => ⟨x.1, _, x.2⟩)⟩

/-! ## Daylight -/

theorem Daylight.ofComp_eq (c : Comp Daylight.fields) (v : Daylight) : Daylight.ofComp c = v ↔ c = v.toComp := by
  constructor
  · rintro rfl; rfl
  · rintro rfl; rfl

/-- **C13 – C18** for `Daylight`: the conversion of property lines succeeds with `v` exactly when `v` is what the specification says. -/
theorem C14_Daylight_iff (ls : List ContentLine) (v : Daylight) : Daylight.tryFrom ls = .ok v ↔ DaylightFrom ls v := by
  have h1 : Daylight.tryFrom ls = .ok v ↔ Comp.tryFrom Daylight.fields ls = .ok v.toComp := by
    unfold Daylight.tryFrom
    cases Comp.tryFrom Daylight.fields ls with
    | ok c => simp only [Res.map_ok, Res.ok.injEq]; exact Daylight.ofComp_eq c v
    | err e => simp
    | panic => simp
  rw [h1, Comp.tryFrom_ok (fs := Daylight.fields) (show ([c!"DTSTART", c!"TZOFFSETTO", c!"TZOFFSETFROM", c!"RRULE", c!"COMMENT", c!"RDATE", c!"TZNAME"] : List Str).Nodup by decide +kernel)]
  constructor
  · rintro ⟨⟨h0, h1, h2, h3, h4, h5, h6, _⟩, hx, hi⟩
    exact ⟨h0, h1, h2, h3, h4, h5, h6, hx, hi⟩
  · rintro ⟨h0, h1, h2, h3, h4, h5, h6, hx, hi⟩
    exact ⟨⟨h0, h1, h2, h3, h4, h5, h6, trivial⟩, hx, hi⟩

/-- **C13** for `Daylight`: every required property has a line. -/
theorem C13_Daylight (ls : List ContentLine) (v : Daylight) (h : Daylight.tryFrom ls = .ok v) :
    (∃ l ∈ ls, l.key = c!"DTSTART") ∧
    (∃ l ∈ ls, l.key = c!"TZOFFSETTO") ∧
    (∃ l ∈ ls, l.key = c!"TZOFFSETFROM") := by
  have h := (C14_Daylight_iff ls v).1 h
  exact ⟨h.dtstart.mem, h.tzoffsetto.mem, h.tzoffsetfrom.mem⟩

/-- **C17** for `Daylight`: reordering lines of different names does not change the result. -/
theorem C17_Daylight (ls ls' : List ContentLine) (hs : SameByName ls ls') (v : Daylight) :
    Daylight.tryFrom ls = .ok v ↔ Daylight.tryFrom ls' = .ok v := by
  have key : ∀ a b, SameByName a b → DaylightFrom a v → DaylightFrom b v := fun a b hab h =>
    ⟨h.dtstart.congr hab, h.tzoffsetto.congr hab, h.tzoffsetfrom.congr hab, h.rrule.congr hab, h.comment.congr hab, h.rdate.congr hab, h.tzname.congr hab, h.xProp.congr hab, h.ianaProp.congr hab⟩
  rw [C14_Daylight_iff, C14_Daylight_iff]
  exact ⟨key _ _ hs, key _ _ hs.symm⟩

/-- **C18** for `Daylight`: every line of an optional or repeatable property is readable, and the last line of every required one. -/
theorem C18_Daylight (ls : List ContentLine) (v : Daylight) (h : Daylight.tryFrom ls = .ok v) :
    (∀ l ∈ ls, l.key = c!"RRULE" → ∃ a, Ikal.rrule l = .ok a) ∧
    (∀ l ∈ ls, l.key = c!"COMMENT" → ∃ a, textProp l = .ok a) ∧
    (∀ l ∈ ls, l.key = c!"RDATE" → ∃ a, Ikal.rdate l = .ok a) ∧
    (∀ l ∈ ls, l.key = c!"TZNAME" → ∃ a, textProp l = .ok a) ∧
    (∃ l, lastNamed c!"DTSTART" ls = some l ∧ ∃ a, dateProp l = .ok a) ∧
    (∃ l, lastNamed c!"TZOFFSETTO" ls = some l ∧ ∃ a, offsetProp l = .ok a) ∧
    (∃ l, lastNamed c!"TZOFFSETFROM" ls = some l ∧ ∃ a, offsetProp l = .ok a) := by
  have h := (C14_Daylight_iff ls v).1 h
  exact ⟨h.rrule.readable, h.comment.readable, h.rdate.readable, h.tzname.readable, (h.dtstart.imp fun _ x => ⟨x.1, _, x.2⟩), (h.tzoffsetto.imp fun _ x => ⟨x.1, _, x.2⟩), (h.tzoffsetfrom.imp fun _ x => ⟨x.1, _, x.2⟩)⟩

/-! ## VTimezone -/

theorem VTimezone.ofComp_eq (c : Comp VTimezone.fields) (v : VTimezone) : VTimezone.ofComp c = v ↔ c = v.toComp := by
  constructor
  · rintro rfl; rfl
  · rintro rfl; rfl

/-- **C13 – C18** for `VTimezone`: the conversion of property lines succeeds with `v` exactly when `v` is what the specification says. -/
theorem C14_VTimezone_iff (ls : List ContentLine) (v : VTimezone) : VTimezone.tryFrom ls = .ok v ↔ VTimezoneFrom ls v := by
  have h1 : VTimezone.tryFrom ls = .ok v ↔ Comp.tryFrom VTimezone.fields ls = .ok v.toComp := by
    unfold VTimezone.tryFrom
    cases Comp.tryFrom VTimezone.fields ls with
    | ok c => simp only [Res.map_ok, Res.ok.injEq]; exact VTimezone.ofComp_eq c v
    | err e => simp
    | panic => simp
  rw [h1, Comp.tryFrom_ok (fs := VTimezone.fields) (show ([c!"TZID", c!"LAST-MODIFIED", c!"TZURL"] : List Str).Nodup by decide +kernel)]
  constructor
  · rintro ⟨⟨h0, h1, h2, h3, h4, _⟩, hx, hi⟩
    exact ⟨h0, h1, h2, h3, h4, hx, hi⟩
  · rintro ⟨h0, h1, h2, h3, h4, hx, hi⟩
    exact ⟨⟨h0, h1, h2, h3, h4, trivial⟩, hx, hi⟩

/-- **C13** for `VTimezone`: every required property has a line. -/
theorem C13_VTimezone (ls : List ContentLine) (v : VTimezone) (h : VTimezone.tryFrom ls = .ok v) :
    (∃ l ∈ ls, l.key = c!"TZID") := by
  have h := (C14_VTimezone_iff ls v).1 h
  exact h.tzid.mem

/-- **C17** for `VTimezone`: reordering lines of different names does not change the result. -/
theorem C17_VTimezone (ls ls' : List ContentLine) (hs : SameByName ls ls') (v : VTimezone) :
    VTimezone.tryFrom ls = .ok v ↔ VTimezone.tryFrom ls' = .ok v := by
  have key : ∀ a b, SameByName a b → VTimezoneFrom a v → VTimezoneFrom b v := fun a b hab h =>
    ⟨h.tzid.congr hab, h.lastModified.congr hab, h.tzurl.congr hab, h.standard, h.daylight, h.xProp.congr hab, h.ianaProp.congr hab⟩
  rw [C14_VTimezone_iff, C14_VTimezone_iff]
  exact ⟨key _ _ hs, key _ _ hs.symm⟩

/-- **C18** for `VTimezone`: every line of an optional or repeatable property is readable, and the last line of every required one. -/
theorem C18_VTimezone (ls : List ContentLine) (v : VTimezone) (h : VTimezone.tryFrom ls = .ok v) :
    (∀ l ∈ ls, l.key = c!"LAST-MODIFIED" → ∃ a, dateTimeProp l = .ok a) ∧
    (∀ l ∈ ls, l.key = c!"TZURL" → ∃ a, uriProp l = .ok a) ∧
    (∃ l, lastNamed c!"TZID" ls = some l ∧ ∃ a, textProp l = .ok a) := by
  have h := (C14_VTimezone_iff ls v).1 h
  exact ⟨h.lastModified.readable, h.tzurl.readable, (h.tzid.imp fun _ x => ⟨x.1, _, x.2⟩)⟩

/-! ## VTodo -/

theorem VTodo.ofComp_eq (c : Comp VTodo.fields) (v : VTodo) : VTodo.ofComp c = v ↔ c = v.toComp := by
  constructor
  · rintro rfl; rfl
  · rintro rfl; rfl

/-- **C13 – C18** for `VTodo`: the conversion of property lines succeeds with `v` exactly when `v` is what the specification says. -/
theorem C14_VTodo_iff (ls : List ContentLine) (v : VTodo) : VTodo.tryFrom ls = .ok v ↔ VTodoFrom ls v := by
  have h1 : VTodo.tryFrom ls = .ok v ↔ Comp.tryFrom VTodo.fields ls = .ok v.toComp := by
    unfold VTodo.tryFrom
    cases Comp.tryFrom VTodo.fields ls with
    | ok c => simp only [Res.map_ok, Res.ok.injEq]; exact VTodo.ofComp_eq c v
    | err e => simp
    | panic => simp
  rw [h1, Comp.tryFrom_ok (fs := VTodo.fields) (show ([c!"DTSTAMP", c!"UID", c!"CLASS", c!"COMPLETED", c!"CREATED", c!"DTSTART", c!"GEO", c!"LAST-MODIFIED", c!"LOCATION", c!"ORGANIZER", c!"PERCENT-COMPLETE", c!"PRIORITY", c!"RECURID", c!"SEQUENCE", c!"STATUS", c!"SUMMARY", c!"URL", c!"RRULE", c!"DUE", c!"DURATION", c!"ATTACH", c!"ATTENDEE", c!"CATEGORIES", c!"COMMENT", c!"CONTACT", c!"EXDATE", c!"RSTATUS", c!"RELATED-TO", c!"RESOURCES", c!"RDATE"] : List Str).Nodup by decide +kernel)]
  constructor
  · rintro ⟨⟨h0, h1, h2, h3, h4, h5, h6, h7, h8, h9, h10, h11, h12, h13, h14, h15, h16, h17, h18, h19, h20, h21, h22, h23, h24, h25, h26, h27, h28, h29, _⟩, hx, hi⟩
    exact ⟨h0, h1, h2, h3, h4, h5, h6, h7, h8, h9, h10, h11, h12, h13, h14, h15, h16, h17, h18, h19, h20, h21, h22, h23, h24, h25, h26, h27, h28, h29, hx, hi⟩
  · rintro ⟨h0, h1, h2, h3, h4, h5, h6, h7, h8, h9, h10, h11, h12, h13, h14, h15, h16, h17, h18, h19, h20, h21, h22, h23, h24, h25, h26, h27, h28, h29, hx, hi⟩
    exact ⟨⟨h0, h1, h2, h3, h4, h5, h6, h7, h8, h9, h10, h11, h12, h13, h14, h15, h16, h17, h18, h19, h20, h21, h22, h23, h24, h25, h26, h27, h28, h29, trivial⟩, hx, hi⟩

/-- **C13** for `VTodo`: every required property has a line. -/
theorem C13_VTodo (ls : List ContentLine) (v : VTodo) (h : VTodo.tryFrom ls = .ok v) :
    (∃ l ∈ ls, l.key = c!"DTSTAMP") ∧
    (∃ l ∈ ls, l.key = c!"UID") := by
  have h := (C14_VTodo_iff ls v).1 h
  exact ⟨h.dtstamp.mem, h.uid.mem⟩

/-- **C17** for `VTodo`: reordering lines of different names does not change the result. -/
theorem C17_VTodo (ls ls' : List ContentLine) (hs : SameByName ls ls') (v : VTodo) :
    VTodo.tryFrom ls = .ok v ↔ VTodo.tryFrom ls' = .ok v := by
  have key : ∀ a b, SameByName a b → VTodoFrom a v → VTodoFrom b v := fun a b hab h =>
    ⟨h.dtstamp.congr hab, h.uid.congr hab, h.class_.congr hab, h.completed.congr hab, h.created.congr hab, h.dtstart.congr hab, h.geo.congr hab, h.lastModified.congr hab, h.location.congr hab, h.organizer.congr hab, h.percentComplete.congr hab, h.priority.congr hab, h.recurid.congr hab, h.sequence.congr hab, h.status.congr hab, h.summary.congr hab, h.url.congr hab, h.rrule.congr hab, h.due.congr hab, h.duration.congr hab, h.attach.congr hab, h.attendee.congr hab, h.categories.congr hab, h.comment.congr hab, h.contact.congr hab, h.exdate.congr hab, h.rstatus.congr hab, h.relatedTo.congr hab, h.resources.congr hab, h.rdate.congr hab, h.xProp.congr hab, h.ianaProp.congr hab⟩
  rw [C14_VTodo_iff, C14_VTodo_iff]
  exact ⟨key _ _ hs, key _ _ hs.symm⟩

/-- **C18** for `VTodo`: every line of an optional or repeatable property is readable, and the last line of every required one. -/
theorem C18_VTodo (ls : List ContentLine) (v : VTodo) (h : VTodo.tryFrom ls = .ok v) :
    (∀ l ∈ ls, l.key = c!"CLASS" → ∃ a, classProp l = .ok a) ∧
    (∀ l ∈ ls, l.key = c!"COMPLETED" → ∃ a, dateTimeProp l = .ok a) ∧
    (∀ l ∈ ls, l.key = c!"CREATED" → ∃ a, dateTimeProp l = .ok a) ∧
    (∀ l ∈ ls, l.key = c!"DTSTART" → ∃ a, dateProp l = .ok a) ∧
    (∀ l ∈ ls, l.key = c!"GEO" → ∃ a, Ikal.geo l = .ok a) ∧
    (∀ l ∈ ls, l.key = c!"LAST-MODIFIED" → ∃ a, dateTimeProp l = .ok a) ∧
    (∀ l ∈ ls, l.key = c!"LOCATION" → ∃ a, textProp l = .ok a) ∧
    (∀ l ∈ ls, l.key = c!"ORGANIZER" → ∃ a, uriProp l = .ok a) ∧
    (∀ l ∈ ls, l.key = c!"PERCENT-COMPLETE" → ∃ a, Ikal.percentComplete l = .ok a) ∧
    (∀ l ∈ ls, l.key = c!"PRIORITY" → ∃ a, Ikal.priority l = .ok a) ∧
    (∀ l ∈ ls, l.key = c!"RECURID" → ∃ a, dateProp l = .ok a) ∧
    (∀ l ∈ ls, l.key = c!"SEQUENCE" → ∃ a, u32Prop l = .ok a) ∧
    (∀ l ∈ ls, l.key = c!"STATUS" → ∃ a, Ikal.status l = .ok a) ∧
    (∀ l ∈ ls, l.key = c!"SUMMARY" → ∃ a, textProp l = .ok a) ∧
    (∀ l ∈ ls, l.key = c!"URL" → ∃ a, uriProp l = .ok a) ∧
    (∀ l ∈ ls, l.key = c!"RRULE" → ∃ a, Ikal.rrule l = .ok a) ∧
    (∀ l ∈ ls, l.key = c!"DUE" → ∃ a, dateProp l = .ok a) ∧
    (∀ l ∈ ls, l.key = c!"DURATION" → ∃ a, Ikal.duration l = .ok a) ∧
    (∀ l ∈ ls, l.key = c!"ATTACH" → ∃ a, textProp l = .ok a) ∧
    (∀ l ∈ ls, l.key = c!"ATTENDEE" → ∃ a, uriProp l = .ok a) ∧
    (∀ l ∈ ls, l.key = c!"CATEGORIES" → ∃ a, textListProp l = .ok a) ∧
    (∀ l ∈ ls, l.key = c!"COMMENT" → ∃ a, textProp l = .ok a) ∧
    (∀ l ∈ ls, l.key = c!"CONTACT" → ∃ a, textProp l = .ok a) ∧
    (∀ l ∈ ls, l.key = c!"EXDATE" → ∃ a, Ikal.exdate l = .ok a) ∧
    (∀ l ∈ ls, l.key = c!"RSTATUS" → ∃ a, Ikal.rstatus l = .ok a) ∧
    (∀ l ∈ ls, l.key = c!"RELATED-TO" → ∃ a, textProp l = .ok a) ∧
    (∀ l ∈ ls, l.key = c!"RESOURCES" → ∃ a, textListProp l = .ok a) ∧
    (∀ l ∈ ls, l.key = c!"RDATE" → ∃ a, Ikal.rdate l = .ok a) ∧
    (∃ l, lastNamed c!"DTSTAMP" ls = some l ∧ ∃ a, dateTimeProp l = .ok a) ∧
    (∃ l, lastNamed c!"UID" ls = some l ∧ ∃ a, textProp l = .ok a) := by
  have h := (C14_VTodo_iff ls v).1 h
  exact ⟨h.class_.readable, h.completed.readable, h.created.readable, h.dtstart.readable, h.geo.readable, h.lastModified.readable, h.location.readable, h.organizer.readable, h.percentComplete.readable, h.priority.readable, h.recurid.readable, h.sequence.readable, h.status.readable, h.summary.readable, h.url.readable, h.rrule.readable, h.due.readable, h.duration.readable, h.attach.readable, h.attendee.readable, h.categories.readable, h.comment.readable, h.contact.readable, h.exdate.readable, h.rstatus.readable, h.relatedTo.readable, h.resources.readable, h.rdate.readable, (h.dtstamp.imp fun _ x => ⟨x.1, _, x.2⟩), (h.uid.imp fun _ x => ⟨x.1, _, x.2⟩)⟩

/-! ## VCalendar -/

theorem VCalendar.ofComp_eq (c : Comp VCalendar.fields) (v : VCalendar) : VCalendar.ofComp c = v ↔ c = v.toComp := by
  constructor
  · rintro rfl; rfl
  · rintro rfl; rfl

/-- **C13 – C18** for `VCalendar`: the conversion of property lines succeeds with `v` exactly when `v` is what the specification says. -/
theorem C14_VCalendar_iff (ls : List ContentLine) (v : VCalendar) : VCalendar.tryFrom ls = .ok v ↔ VCalendarFrom ls v := by
  have h1 : VCalendar.tryFrom ls = .ok v ↔ Comp.tryFrom VCalendar.fields ls = .ok v.toComp := by
    unfold VCalendar.tryFrom
    cases Comp.tryFrom VCalendar.fields ls with
    | ok c => simp only [Res.map_ok, Res.ok.injEq]; exact VCalendar.ofComp_eq c v
    | err e => simp
    | panic => simp
  rw [h1, Comp.tryFrom_ok (fs := VCalendar.fields) (show ([c!"PRODID", c!"VERSION", c!"CALSCALE", c!"METHOD"] : List Str).Nodup by decide +kernel)]
  constructor
  · rintro ⟨⟨h0, h1, h2, h3, h4, h5, h6, h7, h8, h9, _⟩, hx, hi⟩
    exact ⟨h0, h1, h2, h3, h4, h5, h6, h7, h8, h9, hx, hi⟩
  · rintro ⟨h0, h1, h2, h3, h4, h5, h6, h7, h8, h9, hx, hi⟩
    exact ⟨⟨h0, h1, h2, h3, h4, h5, h6, h7, h8, h9, trivial⟩, hx, hi⟩

/-- **C13** for `VCalendar`: every required property has a line. -/
theorem C13_VCalendar (ls : List ContentLine) (v : VCalendar) (h : VCalendar.tryFrom ls = .ok v) :
    (∃ l ∈ ls, l.key = c!"PRODID") ∧
    (∃ l ∈ ls, l.key = c!"VERSION") := by
  have h := (C14_VCalendar_iff ls v).1 h
  exact ⟨h.prodid.mem, h.version.mem⟩

/-- **C17** for `VCalendar`: reordering lines of different names does not change the result. -/
theorem C17_VCalendar (ls ls' : List ContentLine) (hs : SameByName ls ls') (v : VCalendar) :
    VCalendar.tryFrom ls = .ok v ↔ VCalendar.tryFrom ls' = .ok v := by
  have key : ∀ a b, SameByName a b → VCalendarFrom a v → VCalendarFrom b v := fun a b hab h =>
    ⟨h.prodid.congr hab, h.version.congr hab, h.calscale.congr hab, h.method.congr hab, h.alarms, h.events, h.freebusy, h.journals, h.todo, h.timezones, h.xProp.congr hab, h.ianaProp.congr hab⟩
  rw [C14_VCalendar_iff, C14_VCalendar_iff]
  exact ⟨key _ _ hs, key _ _ hs.symm⟩

/-- **C18** for `VCalendar`: every line of an optional or repeatable property is readable, and the last line of every required one. -/
theorem C18_VCalendar (ls : List ContentLine) (v : VCalendar) (h : VCalendar.tryFrom ls = .ok v) :
    (∀ l ∈ ls, l.key = c!"CALSCALE" → ∃ a, textProp l = .ok a) ∧
    (∀ l ∈ ls, l.key = c!"METHOD" → ∃ a, textProp l = .ok a) ∧
    (∃ l, lastNamed c!"PRODID" ls = some l ∧ ∃ a, textProp l = .ok a) ∧
    (∃ l, lastNamed c!"VERSION" ls = some l ∧ ∃ a, textProp l = .ok a) := by
  have h := (C14_VCalendar_iff ls v).1 h
  exact ⟨h.calscale.readable, h.method.readable, (h.prodid.imp fun _ x => ⟨x.1, _, x.2⟩), (h.version.imp fun _ x => ⟨x.1, _, x.2⟩)⟩

end Ikal
