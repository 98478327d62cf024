import Verif.Lemmas.DebugValues
import Verif.Spec.Debug

/-!
# Lemmas: the calls of `Debug` tell the value
-/

set_option linter.unusedSectionVars false

namespace Ikal

open Spec

/-! ## Every call has a text that tells it -/

/-- The calls of a type have texts that tell them. -/
class OkDbg (α : Type) [Dbg α] : Prop where
  ok : ∀ a : α, (dbg a).Ok

theorem ok_items {α : Type} [Dbg α] [OkDbg α] (l : List α) : Doc.OkItems (l.map dbg) := by
  induction l with
  | nil => trivial
  | cons a l ih => exact ⟨OkDbg.ok a, ih⟩

theorem ok_entries {α : Type} [Dbg α] [OkDbg α] (l : SMap α) : Doc.OkEntries (l.map fun p => (p.1, dbg p.2)) := by
  induction l with
  | nil => trivial
  | cons a l ih => exact ⟨OkDbg.ok a.2, ih⟩

/-- A name is one. -/
theorem run_name {p : Char → Bool} {s : Str} (h : (!s.isEmpty && s.all p) = true) : RunOf p s := by
  simp only [Bool.and_eq_true, Bool.not_eq_true', List.isEmpty_eq_false_iff, List.all_eq_true] at h
  exact h

theorem ok_word {s : Str} (h : (!s.isEmpty && s.all wordChar) = true) : (Doc.word s).Ok := run_name h

theorem ok_tuple {n : Str} {d : Doc} (h : (!n.isEmpty && n.all nameChar) = true) (hd : d.Ok) : (Doc.tuple n [d]).Ok :=
  ⟨run_name h, by simp, hd, trivial⟩

theorem ok_field {n : Str} {d : Doc} {fs : List (Str × Doc)} (h : (!n.isEmpty && n.all nameChar) = true) (hd : d.Ok) (hf : Doc.OkFields fs) :
    Doc.OkFields ((n, d) :: fs) := ⟨run_name h, hd, hf⟩

theorem ok_struct {n : Str} {f : Str × Doc} {fs : List (Str × Doc)} (h : (!n.isEmpty && n.all nameChar) = true) (hf : Doc.OkFields (f :: fs)) :
    (Doc.struct n (f :: fs)).Ok := ⟨run_name h, by simp, hf⟩

instance : OkDbg Nat := ⟨fun n => ⟨natStr_ne n, word_digits (natStr_digits n)⟩⟩
instance : OkDbg Int := ⟨fun n => ⟨by unfold intStr; split; exact List.cons_ne_nil _ _; exact natStr_ne _, intStr_word n⟩⟩
instance : OkDbg Str := ⟨fun _ => trivial⟩
instance {α : Type} [Dbg α] [OkDbg α] : OkDbg (Option α) := ⟨fun o => match o with
  | none => ok_word (by decide)
  | some a => ok_tuple (by decide) (OkDbg.ok a)⟩
instance {α : Type} [Dbg α] [OkDbg α] : OkDbg (List α) := ⟨fun l => ok_items l⟩
instance {α : Type} [Dbg α] [OkDbg α] : OkDbg (SMap α) := ⟨fun l => ok_entries l⟩
instance : OkDbg ContentLine := ⟨fun v => ok_struct (by decide) (ok_field (by decide) (OkDbg.ok v.params) (ok_field (by decide) (OkDbg.ok v.value) trivial))⟩
instance : OkDbg Text := ⟨fun v => ok_struct (by decide) (ok_field (by decide) (OkDbg.ok v.params) (ok_field (by decide) (OkDbg.ok v.text) trivial))⟩
instance : OkDbg Uri := ⟨fun v => ok_struct (by decide) (ok_field (by decide) (OkDbg.ok v.params) (ok_field (by decide) (OkDbg.ok v.uri) trivial))⟩
instance : OkDbg TimeDelta := ⟨fun v => ok_struct (by decide) (ok_field (by decide) (OkDbg.ok (v.nanos / 1000000000)) (ok_field (by decide) (OkDbg.ok (v.nanos % 1000000000)) trivial))⟩
instance : OkDbg FixedOffset := ⟨fun o => ⟨by simp [offsetDebug], offset_debug_word o.secs⟩⟩
instance : OkDbg Class := ⟨fun c => match c with
  | .pub => ok_word (by decide) | .priv => ok_word (by decide) | .confidential => ok_word (by decide)
  | .custom s => ok_tuple (by decide) (OkDbg.ok s)⟩
instance : OkDbg Status := ⟨fun c => by cases c <;> exact ok_word (by decide)⟩
instance : OkDbg TimeTransparency := ⟨fun c => by cases c <;> exact ok_word (by decide)⟩
instance : OkDbg Freq := ⟨fun c => by cases c <;> exact ok_word (by decide)⟩
instance : OkDbg Weekday := ⟨fun c => by cases c <;> exact ok_word (by decide)⟩
instance : OkDbg WeekdayNum := ⟨fun v => ok_struct (by decide) (ok_field (by decide) (OkDbg.ok v.weekday) (ok_field (by decide) (OkDbg.ok v.ord) trivial))⟩

section
variable [Platform]

instance : OkDbg DateTime := ⟨fun t => match t with
  | .naive t => ok_tuple (by decide) ⟨time_debug_ne t, time_debug_word t⟩
  | .loc u => ok_tuple (by decide) ⟨by simp [NaiveDateTime.debug], word_append (time_debug_word _) (offset_debug_word _)⟩⟩
instance : OkDbg Date := ⟨fun t => match t with
  | .date d => ok_tuple (by decide) ⟨date_debug_ne d, date_debug_word d⟩
  | .dateTime t => ok_tuple (by decide) (OkDbg.ok t)⟩
instance : OkDbg Trigger := ⟨fun t => match t with
  | .dateTime t => ok_tuple (by decide) (OkDbg.ok t)
  | .duration d => ok_tuple (by decide) (OkDbg.ok d)⟩
instance : OkDbg Period := ⟨fun t => match t with
  | .startEnd a b => ok_tuple (by decide) (ok_struct (by decide) (ok_field (by decide) (OkDbg.ok a) (ok_field (by decide) (OkDbg.ok b) trivial)))
  | .startDur a b => ok_tuple (by decide) (ok_struct (by decide) (ok_field (by decide) (OkDbg.ok a) (ok_field (by decide) (OkDbg.ok b) trivial)))⟩
instance : OkDbg RDate := ⟨fun t => match t with
  | .date l => ok_tuple (by decide) (OkDbg.ok l)
  | .period l => ok_tuple (by decide) (OkDbg.ok l)⟩
instance : OkDbg Recur := ⟨fun v => ok_struct (by decide) (ok_field (by decide) (OkDbg.ok v.freq) (ok_field (by decide) (OkDbg.ok v.until_) (ok_field (by decide) (OkDbg.ok v.count) (ok_field (by decide) (OkDbg.ok v.interval) (ok_field (by decide) (OkDbg.ok v.bySecond) (ok_field (by decide) (OkDbg.ok v.byMinute) (ok_field (by decide) (OkDbg.ok v.byHour) (ok_field (by decide) (OkDbg.ok v.byDay) (ok_field (by decide) (OkDbg.ok v.byMonthday) (ok_field (by decide) (OkDbg.ok v.byYearday) (ok_field (by decide) (OkDbg.ok v.byWeekno) (ok_field (by decide) (OkDbg.ok v.byMonth) (ok_field (by decide) (OkDbg.ok v.bySetpos) (ok_field (by decide) (OkDbg.ok v.wkst) trivial))))))))))))))⟩

section
variable [FloatDebug] [LawfulFloatDebug]

theorem floatDoc_ok (x : Platform.F32) : (Doc.word (FloatDebug.text x)).Ok := by
  obtain ⟨h1, h2⟩ := LawfulFloatDebug.text x
  refine ⟨h1, fun c hc => ?_⟩
  simp only [wordChar, Bool.or_eq_true, beq_iff_eq]
  rcases h2 c hc with h | h | h | h <;> simp [h]

instance : OkDbg Geo := ⟨fun v => ok_struct (by decide) (ok_field (by decide) (floatDoc_ok v.lat) (ok_field (by decide) (floatDoc_ok v.lon) trivial))⟩
instance : OkDbg RequestStatus := ⟨fun v => ok_struct (by decide) (ok_field (by decide) (floatDoc_ok v.statcode) (ok_field (by decide) (OkDbg.ok v.statdesc) (ok_field (by decide) (OkDbg.ok v.extdata) trivial)))⟩
instance : OkDbg Audio := ⟨fun v => ok_struct (by decide) (ok_field (by decide) (OkDbg.ok v.action) (ok_field (by decide) (OkDbg.ok v.trigger) (ok_field (by decide) (OkDbg.ok v.duration) (ok_field (by decide) (OkDbg.ok v.repeat_) (ok_field (by decide) (OkDbg.ok v.attach) (ok_field (by decide) (OkDbg.ok v.xProp) (ok_field (by decide) (OkDbg.ok v.ianaProp) trivial)))))))⟩
instance : OkDbg Display := ⟨fun v => ok_struct (by decide) (ok_field (by decide) (OkDbg.ok v.action) (ok_field (by decide) (OkDbg.ok v.trigger) (ok_field (by decide) (OkDbg.ok v.description) (ok_field (by decide) (OkDbg.ok v.duration) (ok_field (by decide) (OkDbg.ok v.repeat_) (ok_field (by decide) (OkDbg.ok v.xProp) (ok_field (by decide) (OkDbg.ok v.ianaProp) trivial)))))))⟩
instance : OkDbg Email := ⟨fun v => ok_struct (by decide) (ok_field (by decide) (OkDbg.ok v.action) (ok_field (by decide) (OkDbg.ok v.trigger) (ok_field (by decide) (OkDbg.ok v.description) (ok_field (by decide) (OkDbg.ok v.summary) (ok_field (by decide) (OkDbg.ok v.attendee) (ok_field (by decide) (OkDbg.ok v.duration) (ok_field (by decide) (OkDbg.ok v.repeat_) (ok_field (by decide) (OkDbg.ok v.attach) (ok_field (by decide) (OkDbg.ok v.xProp) (ok_field (by decide) (OkDbg.ok v.ianaProp) trivial))))))))))⟩
instance : OkDbg VAlarm := ⟨fun t => match t with
  | .audio a => ok_tuple (by decide) (OkDbg.ok a)
  | .display a => ok_tuple (by decide) (OkDbg.ok a)
  | .email a => ok_tuple (by decide) (OkDbg.ok a)⟩
instance : OkDbg VEvent := ⟨fun v => ok_struct (by decide) (ok_field (by decide) (OkDbg.ok v.dtstamp) (ok_field (by decide) (OkDbg.ok v.uid) (ok_field (by decide) (OkDbg.ok v.dtstart) (ok_field (by decide) (OkDbg.ok v.class_) (ok_field (by decide) (OkDbg.ok v.created) (ok_field (by decide) (OkDbg.ok v.description) (ok_field (by decide) (OkDbg.ok v.geo) (ok_field (by decide) (OkDbg.ok v.lastModified) (ok_field (by decide) (OkDbg.ok v.location) (ok_field (by decide) (OkDbg.ok v.organizer) (ok_field (by decide) (OkDbg.ok v.priority) (ok_field (by decide) (OkDbg.ok v.sequence) (ok_field (by decide) (OkDbg.ok v.status) (ok_field (by decide) (OkDbg.ok v.summary) (ok_field (by decide) (OkDbg.ok v.transp) (ok_field (by decide) (OkDbg.ok v.url) (ok_field (by decide) (OkDbg.ok v.recurid) (ok_field (by decide) (OkDbg.ok v.rrule) (ok_field (by decide) (OkDbg.ok v.dtend) (ok_field (by decide) (OkDbg.ok v.duration) (ok_field (by decide) (OkDbg.ok v.attach) (ok_field (by decide) (OkDbg.ok v.attendee) (ok_field (by decide) (OkDbg.ok v.categories) (ok_field (by decide) (OkDbg.ok v.comment) (ok_field (by decide) (OkDbg.ok v.contact) (ok_field (by decide) (OkDbg.ok v.exdate) (ok_field (by decide) (OkDbg.ok v.rstatus) (ok_field (by decide) (OkDbg.ok v.relatedTo) (ok_field (by decide) (OkDbg.ok v.resources) (ok_field (by decide) (OkDbg.ok v.rdate) (ok_field (by decide) (OkDbg.ok v.alarms) (ok_field (by decide) (OkDbg.ok v.xProp) (ok_field (by decide) (OkDbg.ok v.ianaProp) trivial)))))))))))))))))))))))))))))))))⟩
instance : OkDbg VFreebusy := ⟨fun v => ok_struct (by decide) (ok_field (by decide) (OkDbg.ok v.dtstamp) (ok_field (by decide) (OkDbg.ok v.uid) (ok_field (by decide) (OkDbg.ok v.contact) (ok_field (by decide) (OkDbg.ok v.dtstart) (ok_field (by decide) (OkDbg.ok v.dtend) (ok_field (by decide) (OkDbg.ok v.organizer) (ok_field (by decide) (OkDbg.ok v.url) (ok_field (by decide) (OkDbg.ok v.attendee) (ok_field (by decide) (OkDbg.ok v.comment) (ok_field (by decide) (OkDbg.ok v.freebusy) (ok_field (by decide) (OkDbg.ok v.rstatus) (ok_field (by decide) (OkDbg.ok v.xProp) (ok_field (by decide) (OkDbg.ok v.ianaProp) trivial)))))))))))))⟩
instance : OkDbg VJournal := ⟨fun v => ok_struct (by decide) (ok_field (by decide) (OkDbg.ok v.dtstamp) (ok_field (by decide) (OkDbg.ok v.uid) (ok_field (by decide) (OkDbg.ok v.class_) (ok_field (by decide) (OkDbg.ok v.created) (ok_field (by decide) (OkDbg.ok v.dtstart) (ok_field (by decide) (OkDbg.ok v.lastModified) (ok_field (by decide) (OkDbg.ok v.organizer) (ok_field (by decide) (OkDbg.ok v.recurid) (ok_field (by decide) (OkDbg.ok v.sequence) (ok_field (by decide) (OkDbg.ok v.status) (ok_field (by decide) (OkDbg.ok v.summary) (ok_field (by decide) (OkDbg.ok v.url) (ok_field (by decide) (OkDbg.ok v.rrule) (ok_field (by decide) (OkDbg.ok v.attach) (ok_field (by decide) (OkDbg.ok v.attendee) (ok_field (by decide) (OkDbg.ok v.categories) (ok_field (by decide) (OkDbg.ok v.comment) (ok_field (by decide) (OkDbg.ok v.contact) (ok_field (by decide) (OkDbg.ok v.description) (ok_field (by decide) (OkDbg.ok v.exdate) (ok_field (by decide) (OkDbg.ok v.relatedTo) (ok_field (by decide) (OkDbg.ok v.rdate) (ok_field (by decide) (OkDbg.ok v.rstatus) (ok_field (by decide) (OkDbg.ok v.xProp) (ok_field (by decide) (OkDbg.ok v.ianaProp) trivial)))))))))))))))))))))))))⟩
instance : OkDbg Standard := ⟨fun v => ok_struct (by decide) (ok_field (by decide) (OkDbg.ok v.dtstart) (ok_field (by decide) (OkDbg.ok v.tzoffsetto) (ok_field (by decide) (OkDbg.ok v.tzoffsetfrom) (ok_field (by decide) (OkDbg.ok v.rrule) (ok_field (by decide) (OkDbg.ok v.comment) (ok_field (by decide) (OkDbg.ok v.rdate) (ok_field (by decide) (OkDbg.ok v.tzname) (ok_field (by decide) (OkDbg.ok v.xProp) (ok_field (by decide) (OkDbg.ok v.ianaProp) trivial)))))))))⟩
instance : OkDbg Daylight := ⟨fun v => ok_struct (by decide) (ok_field (by decide) (OkDbg.ok v.dtstart) (ok_field (by decide) (OkDbg.ok v.tzoffsetto) (ok_field (by decide) (OkDbg.ok v.tzoffsetfrom) (ok_field (by decide) (OkDbg.ok v.rrule) (ok_field (by decide) (OkDbg.ok v.comment) (ok_field (by decide) (OkDbg.ok v.rdate) (ok_field (by decide) (OkDbg.ok v.tzname) (ok_field (by decide) (OkDbg.ok v.xProp) (ok_field (by decide) (OkDbg.ok v.ianaProp) trivial)))))))))⟩
instance : OkDbg VTimezone := ⟨fun v => ok_struct (by decide) (ok_field (by decide) (OkDbg.ok v.tzid) (ok_field (by decide) (OkDbg.ok v.lastModified) (ok_field (by decide) (OkDbg.ok v.tzurl) (ok_field (by decide) (OkDbg.ok v.standard) (ok_field (by decide) (OkDbg.ok v.daylight) (ok_field (by decide) (OkDbg.ok v.xProp) (ok_field (by decide) (OkDbg.ok v.ianaProp) trivial)))))))⟩
instance : OkDbg VTodo := ⟨fun v => ok_struct (by decide) (ok_field (by decide) (OkDbg.ok v.dtstamp) (ok_field (by decide) (OkDbg.ok v.uid) (ok_field (by decide) (OkDbg.ok v.class_) (ok_field (by decide) (OkDbg.ok v.completed) (ok_field (by decide) (OkDbg.ok v.created) (ok_field (by decide) (OkDbg.ok v.dtstart) (ok_field (by decide) (OkDbg.ok v.geo) (ok_field (by decide) (OkDbg.ok v.lastModified) (ok_field (by decide) (OkDbg.ok v.location) (ok_field (by decide) (OkDbg.ok v.organizer) (ok_field (by decide) (OkDbg.ok v.percentComplete) (ok_field (by decide) (OkDbg.ok v.priority) (ok_field (by decide) (OkDbg.ok v.recurid) (ok_field (by decide) (OkDbg.ok v.sequence) (ok_field (by decide) (OkDbg.ok v.status) (ok_field (by decide) (OkDbg.ok v.summary) (ok_field (by decide) (OkDbg.ok v.url) (ok_field (by decide) (OkDbg.ok v.rrule) (ok_field (by decide) (OkDbg.ok v.due) (ok_field (by decide) (OkDbg.ok v.duration) (ok_field (by decide) (OkDbg.ok v.attach) (ok_field (by decide) (OkDbg.ok v.attendee) (ok_field (by decide) (OkDbg.ok v.categories) (ok_field (by decide) (OkDbg.ok v.comment) (ok_field (by decide) (OkDbg.ok v.contact) (ok_field (by decide) (OkDbg.ok v.exdate) (ok_field (by decide) (OkDbg.ok v.rstatus) (ok_field (by decide) (OkDbg.ok v.relatedTo) (ok_field (by decide) (OkDbg.ok v.resources) (ok_field (by decide) (OkDbg.ok v.rdate) (ok_field (by decide) (OkDbg.ok v.xProp) (ok_field (by decide) (OkDbg.ok v.ianaProp) trivial))))))))))))))))))))))))))))))))⟩
instance : OkDbg VCalendar := ⟨fun v => ok_struct (by decide) (ok_field (by decide) (OkDbg.ok v.prodid) (ok_field (by decide) (OkDbg.ok v.version) (ok_field (by decide) (OkDbg.ok v.calscale) (ok_field (by decide) (OkDbg.ok v.method) (ok_field (by decide) (OkDbg.ok v.alarms) (ok_field (by decide) (OkDbg.ok v.events) (ok_field (by decide) (OkDbg.ok v.freebusy) (ok_field (by decide) (OkDbg.ok v.journals) (ok_field (by decide) (OkDbg.ok v.todo) (ok_field (by decide) (OkDbg.ok v.timezones) (ok_field (by decide) (OkDbg.ok v.xProp) (ok_field (by decide) (OkDbg.ok v.ianaProp) trivial))))))))))))⟩

end
end

/-! ## The calls tell the value -/

/-- Values with this property that have the same calls are the same. -/
def Tells {α : Type} [Dbg α] (Q : α → Prop) : Prop := ∀ a b, Q a → Q b → dbg a = dbg b → a = b

theorem tells_opt {α : Type} [Dbg α] {Q : α → Prop} (h : Tells Q) : Tells fun o : Option α => ∀ a ∈ o, Q a := by
  intro a b ha hb hd
  cases a with
  | none =>
    cases b with
    | none => rfl
    | some b => cases hd
  | some a =>
    cases b with
    | none => cases hd
    | some b => rw [h a b (ha a rfl) (hb b rfl) (List.cons.inj (Doc.tuple.inj hd).2).1]

theorem map_tells {α : Type} [Dbg α] {Q : α → Prop} (h : Tells Q) : ∀ a b : List α, (∀ x ∈ a, Q x) → (∀ x ∈ b, Q x) → a.map dbg = b.map dbg → a = b
  | [], [], _, _, _ => rfl
  | [], _ :: _, _, _, hd => by cases hd
  | _ :: _, [], _, _, hd => by cases hd
  | x :: a, y :: b, ha, hb, hd => by
    obtain ⟨h1, h2⟩ := List.cons.inj hd
    rw [h x y (ha x (by simp)) (hb y (by simp)) h1, map_tells h a b (fun x hx => ha x (by simp [hx])) (fun x hx => hb x (by simp [hx])) h2]

theorem tells_list {α : Type} [Dbg α] {Q : α → Prop} (h : Tells Q) : Tells fun l : List α => ∀ a ∈ l, Q a :=
  fun a b ha hb hd => map_tells h a b ha hb (Doc.list.inj hd)

/-- The same without condition. -/
abbrev Injective' (α : Type) [Dbg α] : Prop := ∀ a b : α, dbg a = dbg b → a = b

theorem inj_opt {α : Type} [Dbg α] (h : Injective' α) : Injective' (Option α) :=
  fun a b hd => tells_opt (Q := fun _ => True) (fun a b _ _ => h a b) a b (fun _ _ => trivial) (fun _ _ => trivial) hd

theorem inj_list {α : Type} [Dbg α] (h : Injective' α) : Injective' (List α) :=
  fun a b hd => tells_list (Q := fun _ => True) (fun a b _ _ => h a b) a b (fun _ _ => trivial) (fun _ _ => trivial) hd

theorem map_entries {α : Type} [Dbg α] {Q : Str → α → Prop} (h : ∀ k a b, Q k a → Q k b → dbg a = dbg b → a = b) :
    ∀ a b : SMap α, (∀ p ∈ a, Q p.1 p.2) → (∀ p ∈ b, Q p.1 p.2) → (a.map fun p => (p.1, dbg p.2)) = (b.map fun p => (p.1, dbg p.2)) → a = b
  | [], [], _, _, _ => rfl
  | [], _ :: _, _, _, hd => by cases hd
  | _ :: _, [], _, _, hd => by cases hd
  | (k, x) :: a, (k', y) :: b, ha, hb, hd => by
    obtain ⟨h1, h2⟩ := List.cons.inj hd
    obtain ⟨h3, h4⟩ := Prod.mk.inj h1
    simp only at h3 h4
    subst h3
    rw [h k x y (ha (k, x) (by simp)) (hb (k, y) (by simp)) h4, map_entries h a b (fun x hx => ha x (by simp [hx])) (fun x hx => hb x (by simp [hx])) h2]

theorem inj_Str : Injective' Str := fun _ _ h => Doc.str.inj h
theorem inj_Nat : Injective' Nat := fun _ _ h => natStr_inj (Doc.word.inj h)
theorem inj_Int : Injective' Int := fun _ _ h => intStr_inj (Doc.word.inj h)

theorem inj_params : Injective' (SMap Str) :=
  fun a b h => map_entries (Q := fun _ _ => True) (fun _ a b _ _ => inj_Str a b) a b (fun _ _ => trivial) (fun _ _ => trivial) (Doc.map.inj h)

/-- The first field. -/
theorem field_head {n m : Str} {d e : Doc} {fs gs : List (Str × Doc)} (h : (n, d) :: fs = (m, e) :: gs) : d = e := (Prod.mk.inj (List.cons.inj h).1).2

theorem line_tells {l l' : ContentLine} (h : dbg l = dbg l') : l.params = l'.params ∧ l.value = l'.value := by
  have h := (Doc.struct.inj h).2
  exact ⟨inj_params _ _ (field_head h), inj_Str _ _ (field_head (List.cons.inj h).2)⟩

theorem tells_ext {known known' : List Str} {sel sel' : Str → Prop} {m m' : SMap ContentLine} (hm : ReadExt known sel m) (hm' : ReadExt known' sel' m') (h : dbg m = dbg m') : m = m' := by
  refine map_entries (Q := fun k l => l.key = k) ?_ m m' (fun p hp => (hm.2 p hp).2.2.1) (fun p hp => (hm'.2 p hp).2.2.1) (Doc.map.inj h)
  intro k a b ha hb hd
  obtain ⟨h1, h2⟩ := line_tells hd
  cases a; cases b; simp at *; exact ⟨ha.trans hb.symm, h1, h2⟩

theorem inj_Text : Injective' Text := by
  intro a b h
  have h := (Doc.struct.inj h).2
  have h1 := inj_params _ _ (field_head h)
  have h2 := inj_Str _ _ (field_head (List.cons.inj h).2)
  cases a; cases b; simp at *; exact ⟨h1, h2⟩

theorem inj_Uri : Injective' Uri := by
  intro a b h
  have h := (Doc.struct.inj h).2
  have h1 := inj_params _ _ (field_head h)
  have h2 := inj_Str _ _ (field_head (List.cons.inj h).2)
  cases a; cases b; simp at *; exact ⟨h1, h2⟩

theorem inj_TimeDelta : Injective' TimeDelta := by
  intro a b h
  have h := (Doc.struct.inj h).2
  have h1 := inj_Int _ _ (field_head h)
  have h2 := inj_Int _ _ (field_head (List.cons.inj h).2)
  cases a; cases b; simp at *; omega

theorem inj_Class : Injective' Class := by
  intro a b h
  cases a <;> cases b <;> first
    | rfl
    | (rename_i s t; rw [inj_Str s t (List.cons.inj (Doc.tuple.inj h).2).1])
    | cases h
    | exact absurd (Doc.word.inj h) (by decide)

theorem inj_Status : Injective' Status := by
  intro a b h
  cases a <;> cases b <;> first | rfl | exact absurd (Doc.word.inj h) (by decide)

theorem inj_TimeTransparency : Injective' TimeTransparency := by
  intro a b h
  cases a <;> cases b <;> first | rfl | exact absurd (Doc.word.inj h) (by decide)

theorem inj_Freq : Injective' Freq := by
  intro a b h
  cases a <;> cases b <;> first | rfl | exact absurd (Doc.word.inj h) (by decide)

theorem inj_Weekday : Injective' Weekday := by
  intro a b h
  cases a <;> cases b <;> first | rfl | exact absurd (Doc.word.inj h) (by decide)

theorem inj_WeekdayNum : Injective' WeekdayNum := by
  intro a b h
  have h := (Doc.struct.inj h).2
  have h1 := inj_Weekday _ _ (field_head h)
  have h2 := inj_opt inj_Int _ _ (field_head (List.cons.inj h).2)
  cases a; cases b; simp at *; exact ⟨h1, h2⟩

theorem tells_FixedOffset : Tells FixedOffset.Valid := by
  intro a b ha hb h
  have := offset_debug_inj ha hb (Doc.word.inj h)
  cases a; cases b; simp at *; exact this

theorem clear_opt [Platform] {α : Type} [HasTimes α] {o : Option α} (h : ClearClock o) {a : α} (ha : a ∈ o) : ClearClock a := by
  cases o with
  | none => cases ha
  | some b => cases ha; exact h

theorem clear_list [Platform] {α : Type} [HasTimes α] {l : List α} (h : ClearClock l) {a : α} (ha : a ∈ l) : ClearClock a :=
  fun u hu => h u (List.mem_flatMap.2 ⟨a, ha, hu⟩)

section
variable [Platform]

theorem local_any {u : NaiveDateTime} (hu : ReadTime u) (hc : u.frac = 0 ∨ Platform.tzOffset u.toSecs % 60 = 0) : AnySecond (localOf u) := by
  obtain ⟨-, hd, hs, hf⟩ := hu
  have hk : u.toSecs % 60 = u.secs % 60 := by unfold NaiveDateTime.toSecs; omega
  refine ⟨NaiveDate.ok_iff _ |>.1 (NaiveDate.ofDays_ok _), by simp only [localOf, NaiveDateTime.shift]; omega, ?_⟩
  simp only [localOf, NaiveDateTime.shift]
  rcases hf with hf | ⟨hf, h59⟩
  · exact .inl (by omega)
  · rcases hc with hc | hc
    · omega
    · refine .inr ⟨by omega, ?_⟩
      omega

theorem read_any {t : NaiveDateTime} (h : ReadTime t) : AnySecond t := by
  obtain ⟨-, hd, hs, hf⟩ := h
  exact ⟨hd, hs, by omega⟩

theorem local_debug_inj (hz : OffsetsWithinADay) {u u' : NaiveDateTime} (hu : ReadTime u) (hu' : ReadTime u') (hc : u.frac = 0 ∨ Platform.tzOffset u.toSecs % 60 = 0)
    (hc' : u'.frac = 0 ∨ Platform.tzOffset u'.toSecs % 60 = 0)
    (h : (localOf u).debug ++ offsetDebug (Platform.tzOffset u.toSecs) = (localOf u').debug ++ offsetDebug (Platform.tzOffset u'.toSecs)) : u = u' := by
  obtain ⟨h1, h2⟩ := time_debug_inj (local_any hu hc) (local_any hu' hc') (offset_after _) (offset_after _) h
  have h3 := offset_debug_inj (hz _) (hz _) h2
  have h4 := congrArg NaiveDateTime.toSecs h1
  rw [localOf, localOf, NaiveDateTime.toSecs_shift, NaiveDateTime.toSecs_shift, h3] at h4
  exact NaiveDateTime.eq_of_toSecs ((NaiveDate.ok_iff _).2 hu.2.1) ((NaiveDate.ok_iff _).2 hu'.2.1) hu.2.2.1 hu'.2.2.1 (by omega) (show (localOf u).frac = (localOf u').frac from congrArg NaiveDateTime.frac h1)

theorem tells_DateTime (hz : OffsetsWithinADay) : Tells fun t : DateTime => ReadDateTime t ∧ ClearClock t := by
  intro a b ha hb h
  cases a <;> cases b
  · have h := Doc.word.inj (List.cons.inj (Doc.tuple.inj h).2).1
    rw [(time_debug_inj (r := []) (r' := []) (read_any ha.1) (read_any hb.1) (by intro c hc; cases hc) (by intro c hc; cases hc) (by rw [h])).1]
  · exact absurd (Doc.tuple.inj h).1 (by decide)
  · exact absurd (Doc.tuple.inj h).1 (by decide)
  · have h := Doc.word.inj (List.cons.inj (Doc.tuple.inj h).2).1
    rw [local_debug_inj hz ha.1 hb.1 (ha.2 _ (List.mem_singleton.2 rfl)) (hb.2 _ (List.mem_singleton.2 rfl)) h]

theorem tells_Date (hz : OffsetsWithinADay) : Tells fun t : Date => ReadDate t ∧ ClearClock t := by
  intro a b ha hb h
  cases a <;> cases b
  · have h := Doc.word.inj (List.cons.inj (Doc.tuple.inj h).2).1
    rw [(date_debug_inj (r := []) (r' := []) ha.1.1 hb.1.1 (by rw [h])).1]
  · exact absurd (Doc.tuple.inj h).1 (by decide)
  · exact absurd (Doc.tuple.inj h).1 (by decide)
  · rw [tells_DateTime hz _ _ ⟨ha.1, ha.2⟩ ⟨hb.1, hb.2⟩ (List.cons.inj (Doc.tuple.inj h).2).1]

theorem tells_Trigger (hz : OffsetsWithinADay) : Tells fun t : Trigger => ReadTrigger t ∧ ClearClock t := by
  intro a b ha hb h
  cases a <;> cases b
  all_goals first
    | rw [tells_DateTime hz _ _ ⟨ha.1, ha.2⟩ ⟨hb.1, hb.2⟩ (List.cons.inj (Doc.tuple.inj h).2).1]
    | rw [inj_TimeDelta _ _ (List.cons.inj (Doc.tuple.inj h).2).1]
    | exact absurd (Doc.tuple.inj h).1 (by decide)

theorem tells_Period (hz : OffsetsWithinADay) : Tells fun t : Period => ReadPeriod t ∧ ClearClock t := by
  intro a b ha hb h
  cases a <;> cases b
  · have h := (Doc.struct.inj (List.cons.inj (Doc.tuple.inj h).2).1).2
    rw [tells_DateTime hz _ _ ⟨ha.1.1, fun u hu => ha.2 u (List.mem_append_left _ hu)⟩ ⟨hb.1.1, fun u hu => hb.2 u (List.mem_append_left _ hu)⟩ (field_head h),
      tells_DateTime hz _ _ ⟨ha.1.2, fun u hu => ha.2 u (List.mem_append_right _ hu)⟩ ⟨hb.1.2, fun u hu => hb.2 u (List.mem_append_right _ hu)⟩ (field_head (List.cons.inj h).2)]
  · exact absurd (Doc.tuple.inj h).1 (by decide)
  · exact absurd (Doc.tuple.inj h).1 (by decide)
  · have h := (Doc.struct.inj (List.cons.inj (Doc.tuple.inj h).2).1).2
    rw [tells_DateTime hz _ _ ⟨ha.1.1, ha.2⟩ ⟨hb.1.1, hb.2⟩ (field_head h), inj_TimeDelta _ _ (field_head (List.cons.inj h).2)]

theorem tells_RDate (hz : OffsetsWithinADay) : Tells fun t : RDate => ReadRDate t ∧ ClearClock t := by
  intro a b ha hb h
  cases a <;> cases b
  · rw [tells_list (tells_Date hz) _ _ (fun d hd => ⟨ha.1 d hd, clear_list (l := _) ha.2 hd⟩) (fun d hd => ⟨hb.1 d hd, clear_list (l := _) hb.2 hd⟩)
      (List.cons.inj (Doc.tuple.inj h).2).1]
  · exact absurd (Doc.tuple.inj h).1 (by decide)
  · exact absurd (Doc.tuple.inj h).1 (by decide)
  · rw [tells_list (tells_Period hz) _ _ (fun d hd => ⟨ha.1 d hd, clear_list (l := _) ha.2 hd⟩) (fun d hd => ⟨hb.1 d hd, clear_list (l := _) hb.2 hd⟩)
      (List.cons.inj (Doc.tuple.inj h).2).1]

theorem tells_Recur (hz : OffsetsWithinADay) : Tells fun r : Recur => ReadRule r ∧ ClearClock r := by
  intro v w hv hw h
  have h := (Doc.struct.inj h).2
  have e0 : v.freq = w.freq := (inj_Freq) _ _ (field_head h)
  have h := (List.cons.inj h).2
  have e1 : v.until_ = w.until_ := tells_opt (tells_Date hz) _ _ (fun a ha => ⟨hv.1.until_ a ha, clear_opt (o := v.until_) hv.2 ha⟩) (fun a ha => ⟨hw.1.until_ a ha, clear_opt (o := w.until_) hw.2 ha⟩) (field_head h)
  have h := (List.cons.inj h).2
  have e2 : v.count = w.count := (inj_opt inj_Nat) _ _ (field_head h)
  have h := (List.cons.inj h).2
  have e3 : v.interval = w.interval := (inj_Nat) _ _ (field_head h)
  have h := (List.cons.inj h).2
  have e4 : v.bySecond = w.bySecond := (inj_list inj_Int) _ _ (field_head h)
  have h := (List.cons.inj h).2
  have e5 : v.byMinute = w.byMinute := (inj_list inj_Int) _ _ (field_head h)
  have h := (List.cons.inj h).2
  have e6 : v.byHour = w.byHour := (inj_list inj_Int) _ _ (field_head h)
  have h := (List.cons.inj h).2
  have e7 : v.byDay = w.byDay := (inj_list inj_WeekdayNum) _ _ (field_head h)
  have h := (List.cons.inj h).2
  have e8 : v.byMonthday = w.byMonthday := (inj_list inj_Int) _ _ (field_head h)
  have h := (List.cons.inj h).2
  have e9 : v.byYearday = w.byYearday := (inj_list inj_Int) _ _ (field_head h)
  have h := (List.cons.inj h).2
  have e10 : v.byWeekno = w.byWeekno := (inj_list inj_Int) _ _ (field_head h)
  have h := (List.cons.inj h).2
  have e11 : v.byMonth = w.byMonth := (inj_list inj_Int) _ _ (field_head h)
  have h := (List.cons.inj h).2
  have e12 : v.bySetpos = w.bySetpos := (inj_list inj_Int) _ _ (field_head h)
  have h := (List.cons.inj h).2
  have e13 : v.wkst = w.wkst := (inj_opt inj_Weekday) _ _ (field_head h)
  have h := (List.cons.inj h).2
  cases v; cases w; congr 1

section
variable [FloatDebug] [LawfulFloatDebug]

theorem inj_Geo : Injective' Geo := by
  intro a b h
  have h := (Doc.struct.inj h).2
  have h1 := LawfulFloatDebug.inj _ _ (Doc.word.inj (field_head h))
  have h2 := LawfulFloatDebug.inj _ _ (Doc.word.inj (field_head (List.cons.inj h).2))
  cases a; cases b; congr 1

theorem inj_RequestStatus : Injective' RequestStatus := by
  intro a b h
  have h := (Doc.struct.inj h).2
  have h1 := LawfulFloatDebug.inj _ _ (Doc.word.inj (field_head h))
  have h2 := inj_Str _ _ (field_head (List.cons.inj h).2)
  have h3 := inj_opt inj_Str _ _ (field_head (List.cons.inj (List.cons.inj h).2).2)
  cases a; cases b; congr 1

theorem tells_Audio (hz : OffsetsWithinADay) : Tells fun v : Audio => ReadAudio v ∧ ClearClock v := by
  intro v w ⟨hv, cv⟩ ⟨hw, cw⟩ h
  have cv : ∀ u ∈ localTimes v.trigger, u.frac = 0 ∨ Platform.tzOffset u.toSecs % 60 = 0 := cv
  have cv_trigger := cv
  have cw : ∀ u ∈ localTimes w.trigger, u.frac = 0 ∨ Platform.tzOffset u.toSecs % 60 = 0 := cw
  have cw_trigger := cw
  have h := (Doc.struct.inj h).2
  have e0 : v.action = w.action := inj_Text _ _ (field_head h)
  have h := (List.cons.inj h).2
  have e1 : v.trigger = w.trigger := tells_Trigger hz _ _ ⟨hv.trigger, cv_trigger⟩ ⟨hw.trigger, cw_trigger⟩ (field_head h)
  have h := (List.cons.inj h).2
  have e2 : v.duration = w.duration := (inj_opt inj_TimeDelta) _ _ (field_head h)
  have h := (List.cons.inj h).2
  have e3 : v.repeat_ = w.repeat_ := (inj_opt inj_Nat) _ _ (field_head h)
  have h := (List.cons.inj h).2
  have e4 : v.attach = w.attach := (inj_list inj_Text) _ _ (field_head h)
  have h := (List.cons.inj h).2
  have e5 : v.xProp = w.xProp := tells_ext hv.xProp hw.xProp (field_head h)
  have h := (List.cons.inj h).2
  have e6 : v.ianaProp = w.ianaProp := tells_ext hv.ianaProp hw.ianaProp (field_head h)
  have h := (List.cons.inj h).2
  cases v; cases w; congr 1

theorem tells_Display (hz : OffsetsWithinADay) : Tells fun v : Display => ReadDisplay v ∧ ClearClock v := by
  intro v w ⟨hv, cv⟩ ⟨hw, cw⟩ h
  have cv : ∀ u ∈ localTimes v.trigger, u.frac = 0 ∨ Platform.tzOffset u.toSecs % 60 = 0 := cv
  have cv_trigger := cv
  have cw : ∀ u ∈ localTimes w.trigger, u.frac = 0 ∨ Platform.tzOffset u.toSecs % 60 = 0 := cw
  have cw_trigger := cw
  have h := (Doc.struct.inj h).2
  have e0 : v.action = w.action := inj_Text _ _ (field_head h)
  have h := (List.cons.inj h).2
  have e1 : v.trigger = w.trigger := tells_Trigger hz _ _ ⟨hv.trigger, cv_trigger⟩ ⟨hw.trigger, cw_trigger⟩ (field_head h)
  have h := (List.cons.inj h).2
  have e2 : v.description = w.description := inj_Text _ _ (field_head h)
  have h := (List.cons.inj h).2
  have e3 : v.duration = w.duration := (inj_opt inj_TimeDelta) _ _ (field_head h)
  have h := (List.cons.inj h).2
  have e4 : v.repeat_ = w.repeat_ := (inj_opt inj_Nat) _ _ (field_head h)
  have h := (List.cons.inj h).2
  have e5 : v.xProp = w.xProp := tells_ext hv.xProp hw.xProp (field_head h)
  have h := (List.cons.inj h).2
  have e6 : v.ianaProp = w.ianaProp := tells_ext hv.ianaProp hw.ianaProp (field_head h)
  have h := (List.cons.inj h).2
  cases v; cases w; congr 1

theorem tells_Email (hz : OffsetsWithinADay) : Tells fun v : Email => ReadEmail v ∧ ClearClock v := by
  intro v w ⟨hv, cv⟩ ⟨hw, cw⟩ h
  have cv : ∀ u ∈ localTimes v.trigger, u.frac = 0 ∨ Platform.tzOffset u.toSecs % 60 = 0 := cv
  have cv_trigger := cv
  have cw : ∀ u ∈ localTimes w.trigger, u.frac = 0 ∨ Platform.tzOffset u.toSecs % 60 = 0 := cw
  have cw_trigger := cw
  have h := (Doc.struct.inj h).2
  have e0 : v.action = w.action := inj_Text _ _ (field_head h)
  have h := (List.cons.inj h).2
  have e1 : v.trigger = w.trigger := tells_Trigger hz _ _ ⟨hv.trigger, cv_trigger⟩ ⟨hw.trigger, cw_trigger⟩ (field_head h)
  have h := (List.cons.inj h).2
  have e2 : v.description = w.description := inj_Text _ _ (field_head h)
  have h := (List.cons.inj h).2
  have e3 : v.summary = w.summary := inj_Text _ _ (field_head h)
  have h := (List.cons.inj h).2
  have e4 : v.attendee = w.attendee := (inj_list inj_Uri) _ _ (field_head h)
  have h := (List.cons.inj h).2
  have e5 : v.duration = w.duration := (inj_opt inj_TimeDelta) _ _ (field_head h)
  have h := (List.cons.inj h).2
  have e6 : v.repeat_ = w.repeat_ := (inj_opt inj_Nat) _ _ (field_head h)
  have h := (List.cons.inj h).2
  have e7 : v.attach = w.attach := (inj_list inj_Text) _ _ (field_head h)
  have h := (List.cons.inj h).2
  have e8 : v.xProp = w.xProp := tells_ext hv.xProp hw.xProp (field_head h)
  have h := (List.cons.inj h).2
  have e9 : v.ianaProp = w.ianaProp := tells_ext hv.ianaProp hw.ianaProp (field_head h)
  have h := (List.cons.inj h).2
  cases v; cases w; congr 1

theorem tells_VAlarm (hz : OffsetsWithinADay) : Tells fun v : VAlarm => ReadVAlarm v ∧ ClearClock v := by
  intro a b ha hb h
  cases a <;> cases b
  · rw [tells_Audio hz _ _ ⟨ha.1, ha.2⟩ ⟨hb.1, hb.2⟩ (List.cons.inj (Doc.tuple.inj h).2).1]
  · exact absurd (Doc.tuple.inj h).1 (by decide)
  · exact absurd (Doc.tuple.inj h).1 (by decide)
  · exact absurd (Doc.tuple.inj h).1 (by decide)
  · rw [tells_Display hz _ _ ⟨ha.1, ha.2⟩ ⟨hb.1, hb.2⟩ (List.cons.inj (Doc.tuple.inj h).2).1]
  · exact absurd (Doc.tuple.inj h).1 (by decide)
  · exact absurd (Doc.tuple.inj h).1 (by decide)
  · exact absurd (Doc.tuple.inj h).1 (by decide)
  · rw [tells_Email hz _ _ ⟨ha.1, ha.2⟩ ⟨hb.1, hb.2⟩ (List.cons.inj (Doc.tuple.inj h).2).1]

theorem tells_VEvent (hz : OffsetsWithinADay) : Tells fun v : VEvent => ReadVEvent v ∧ ClearClock v := by
  intro v w ⟨hv, cv⟩ ⟨hw, cw⟩ h
  have cv : ∀ u ∈ localTimes v.dtstamp ++ (localTimes v.dtstart ++ (localTimes v.created ++ (localTimes v.lastModified ++ (localTimes v.recurid ++ (localTimes v.rrule ++ (localTimes v.dtend ++ (localTimes v.exdate ++ (localTimes v.rdate ++ (localTimes v.alarms))))))))), u.frac = 0 ∨ Platform.tzOffset u.toSecs % 60 = 0 := cv
  simp only [List.forall_mem_append] at cv
  obtain ⟨cv_dtstamp, cv_dtstart, cv_created, cv_lastModified, cv_recurid, cv_rrule, cv_dtend, cv_exdate, cv_rdate, cv_alarms⟩ := cv
  have cw : ∀ u ∈ localTimes w.dtstamp ++ (localTimes w.dtstart ++ (localTimes w.created ++ (localTimes w.lastModified ++ (localTimes w.recurid ++ (localTimes w.rrule ++ (localTimes w.dtend ++ (localTimes w.exdate ++ (localTimes w.rdate ++ (localTimes w.alarms))))))))), u.frac = 0 ∨ Platform.tzOffset u.toSecs % 60 = 0 := cw
  simp only [List.forall_mem_append] at cw
  obtain ⟨cw_dtstamp, cw_dtstart, cw_created, cw_lastModified, cw_recurid, cw_rrule, cw_dtend, cw_exdate, cw_rdate, cw_alarms⟩ := cw
  have h := (Doc.struct.inj h).2
  have e0 : v.dtstamp = w.dtstamp := tells_DateTime hz _ _ ⟨hv.dtstamp, cv_dtstamp⟩ ⟨hw.dtstamp, cw_dtstamp⟩ (field_head h)
  have h := (List.cons.inj h).2
  have e1 : v.uid = w.uid := inj_Text _ _ (field_head h)
  have h := (List.cons.inj h).2
  have e2 : v.dtstart = w.dtstart := tells_Date hz _ _ ⟨hv.dtstart, cv_dtstart⟩ ⟨hw.dtstart, cw_dtstart⟩ (field_head h)
  have h := (List.cons.inj h).2
  have e3 : v.class_ = w.class_ := (inj_opt inj_Class) _ _ (field_head h)
  have h := (List.cons.inj h).2
  have e4 : v.created = w.created := tells_opt (tells_DateTime hz) _ _ (fun a ha => ⟨hv.created a ha, clear_opt (o := v.created) cv_created ha⟩)
    (fun a ha => ⟨hw.created a ha, clear_opt (o := w.created) cw_created ha⟩) (field_head h)
  have h := (List.cons.inj h).2
  have e5 : v.description = w.description := (inj_opt inj_Text) _ _ (field_head h)
  have h := (List.cons.inj h).2
  have e6 : v.geo = w.geo := (inj_opt inj_Geo) _ _ (field_head h)
  have h := (List.cons.inj h).2
  have e7 : v.lastModified = w.lastModified := tells_opt (tells_DateTime hz) _ _ (fun a ha => ⟨hv.lastModified a ha, clear_opt (o := v.lastModified) cv_lastModified ha⟩)
    (fun a ha => ⟨hw.lastModified a ha, clear_opt (o := w.lastModified) cw_lastModified ha⟩) (field_head h)
  have h := (List.cons.inj h).2
  have e8 : v.location = w.location := (inj_opt inj_Text) _ _ (field_head h)
  have h := (List.cons.inj h).2
  have e9 : v.organizer = w.organizer := (inj_opt inj_Uri) _ _ (field_head h)
  have h := (List.cons.inj h).2
  have e10 : v.priority = w.priority := (inj_opt inj_Nat) _ _ (field_head h)
  have h := (List.cons.inj h).2
  have e11 : v.sequence = w.sequence := (inj_opt inj_Nat) _ _ (field_head h)
  have h := (List.cons.inj h).2
  have e12 : v.status = w.status := (inj_opt inj_Status) _ _ (field_head h)
  have h := (List.cons.inj h).2
  have e13 : v.summary = w.summary := (inj_opt inj_Text) _ _ (field_head h)
  have h := (List.cons.inj h).2
  have e14 : v.transp = w.transp := (inj_opt inj_TimeTransparency) _ _ (field_head h)
  have h := (List.cons.inj h).2
  have e15 : v.url = w.url := (inj_opt inj_Uri) _ _ (field_head h)
  have h := (List.cons.inj h).2
  have e16 : v.recurid = w.recurid := tells_opt (tells_Date hz) _ _ (fun a ha => ⟨hv.recurid a ha, clear_opt (o := v.recurid) cv_recurid ha⟩)
    (fun a ha => ⟨hw.recurid a ha, clear_opt (o := w.recurid) cw_recurid ha⟩) (field_head h)
  have h := (List.cons.inj h).2
  have e17 : v.rrule = w.rrule := tells_opt (tells_Recur hz) _ _ (fun a ha => ⟨hv.rrule a ha, clear_opt (o := v.rrule) cv_rrule ha⟩)
    (fun a ha => ⟨hw.rrule a ha, clear_opt (o := w.rrule) cw_rrule ha⟩) (field_head h)
  have h := (List.cons.inj h).2
  have e18 : v.dtend = w.dtend := tells_opt (tells_Date hz) _ _ (fun a ha => ⟨hv.dtend a ha, clear_opt (o := v.dtend) cv_dtend ha⟩)
    (fun a ha => ⟨hw.dtend a ha, clear_opt (o := w.dtend) cw_dtend ha⟩) (field_head h)
  have h := (List.cons.inj h).2
  have e19 : v.duration = w.duration := (inj_opt inj_TimeDelta) _ _ (field_head h)
  have h := (List.cons.inj h).2
  have e20 : v.attach = w.attach := (inj_list inj_Text) _ _ (field_head h)
  have h := (List.cons.inj h).2
  have e21 : v.attendee = w.attendee := (inj_list inj_Uri) _ _ (field_head h)
  have h := (List.cons.inj h).2
  have e22 : v.categories = w.categories := (inj_list inj_Text) _ _ (field_head h)
  have h := (List.cons.inj h).2
  have e23 : v.comment = w.comment := (inj_list inj_Text) _ _ (field_head h)
  have h := (List.cons.inj h).2
  have e24 : v.contact = w.contact := (inj_list inj_Text) _ _ (field_head h)
  have h := (List.cons.inj h).2
  have e25 : v.exdate = w.exdate := tells_list (tells_Date hz) _ _ (fun a ha => ⟨hv.exdate a ha, clear_list (l := v.exdate) cv_exdate ha⟩)
    (fun a ha => ⟨hw.exdate a ha, clear_list (l := w.exdate) cw_exdate ha⟩) (field_head h)
  have h := (List.cons.inj h).2
  have e26 : v.rstatus = w.rstatus := (inj_list inj_RequestStatus) _ _ (field_head h)
  have h := (List.cons.inj h).2
  have e27 : v.relatedTo = w.relatedTo := (inj_list inj_Text) _ _ (field_head h)
  have h := (List.cons.inj h).2
  have e28 : v.resources = w.resources := (inj_list inj_Text) _ _ (field_head h)
  have h := (List.cons.inj h).2
  have e29 : v.rdate = w.rdate := tells_list (tells_RDate hz) _ _ (fun a ha => ⟨hv.rdate a ha, clear_list (l := v.rdate) cv_rdate ha⟩)
    (fun a ha => ⟨hw.rdate a ha, clear_list (l := w.rdate) cw_rdate ha⟩) (field_head h)
  have h := (List.cons.inj h).2
  have e30 : v.alarms = w.alarms := tells_list (tells_VAlarm hz) _ _ (fun a ha => ⟨hv.alarms a ha, clear_list (l := v.alarms) cv_alarms ha⟩)
    (fun a ha => ⟨hw.alarms a ha, clear_list (l := w.alarms) cw_alarms ha⟩) (field_head h)
  have h := (List.cons.inj h).2
  have e31 : v.xProp = w.xProp := tells_ext hv.xProp hw.xProp (field_head h)
  have h := (List.cons.inj h).2
  have e32 : v.ianaProp = w.ianaProp := tells_ext hv.ianaProp hw.ianaProp (field_head h)
  have h := (List.cons.inj h).2
  cases v; cases w; congr 1

theorem tells_VFreebusy (hz : OffsetsWithinADay) : Tells fun v : VFreebusy => ReadVFreebusy v ∧ ClearClock v := by
  intro v w ⟨hv, cv⟩ ⟨hw, cw⟩ h
  have cv : ∀ u ∈ localTimes v.dtstamp ++ (localTimes v.dtstart ++ (localTimes v.dtend ++ (localTimes v.freebusy))), u.frac = 0 ∨ Platform.tzOffset u.toSecs % 60 = 0 := cv
  simp only [List.forall_mem_append] at cv
  obtain ⟨cv_dtstamp, cv_dtstart, cv_dtend, cv_freebusy⟩ := cv
  have cw : ∀ u ∈ localTimes w.dtstamp ++ (localTimes w.dtstart ++ (localTimes w.dtend ++ (localTimes w.freebusy))), u.frac = 0 ∨ Platform.tzOffset u.toSecs % 60 = 0 := cw
  simp only [List.forall_mem_append] at cw
  obtain ⟨cw_dtstamp, cw_dtstart, cw_dtend, cw_freebusy⟩ := cw
  have h := (Doc.struct.inj h).2
  have e0 : v.dtstamp = w.dtstamp := tells_DateTime hz _ _ ⟨hv.dtstamp, cv_dtstamp⟩ ⟨hw.dtstamp, cw_dtstamp⟩ (field_head h)
  have h := (List.cons.inj h).2
  have e1 : v.uid = w.uid := inj_Text _ _ (field_head h)
  have h := (List.cons.inj h).2
  have e2 : v.contact = w.contact := (inj_opt inj_Text) _ _ (field_head h)
  have h := (List.cons.inj h).2
  have e3 : v.dtstart = w.dtstart := tells_opt (tells_Date hz) _ _ (fun a ha => ⟨hv.dtstart a ha, clear_opt (o := v.dtstart) cv_dtstart ha⟩)
    (fun a ha => ⟨hw.dtstart a ha, clear_opt (o := w.dtstart) cw_dtstart ha⟩) (field_head h)
  have h := (List.cons.inj h).2
  have e4 : v.dtend = w.dtend := tells_opt (tells_Date hz) _ _ (fun a ha => ⟨hv.dtend a ha, clear_opt (o := v.dtend) cv_dtend ha⟩)
    (fun a ha => ⟨hw.dtend a ha, clear_opt (o := w.dtend) cw_dtend ha⟩) (field_head h)
  have h := (List.cons.inj h).2
  have e5 : v.organizer = w.organizer := (inj_opt inj_Uri) _ _ (field_head h)
  have h := (List.cons.inj h).2
  have e6 : v.url = w.url := (inj_opt inj_Uri) _ _ (field_head h)
  have h := (List.cons.inj h).2
  have e7 : v.attendee = w.attendee := (inj_list inj_Uri) _ _ (field_head h)
  have h := (List.cons.inj h).2
  have e8 : v.comment = w.comment := (inj_list inj_Text) _ _ (field_head h)
  have h := (List.cons.inj h).2
  have e9 : v.freebusy = w.freebusy := tells_list (tells_Period hz) _ _ (fun a ha => ⟨hv.freebusy a ha, clear_list (l := v.freebusy) cv_freebusy ha⟩)
    (fun a ha => ⟨hw.freebusy a ha, clear_list (l := w.freebusy) cw_freebusy ha⟩) (field_head h)
  have h := (List.cons.inj h).2
  have e10 : v.rstatus = w.rstatus := (inj_list inj_RequestStatus) _ _ (field_head h)
  have h := (List.cons.inj h).2
  have e11 : v.xProp = w.xProp := tells_ext hv.xProp hw.xProp (field_head h)
  have h := (List.cons.inj h).2
  have e12 : v.ianaProp = w.ianaProp := tells_ext hv.ianaProp hw.ianaProp (field_head h)
  have h := (List.cons.inj h).2
  cases v; cases w; congr 1

theorem tells_VJournal (hz : OffsetsWithinADay) : Tells fun v : VJournal => ReadVJournal v ∧ ClearClock v := by
  intro v w ⟨hv, cv⟩ ⟨hw, cw⟩ h
  have cv : ∀ u ∈ localTimes v.dtstamp ++ (localTimes v.created ++ (localTimes v.dtstart ++ (localTimes v.lastModified ++ (localTimes v.recurid ++ (localTimes v.rrule ++ (localTimes v.exdate ++ (localTimes v.rdate))))))), u.frac = 0 ∨ Platform.tzOffset u.toSecs % 60 = 0 := cv
  simp only [List.forall_mem_append] at cv
  obtain ⟨cv_dtstamp, cv_created, cv_dtstart, cv_lastModified, cv_recurid, cv_rrule, cv_exdate, cv_rdate⟩ := cv
  have cw : ∀ u ∈ localTimes w.dtstamp ++ (localTimes w.created ++ (localTimes w.dtstart ++ (localTimes w.lastModified ++ (localTimes w.recurid ++ (localTimes w.rrule ++ (localTimes w.exdate ++ (localTimes w.rdate))))))), u.frac = 0 ∨ Platform.tzOffset u.toSecs % 60 = 0 := cw
  simp only [List.forall_mem_append] at cw
  obtain ⟨cw_dtstamp, cw_created, cw_dtstart, cw_lastModified, cw_recurid, cw_rrule, cw_exdate, cw_rdate⟩ := cw
  have h := (Doc.struct.inj h).2
  have e0 : v.dtstamp = w.dtstamp := tells_DateTime hz _ _ ⟨hv.dtstamp, cv_dtstamp⟩ ⟨hw.dtstamp, cw_dtstamp⟩ (field_head h)
  have h := (List.cons.inj h).2
  have e1 : v.uid = w.uid := inj_Text _ _ (field_head h)
  have h := (List.cons.inj h).2
  have e2 : v.class_ = w.class_ := (inj_opt inj_Class) _ _ (field_head h)
  have h := (List.cons.inj h).2
  have e3 : v.created = w.created := tells_opt (tells_DateTime hz) _ _ (fun a ha => ⟨hv.created a ha, clear_opt (o := v.created) cv_created ha⟩)
    (fun a ha => ⟨hw.created a ha, clear_opt (o := w.created) cw_created ha⟩) (field_head h)
  have h := (List.cons.inj h).2
  have e4 : v.dtstart = w.dtstart := tells_Date hz _ _ ⟨hv.dtstart, cv_dtstart⟩ ⟨hw.dtstart, cw_dtstart⟩ (field_head h)
  have h := (List.cons.inj h).2
  have e5 : v.lastModified = w.lastModified := tells_opt (tells_DateTime hz) _ _ (fun a ha => ⟨hv.lastModified a ha, clear_opt (o := v.lastModified) cv_lastModified ha⟩)
    (fun a ha => ⟨hw.lastModified a ha, clear_opt (o := w.lastModified) cw_lastModified ha⟩) (field_head h)
  have h := (List.cons.inj h).2
  have e6 : v.organizer = w.organizer := (inj_opt inj_Uri) _ _ (field_head h)
  have h := (List.cons.inj h).2
  have e7 : v.recurid = w.recurid := tells_opt (tells_Date hz) _ _ (fun a ha => ⟨hv.recurid a ha, clear_opt (o := v.recurid) cv_recurid ha⟩)
    (fun a ha => ⟨hw.recurid a ha, clear_opt (o := w.recurid) cw_recurid ha⟩) (field_head h)
  have h := (List.cons.inj h).2
  have e8 : v.sequence = w.sequence := (inj_opt inj_Nat) _ _ (field_head h)
  have h := (List.cons.inj h).2
  have e9 : v.status = w.status := (inj_opt inj_Status) _ _ (field_head h)
  have h := (List.cons.inj h).2
  have e10 : v.summary = w.summary := (inj_opt inj_Text) _ _ (field_head h)
  have h := (List.cons.inj h).2
  have e11 : v.url = w.url := (inj_opt inj_Uri) _ _ (field_head h)
  have h := (List.cons.inj h).2
  have e12 : v.rrule = w.rrule := tells_opt (tells_Recur hz) _ _ (fun a ha => ⟨hv.rrule a ha, clear_opt (o := v.rrule) cv_rrule ha⟩)
    (fun a ha => ⟨hw.rrule a ha, clear_opt (o := w.rrule) cw_rrule ha⟩) (field_head h)
  have h := (List.cons.inj h).2
  have e13 : v.attach = w.attach := (inj_list inj_Text) _ _ (field_head h)
  have h := (List.cons.inj h).2
  have e14 : v.attendee = w.attendee := (inj_list inj_Uri) _ _ (field_head h)
  have h := (List.cons.inj h).2
  have e15 : v.categories = w.categories := (inj_list inj_Text) _ _ (field_head h)
  have h := (List.cons.inj h).2
  have e16 : v.comment = w.comment := (inj_list inj_Text) _ _ (field_head h)
  have h := (List.cons.inj h).2
  have e17 : v.contact = w.contact := (inj_list inj_Text) _ _ (field_head h)
  have h := (List.cons.inj h).2
  have e18 : v.description = w.description := (inj_list inj_Text) _ _ (field_head h)
  have h := (List.cons.inj h).2
  have e19 : v.exdate = w.exdate := tells_list (tells_Date hz) _ _ (fun a ha => ⟨hv.exdate a ha, clear_list (l := v.exdate) cv_exdate ha⟩)
    (fun a ha => ⟨hw.exdate a ha, clear_list (l := w.exdate) cw_exdate ha⟩) (field_head h)
  have h := (List.cons.inj h).2
  have e20 : v.relatedTo = w.relatedTo := (inj_list inj_Text) _ _ (field_head h)
  have h := (List.cons.inj h).2
  have e21 : v.rdate = w.rdate := tells_list (tells_RDate hz) _ _ (fun a ha => ⟨hv.rdate a ha, clear_list (l := v.rdate) cv_rdate ha⟩)
    (fun a ha => ⟨hw.rdate a ha, clear_list (l := w.rdate) cw_rdate ha⟩) (field_head h)
  have h := (List.cons.inj h).2
  have e22 : v.rstatus = w.rstatus := (inj_list inj_RequestStatus) _ _ (field_head h)
  have h := (List.cons.inj h).2
  have e23 : v.xProp = w.xProp := tells_ext hv.xProp hw.xProp (field_head h)
  have h := (List.cons.inj h).2
  have e24 : v.ianaProp = w.ianaProp := tells_ext hv.ianaProp hw.ianaProp (field_head h)
  have h := (List.cons.inj h).2
  cases v; cases w; congr 1

theorem tells_Standard (hz : OffsetsWithinADay) : Tells fun v : Standard => ReadStandard v ∧ ClearClock v := by
  intro v w ⟨hv, cv⟩ ⟨hw, cw⟩ h
  have cv : ∀ u ∈ localTimes v.dtstart ++ (localTimes v.rrule ++ (localTimes v.rdate)), u.frac = 0 ∨ Platform.tzOffset u.toSecs % 60 = 0 := cv
  simp only [List.forall_mem_append] at cv
  obtain ⟨cv_dtstart, cv_rrule, cv_rdate⟩ := cv
  have cw : ∀ u ∈ localTimes w.dtstart ++ (localTimes w.rrule ++ (localTimes w.rdate)), u.frac = 0 ∨ Platform.tzOffset u.toSecs % 60 = 0 := cw
  simp only [List.forall_mem_append] at cw
  obtain ⟨cw_dtstart, cw_rrule, cw_rdate⟩ := cw
  have h := (Doc.struct.inj h).2
  have e0 : v.dtstart = w.dtstart := tells_Date hz _ _ ⟨hv.dtstart, cv_dtstart⟩ ⟨hw.dtstart, cw_dtstart⟩ (field_head h)
  have h := (List.cons.inj h).2
  have e1 : v.tzoffsetto = w.tzoffsetto := tells_FixedOffset _ _ hv.tzoffsetto.1 hw.tzoffsetto.1 (field_head h)
  have h := (List.cons.inj h).2
  have e2 : v.tzoffsetfrom = w.tzoffsetfrom := tells_FixedOffset _ _ hv.tzoffsetfrom.1 hw.tzoffsetfrom.1 (field_head h)
  have h := (List.cons.inj h).2
  have e3 : v.rrule = w.rrule := tells_opt (tells_Recur hz) _ _ (fun a ha => ⟨hv.rrule a ha, clear_opt (o := v.rrule) cv_rrule ha⟩)
    (fun a ha => ⟨hw.rrule a ha, clear_opt (o := w.rrule) cw_rrule ha⟩) (field_head h)
  have h := (List.cons.inj h).2
  have e4 : v.comment = w.comment := (inj_list inj_Text) _ _ (field_head h)
  have h := (List.cons.inj h).2
  have e5 : v.rdate = w.rdate := tells_list (tells_RDate hz) _ _ (fun a ha => ⟨hv.rdate a ha, clear_list (l := v.rdate) cv_rdate ha⟩)
    (fun a ha => ⟨hw.rdate a ha, clear_list (l := w.rdate) cw_rdate ha⟩) (field_head h)
  have h := (List.cons.inj h).2
  have e6 : v.tzname = w.tzname := (inj_list inj_Text) _ _ (field_head h)
  have h := (List.cons.inj h).2
  have e7 : v.xProp = w.xProp := tells_ext hv.xProp hw.xProp (field_head h)
  have h := (List.cons.inj h).2
  have e8 : v.ianaProp = w.ianaProp := tells_ext hv.ianaProp hw.ianaProp (field_head h)
  have h := (List.cons.inj h).2
  cases v; cases w; congr 1

theorem tells_Daylight (hz : OffsetsWithinADay) : Tells fun v : Daylight => ReadDaylight v ∧ ClearClock v := by
  intro v w ⟨hv, cv⟩ ⟨hw, cw⟩ h
  have cv : ∀ u ∈ localTimes v.dtstart ++ (localTimes v.rrule ++ (localTimes v.rdate)), u.frac = 0 ∨ Platform.tzOffset u.toSecs % 60 = 0 := cv
  simp only [List.forall_mem_append] at cv
  obtain ⟨cv_dtstart, cv_rrule, cv_rdate⟩ := cv
  have cw : ∀ u ∈ localTimes w.dtstart ++ (localTimes w.rrule ++ (localTimes w.rdate)), u.frac = 0 ∨ Platform.tzOffset u.toSecs % 60 = 0 := cw
  simp only [List.forall_mem_append] at cw
  obtain ⟨cw_dtstart, cw_rrule, cw_rdate⟩ := cw
  have h := (Doc.struct.inj h).2
  have e0 : v.dtstart = w.dtstart := tells_Date hz _ _ ⟨hv.dtstart, cv_dtstart⟩ ⟨hw.dtstart, cw_dtstart⟩ (field_head h)
  have h := (List.cons.inj h).2
  have e1 : v.tzoffsetto = w.tzoffsetto := tells_FixedOffset _ _ hv.tzoffsetto.1 hw.tzoffsetto.1 (field_head h)
  have h := (List.cons.inj h).2
  have e2 : v.tzoffsetfrom = w.tzoffsetfrom := tells_FixedOffset _ _ hv.tzoffsetfrom.1 hw.tzoffsetfrom.1 (field_head h)
  have h := (List.cons.inj h).2
  have e3 : v.rrule = w.rrule := tells_opt (tells_Recur hz) _ _ (fun a ha => ⟨hv.rrule a ha, clear_opt (o := v.rrule) cv_rrule ha⟩)
    (fun a ha => ⟨hw.rrule a ha, clear_opt (o := w.rrule) cw_rrule ha⟩) (field_head h)
  have h := (List.cons.inj h).2
  have e4 : v.comment = w.comment := (inj_list inj_Text) _ _ (field_head h)
  have h := (List.cons.inj h).2
  have e5 : v.rdate = w.rdate := tells_list (tells_RDate hz) _ _ (fun a ha => ⟨hv.rdate a ha, clear_list (l := v.rdate) cv_rdate ha⟩)
    (fun a ha => ⟨hw.rdate a ha, clear_list (l := w.rdate) cw_rdate ha⟩) (field_head h)
  have h := (List.cons.inj h).2
  have e6 : v.tzname = w.tzname := (inj_list inj_Text) _ _ (field_head h)
  have h := (List.cons.inj h).2
  have e7 : v.xProp = w.xProp := tells_ext hv.xProp hw.xProp (field_head h)
  have h := (List.cons.inj h).2
  have e8 : v.ianaProp = w.ianaProp := tells_ext hv.ianaProp hw.ianaProp (field_head h)
  have h := (List.cons.inj h).2
  cases v; cases w; congr 1

theorem tells_VTimezone (hz : OffsetsWithinADay) : Tells fun v : VTimezone => ReadVTimezone v ∧ ClearClock v := by
  intro v w ⟨hv, cv⟩ ⟨hw, cw⟩ h
  have cv : ∀ u ∈ localTimes v.lastModified ++ (localTimes v.standard ++ (localTimes v.daylight)), u.frac = 0 ∨ Platform.tzOffset u.toSecs % 60 = 0 := cv
  simp only [List.forall_mem_append] at cv
  obtain ⟨cv_lastModified, cv_standard, cv_daylight⟩ := cv
  have cw : ∀ u ∈ localTimes w.lastModified ++ (localTimes w.standard ++ (localTimes w.daylight)), u.frac = 0 ∨ Platform.tzOffset u.toSecs % 60 = 0 := cw
  simp only [List.forall_mem_append] at cw
  obtain ⟨cw_lastModified, cw_standard, cw_daylight⟩ := cw
  have h := (Doc.struct.inj h).2
  have e0 : v.tzid = w.tzid := inj_Text _ _ (field_head h)
  have h := (List.cons.inj h).2
  have e1 : v.lastModified = w.lastModified := tells_opt (tells_DateTime hz) _ _ (fun a ha => ⟨hv.lastModified a ha, clear_opt (o := v.lastModified) cv_lastModified ha⟩)
    (fun a ha => ⟨hw.lastModified a ha, clear_opt (o := w.lastModified) cw_lastModified ha⟩) (field_head h)
  have h := (List.cons.inj h).2
  have e2 : v.tzurl = w.tzurl := (inj_opt inj_Uri) _ _ (field_head h)
  have h := (List.cons.inj h).2
  have e3 : v.standard = w.standard := tells_list (tells_Standard hz) _ _ (fun a ha => ⟨hv.standard a ha, clear_list (l := v.standard) cv_standard ha⟩)
    (fun a ha => ⟨hw.standard a ha, clear_list (l := w.standard) cw_standard ha⟩) (field_head h)
  have h := (List.cons.inj h).2
  have e4 : v.daylight = w.daylight := tells_list (tells_Daylight hz) _ _ (fun a ha => ⟨hv.daylight a ha, clear_list (l := v.daylight) cv_daylight ha⟩)
    (fun a ha => ⟨hw.daylight a ha, clear_list (l := w.daylight) cw_daylight ha⟩) (field_head h)
  have h := (List.cons.inj h).2
  have e5 : v.xProp = w.xProp := tells_ext hv.xProp hw.xProp (field_head h)
  have h := (List.cons.inj h).2
  have e6 : v.ianaProp = w.ianaProp := tells_ext hv.ianaProp hw.ianaProp (field_head h)
  have h := (List.cons.inj h).2
  cases v; cases w; congr 1

theorem tells_VTodo (hz : OffsetsWithinADay) : Tells fun v : VTodo => ReadVTodo v ∧ ClearClock v := by
  intro v w ⟨hv, cv⟩ ⟨hw, cw⟩ h
  have cv : ∀ u ∈ localTimes v.dtstamp ++ (localTimes v.completed ++ (localTimes v.created ++ (localTimes v.dtstart ++ (localTimes v.lastModified ++ (localTimes v.recurid ++ (localTimes v.rrule ++ (localTimes v.due ++ (localTimes v.exdate ++ (localTimes v.rdate))))))))), u.frac = 0 ∨ Platform.tzOffset u.toSecs % 60 = 0 := cv
  simp only [List.forall_mem_append] at cv
  obtain ⟨cv_dtstamp, cv_completed, cv_created, cv_dtstart, cv_lastModified, cv_recurid, cv_rrule, cv_due, cv_exdate, cv_rdate⟩ := cv
  have cw : ∀ u ∈ localTimes w.dtstamp ++ (localTimes w.completed ++ (localTimes w.created ++ (localTimes w.dtstart ++ (localTimes w.lastModified ++ (localTimes w.recurid ++ (localTimes w.rrule ++ (localTimes w.due ++ (localTimes w.exdate ++ (localTimes w.rdate))))))))), u.frac = 0 ∨ Platform.tzOffset u.toSecs % 60 = 0 := cw
  simp only [List.forall_mem_append] at cw
  obtain ⟨cw_dtstamp, cw_completed, cw_created, cw_dtstart, cw_lastModified, cw_recurid, cw_rrule, cw_due, cw_exdate, cw_rdate⟩ := cw
  have h := (Doc.struct.inj h).2
  have e0 : v.dtstamp = w.dtstamp := tells_DateTime hz _ _ ⟨hv.dtstamp, cv_dtstamp⟩ ⟨hw.dtstamp, cw_dtstamp⟩ (field_head h)
  have h := (List.cons.inj h).2
  have e1 : v.uid = w.uid := inj_Text _ _ (field_head h)
  have h := (List.cons.inj h).2
  have e2 : v.class_ = w.class_ := (inj_opt inj_Class) _ _ (field_head h)
  have h := (List.cons.inj h).2
  have e3 : v.completed = w.completed := tells_opt (tells_DateTime hz) _ _ (fun a ha => ⟨hv.completed a ha, clear_opt (o := v.completed) cv_completed ha⟩)
    (fun a ha => ⟨hw.completed a ha, clear_opt (o := w.completed) cw_completed ha⟩) (field_head h)
  have h := (List.cons.inj h).2
  have e4 : v.created = w.created := tells_opt (tells_DateTime hz) _ _ (fun a ha => ⟨hv.created a ha, clear_opt (o := v.created) cv_created ha⟩)
    (fun a ha => ⟨hw.created a ha, clear_opt (o := w.created) cw_created ha⟩) (field_head h)
  have h := (List.cons.inj h).2
  have e5 : v.dtstart = w.dtstart := tells_opt (tells_Date hz) _ _ (fun a ha => ⟨hv.dtstart a ha, clear_opt (o := v.dtstart) cv_dtstart ha⟩)
    (fun a ha => ⟨hw.dtstart a ha, clear_opt (o := w.dtstart) cw_dtstart ha⟩) (field_head h)
  have h := (List.cons.inj h).2
  have e6 : v.geo = w.geo := (inj_opt inj_Geo) _ _ (field_head h)
  have h := (List.cons.inj h).2
  have e7 : v.lastModified = w.lastModified := tells_opt (tells_DateTime hz) _ _ (fun a ha => ⟨hv.lastModified a ha, clear_opt (o := v.lastModified) cv_lastModified ha⟩)
    (fun a ha => ⟨hw.lastModified a ha, clear_opt (o := w.lastModified) cw_lastModified ha⟩) (field_head h)
  have h := (List.cons.inj h).2
  have e8 : v.location = w.location := (inj_opt inj_Text) _ _ (field_head h)
  have h := (List.cons.inj h).2
  have e9 : v.organizer = w.organizer := (inj_opt inj_Uri) _ _ (field_head h)
  have h := (List.cons.inj h).2
  have e10 : v.percentComplete = w.percentComplete := (inj_opt inj_Nat) _ _ (field_head h)
  have h := (List.cons.inj h).2
  have e11 : v.priority = w.priority := (inj_opt inj_Nat) _ _ (field_head h)
  have h := (List.cons.inj h).2
  have e12 : v.recurid = w.recurid := tells_opt (tells_Date hz) _ _ (fun a ha => ⟨hv.recurid a ha, clear_opt (o := v.recurid) cv_recurid ha⟩)
    (fun a ha => ⟨hw.recurid a ha, clear_opt (o := w.recurid) cw_recurid ha⟩) (field_head h)
  have h := (List.cons.inj h).2
  have e13 : v.sequence = w.sequence := (inj_opt inj_Nat) _ _ (field_head h)
  have h := (List.cons.inj h).2
  have e14 : v.status = w.status := (inj_opt inj_Status) _ _ (field_head h)
  have h := (List.cons.inj h).2
  have e15 : v.summary = w.summary := (inj_opt inj_Text) _ _ (field_head h)
  have h := (List.cons.inj h).2
  have e16 : v.url = w.url := (inj_opt inj_Uri) _ _ (field_head h)
  have h := (List.cons.inj h).2
  have e17 : v.rrule = w.rrule := tells_opt (tells_Recur hz) _ _ (fun a ha => ⟨hv.rrule a ha, clear_opt (o := v.rrule) cv_rrule ha⟩)
    (fun a ha => ⟨hw.rrule a ha, clear_opt (o := w.rrule) cw_rrule ha⟩) (field_head h)
  have h := (List.cons.inj h).2
  have e18 : v.due = w.due := tells_opt (tells_Date hz) _ _ (fun a ha => ⟨hv.due a ha, clear_opt (o := v.due) cv_due ha⟩)
    (fun a ha => ⟨hw.due a ha, clear_opt (o := w.due) cw_due ha⟩) (field_head h)
  have h := (List.cons.inj h).2
  have e19 : v.duration = w.duration := (inj_opt inj_TimeDelta) _ _ (field_head h)
  have h := (List.cons.inj h).2
  have e20 : v.attach = w.attach := (inj_list inj_Text) _ _ (field_head h)
  have h := (List.cons.inj h).2
  have e21 : v.attendee = w.attendee := (inj_list inj_Uri) _ _ (field_head h)
  have h := (List.cons.inj h).2
  have e22 : v.categories = w.categories := (inj_list inj_Text) _ _ (field_head h)
  have h := (List.cons.inj h).2
  have e23 : v.comment = w.comment := (inj_list inj_Text) _ _ (field_head h)
  have h := (List.cons.inj h).2
  have e24 : v.contact = w.contact := (inj_list inj_Text) _ _ (field_head h)
  have h := (List.cons.inj h).2
  have e25 : v.exdate = w.exdate := tells_list (tells_Date hz) _ _ (fun a ha => ⟨hv.exdate a ha, clear_list (l := v.exdate) cv_exdate ha⟩)
    (fun a ha => ⟨hw.exdate a ha, clear_list (l := w.exdate) cw_exdate ha⟩) (field_head h)
  have h := (List.cons.inj h).2
  have e26 : v.rstatus = w.rstatus := (inj_list inj_RequestStatus) _ _ (field_head h)
  have h := (List.cons.inj h).2
  have e27 : v.relatedTo = w.relatedTo := (inj_list inj_Text) _ _ (field_head h)
  have h := (List.cons.inj h).2
  have e28 : v.resources = w.resources := (inj_list inj_Text) _ _ (field_head h)
  have h := (List.cons.inj h).2
  have e29 : v.rdate = w.rdate := tells_list (tells_RDate hz) _ _ (fun a ha => ⟨hv.rdate a ha, clear_list (l := v.rdate) cv_rdate ha⟩)
    (fun a ha => ⟨hw.rdate a ha, clear_list (l := w.rdate) cw_rdate ha⟩) (field_head h)
  have h := (List.cons.inj h).2
  have e30 : v.xProp = w.xProp := tells_ext hv.xProp hw.xProp (field_head h)
  have h := (List.cons.inj h).2
  have e31 : v.ianaProp = w.ianaProp := tells_ext hv.ianaProp hw.ianaProp (field_head h)
  have h := (List.cons.inj h).2
  cases v; cases w; congr 1

theorem tells_VCalendar (hz : OffsetsWithinADay) : Tells fun v : VCalendar => ReadVCalendar v ∧ ClearClock v := by
  intro v w ⟨hv, cv⟩ ⟨hw, cw⟩ h
  have cv : ∀ u ∈ localTimes v.alarms ++ (localTimes v.events ++ (localTimes v.freebusy ++ (localTimes v.journals ++ (localTimes v.todo ++ (localTimes v.timezones))))), u.frac = 0 ∨ Platform.tzOffset u.toSecs % 60 = 0 := cv
  simp only [List.forall_mem_append] at cv
  obtain ⟨cv_alarms, cv_events, cv_freebusy, cv_journals, cv_todo, cv_timezones⟩ := cv
  have cw : ∀ u ∈ localTimes w.alarms ++ (localTimes w.events ++ (localTimes w.freebusy ++ (localTimes w.journals ++ (localTimes w.todo ++ (localTimes w.timezones))))), u.frac = 0 ∨ Platform.tzOffset u.toSecs % 60 = 0 := cw
  simp only [List.forall_mem_append] at cw
  obtain ⟨cw_alarms, cw_events, cw_freebusy, cw_journals, cw_todo, cw_timezones⟩ := cw
  have h := (Doc.struct.inj h).2
  have e0 : v.prodid = w.prodid := inj_Text _ _ (field_head h)
  have h := (List.cons.inj h).2
  have e1 : v.version = w.version := inj_Text _ _ (field_head h)
  have h := (List.cons.inj h).2
  have e2 : v.calscale = w.calscale := (inj_opt inj_Text) _ _ (field_head h)
  have h := (List.cons.inj h).2
  have e3 : v.method = w.method := (inj_opt inj_Text) _ _ (field_head h)
  have h := (List.cons.inj h).2
  have e4 : v.alarms = w.alarms := tells_list (tells_VAlarm hz) _ _ (fun a ha => ⟨hv.alarms a ha, clear_list (l := v.alarms) cv_alarms ha⟩)
    (fun a ha => ⟨hw.alarms a ha, clear_list (l := w.alarms) cw_alarms ha⟩) (field_head h)
  have h := (List.cons.inj h).2
  have e5 : v.events = w.events := tells_list (tells_VEvent hz) _ _ (fun a ha => ⟨hv.events a ha, clear_list (l := v.events) cv_events ha⟩)
    (fun a ha => ⟨hw.events a ha, clear_list (l := w.events) cw_events ha⟩) (field_head h)
  have h := (List.cons.inj h).2
  have e6 : v.freebusy = w.freebusy := tells_list (tells_VFreebusy hz) _ _ (fun a ha => ⟨hv.freebusy a ha, clear_list (l := v.freebusy) cv_freebusy ha⟩)
    (fun a ha => ⟨hw.freebusy a ha, clear_list (l := w.freebusy) cw_freebusy ha⟩) (field_head h)
  have h := (List.cons.inj h).2
  have e7 : v.journals = w.journals := tells_list (tells_VJournal hz) _ _ (fun a ha => ⟨hv.journals a ha, clear_list (l := v.journals) cv_journals ha⟩)
    (fun a ha => ⟨hw.journals a ha, clear_list (l := w.journals) cw_journals ha⟩) (field_head h)
  have h := (List.cons.inj h).2
  have e8 : v.todo = w.todo := tells_list (tells_VTodo hz) _ _ (fun a ha => ⟨hv.todo a ha, clear_list (l := v.todo) cv_todo ha⟩)
    (fun a ha => ⟨hw.todo a ha, clear_list (l := w.todo) cw_todo ha⟩) (field_head h)
  have h := (List.cons.inj h).2
  have e9 : v.timezones = w.timezones := tells_list (tells_VTimezone hz) _ _ (fun a ha => ⟨hv.timezones a ha, clear_list (l := v.timezones) cv_timezones ha⟩)
    (fun a ha => ⟨hw.timezones a ha, clear_list (l := w.timezones) cw_timezones ha⟩) (field_head h)
  have h := (List.cons.inj h).2
  have e10 : v.xProp = w.xProp := tells_ext hv.xProp hw.xProp (field_head h)
  have h := (List.cons.inj h).2
  have e11 : v.ianaProp = w.ianaProp := tells_ext hv.ianaProp hw.ianaProp (field_head h)
  have h := (List.cons.inj h).2
  cases v; cases w; congr 1

end
end

end Ikal
