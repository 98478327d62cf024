import Verif.Spec.Failing
import Verif.Props.Reading
import Verif.Props.Panic

/-!
# C77: when reading fails, and how
-/

set_option linter.unusedSectionVars false
set_option linter.unusedSimpArgs false

namespace Ikal

open Nom Spec

section
variable [Platform]

/-! ## The value of one line -/

/-- `p` reads exactly the lines that `R` describes and panics exactly on those of `Q`. -/
structure Fails {α : Type} (p : ContentLine → Res α) (R : ContentLine → α → Prop) (Q : ContentLine → Prop) : Prop where
  reads : ReadsAs p R
  panics : ∀ l, p l = .panic ↔ Q l

theorem Fails.never {α : Type} {p : ContentLine → Res α} {R : ContentLine → α → Prop} (h : ReadsAs p R) (hn : ∀ l, p l ≠ .panic) :
    Fails p R Full.Never := ⟨h, fun l => ⟨fun e => hn l e, False.elim⟩⟩

theorem fail_dateTime : Fails dateTimeProp Full.DateTimeLine Full.Never := .never reads_dateTime fun l => (C22_others l).1
theorem fail_date : Fails dateProp Full.DateLine Full.Never := .never reads_date fun l => (C22_others l).2.1
theorem fail_number : Fails u32Prop Full.NumberLine Full.Never := .never reads_number fun l => (C22_others l).2.2.1
theorem fail_percent : Fails percentComplete Full.PercentLine Full.Never := .never reads_percent fun l => (C22_others l).2.2.2.1
theorem fail_priority : Fails priority Full.PriorityLine Full.Never := .never reads_priority fun l => (C22_others l).2.2.2.2.1
theorem fail_status : Fails status Full.StatusLine Full.Never := .never reads_status fun l => (C22_others l).2.2.2.2.2.1
theorem fail_transparency : Fails transp Full.TransparencyLine Full.Never :=
  .never reads_transparency fun l => (C22_others l).2.2.2.2.2.2.1
theorem fail_class : Fails classProp Full.ClassLine Full.Never := .never reads_class fun l => (C22_others l).2.2.2.2.2.2.2.1
theorem fail_text : Fails textProp Full.TextLine Full.Never := .never reads_text fun l => (C22_others l).2.2.2.2.2.2.2.2.1
theorem fail_uri : Fails uriProp Full.UriLine Full.Never := .never reads_uri fun l => (C22_others l).2.2.2.2.2.2.2.2.2.1
theorem fail_texts : Fails textListProp Full.TextsLine Full.Never := .never reads_texts fun l => (C22_others l).2.2.2.2.2.2.2.2.2.2.1
theorem fail_offset : Fails offsetProp Full.OffsetLine Full.Never := .never reads_offset fun l => (C22_others l).2.2.2.2.2.2.2.2.2.2.2.1
theorem fail_dates : Fails exdate Full.DatesLine Full.Never := .never reads_dates fun l => (C22_others l).2.2.2.2.2.2.2.2.2.2.2.2.1
theorem fail_geo : Fails geo Full.GeoLine Full.Never := .never reads_geo fun l => (C22_others l).2.2.2.2.2.2.2.2.2.2.2.2.2.1
theorem fail_rstatus : Fails rstatus Full.RequestStatusLine Full.Never :=
  .never reads_rstatus fun l => (C22_others l).2.2.2.2.2.2.2.2.2.2.2.2.2.2
theorem fail_duration : Fails duration Full.DurationLine Full.DurationPanics := ⟨reads_duration, C22_duration⟩
theorem fail_trigger : Fails trigger Full.TriggerLine Full.DurationPanics :=
  ⟨reads_trigger, fun l => (C22_trigger l).trans (C22_duration l)⟩
theorem fail_rule : Fails rrule Full.RuleLine Full.RulePanics := ⟨reads_rule, C22_rule_panics⟩

theorem badPeriod_iff (s : Str) : period s = .panic ↔ Full.BadPeriod s := by
  rw [C22_period]
  have hd : ∀ s t, (dateTime s).toRes = .ok t ↔ DateTimeValue s t := fun s t => C70_date_time_value (ContentLine.ofValue s) t
  have ht : ∀ b, duration (ContentLine.ofValue b) = .panic ↔ Full.TooLong b := fun b => C22_duration (ContentLine.ofValue b)
  unfold Full.BadPeriod
  simp only [hd, ht]

theorem periodsPanic_iff (l : ContentLine) : Full.PeriodsPanic l ↔
    ∃ a s b, splitOn ',' l.value = a ++ s :: b ∧ (∀ y ∈ a, ∃ v, period y = .ok v) ∧ period s = .panic := by
  unfold Full.PeriodsPanic
  simp only [badPeriod_iff, pieces_iff, C70_period]
  constructor
  · rintro ⟨a, s, b, e, h⟩; exact ⟨a, s, b, e.symm, h⟩
  · rintro ⟨a, s, b, e, h⟩; exact ⟨a, s, b, e.symm, h⟩

theorem fail_periods : Fails freebusy Full.PeriodsLine Full.PeriodsPanic := ⟨reads_periods, fun l => by
  rw [(C22_lists l _ (pieces_iff.2 rfl)).1, periodsPanic_iff]⟩
theorem fail_rdate : Fails rdate Full.RDateLine Full.RDatePanics := ⟨reads_rdate, fun l => by
  rw [(C22_lists l _ (pieces_iff.2 rfl)).2, Full.RDatePanics, periodsPanic_iff]⟩

/-! ## Properties -/

/-- The fields of a component are described by a list of properties of different names. -/
inductive Describes : List Field → List Full.Property → Prop
  | nil : Describes [] []
  | nested {n : Str} {α : Type} {s : Ser α} {fs : List Field} {ps : List Full.Property} : Describes fs ps → Describes (.nested n α s :: fs) ps
  | req {n : Str} {α : Type} {s : Ser α} {p : ContentLine → Res α} {R : ContentLine → α → Prop} {Q : ContentLine → Prop}
      {fs : List Field} {ps : List Full.Property} : Fails p R Q → n ∉ ps.map (·.name) → Describes fs ps →
      Describes (.req n α s p :: fs) (Full.required n R Q :: ps)
  | opt {n : Str} {α : Type} {s : Ser α} {p : ContentLine → Res α} {R : ContentLine → α → Prop} {Q : ContentLine → Prop}
      {fs : List Field} {ps : List Full.Property} : Fails p R Q → n ∉ ps.map (·.name) → Describes fs ps →
      Describes (.opt n α s p :: fs) (Full.other n R Q :: ps)
  | push {n : Str} {α : Type} {s : Ser α} {p : ContentLine → Res α} {R : ContentLine → α → Prop} {Q : ContentLine → Prop}
      {fs : List Field} {ps : List Full.Property} : Fails p R Q → n ∉ ps.map (·.name) → Describes fs ps →
      Describes (.push n α s p :: fs) (Full.other n R Q :: ps)
  | append {n : Str} {α : Type} {s : Ser α} {p : ContentLine → Res (List α)} {R : ContentLine → List α → Prop} {Q : ContentLine → Prop}
      {fs : List Field} {ps : List Full.Property} : Fails p R Q → n ∉ ps.map (·.name) → Describes fs ps →
      Describes (.append n α s p :: fs) (Full.other n R Q :: ps)

/-- Finding the first that is not fine. -/
theorem first_iff {α : Type} {A B : α → Prop} {x : α} {xs : List α} :
    (∃ before p after, x :: xs = before ++ p :: after ∧ (∀ q ∈ before, A q) ∧ B p) ↔
      B x ∨ (A x ∧ ∃ before p after, xs = before ++ p :: after ∧ (∀ q ∈ before, A q) ∧ B p) := by
  constructor
  · rintro ⟨before, p, after, e, h1, h2⟩
    cases before with
    | nil => simp at e; obtain ⟨rfl, rfl⟩ := e; exact .inl h2
    | cons y before =>
      simp at e; obtain ⟨rfl, rfl⟩ := e
      exact .inr ⟨h1 _ (by simp), before, p, after, rfl, fun q hq => h1 q (by simp [hq]), h2⟩
  · rintro (h | ⟨ha, before, p, after, rfl, h1, h2⟩)
    · exact ⟨[], x, xs, rfl, by simp, h⟩
    · exact ⟨x :: before, p, after, rfl, by simpa [ha] using h1, h2⟩

/-- A required property makes reading panic. -/
def InitBad (ls : List ContentLine) (p : Full.Property) : Prop := p.required ∧ ∃ l, lastNamed p.name ls = some l ∧ p.Panics l

/-- A property is not required, or it is given. -/
def InitFine (ls : List ContentLine) (p : Full.Property) : Prop := p.required → p.Given ls

theorem init_iff {fs : List Field} {ps : List Full.Property} (h : Describes fs ps) (ls : List ContentLine) :
    (Slots.init fs ls = .panic ↔ ∃ before p after, ps = before ++ p :: after ∧ (∀ q ∈ before, InitFine ls q) ∧ InitBad ls p) ∧
    ((∃ s, Slots.init fs ls = .ok s) ↔ ∀ q ∈ ps, InitFine ls q) := by
  induction h with
  | nil => simp [Slots.init]
  | @nested n α s fs ps h ih =>
    obtain ⟨ih1, ih2⟩ := ih
    rw [← ih1, ← ih2]
    simp only [Slots.init, Field.initField]
    cases Slots.init fs ls <;> simp [pure]
  | @req n α s p R Q fs ps hf hn h ih =>
    obtain ⟨ih1, ih2⟩ := ih
    rw [first_iff, ← ih1, List.forall_mem_cons, ← ih2]
    have hg : (Full.required n R Q).Given ls ↔ ∃ l, Field.lastLine n ls = some l ∧ ∃ v, p l = .ok v := by
      unfold Full.Property.Given Full.required
      simp only [hf.reads _ _]; rfl
    have hb : InitBad ls (Full.required n R Q) ↔ ∃ l, Field.lastLine n ls = some l ∧ p l = .panic := by
      unfold InitBad Full.required
      simp only [hf.panics, true_and]; rfl
    have hr : (Full.required n R Q).required = True := rfl
    unfold InitFine
    rw [hr, hg, hb]
    simp only [Slots.init, Field.initField]
    cases hl : Field.lastLine n ls with
    | none => simp
    | some l =>
      cases hp : p l with
      | panic => simp [hp]
      | err e => simp [hp]
      | ok v => cases hi : Slots.init fs ls <;> simp [hp, pure]
  | @opt n α s p R Q fs ps hf hn h ih =>
    obtain ⟨ih1, ih2⟩ := ih
    rw [first_iff, ← ih1, List.forall_mem_cons, ← ih2]
    have hr : (Full.other n R Q).required = False := rfl
    simp only [InitBad, InitFine, hr, false_and, false_or, false_implies, true_and]
    simp only [Slots.init, Field.initField]
    cases Slots.init fs ls <;> simp [pure]
  | @push n α s p R Q fs ps hf hn h ih =>
    obtain ⟨ih1, ih2⟩ := ih
    rw [first_iff, ← ih1, List.forall_mem_cons, ← ih2]
    have hr : (Full.other n R Q).required = False := rfl
    simp only [InitBad, InitFine, hr, false_and, false_or, false_implies, true_and]
    simp only [Slots.init, Field.initField]
    cases Slots.init fs ls <;> simp [pure]
  | @append n α s p R Q fs ps hf hn h ih =>
    obtain ⟨ih1, ih2⟩ := ih
    rw [first_iff, ← ih1, List.forall_mem_cons, ← ih2]
    have hr : (Full.other n R Q).required = False := rfl
    simp only [InitBad, InitFine, hr, false_and, false_or, false_implies, true_and]
    simp only [Slots.init, Field.initField]
    cases Slots.init fs ls <;> simp [pure]

/-- The line makes reading panic. -/
def LineBad (ps : List Full.Property) (l : ContentLine) : Prop := ∃ p ∈ ps, ¬ p.required ∧ l.key = p.name ∧ p.Panics l

theorem lineBad_cons {p : Full.Property} {ps : List Full.Property} {l : ContentLine} :
    LineBad (p :: ps) l ↔ (¬ p.required ∧ l.key = p.name ∧ p.Panics l) ∨ LineBad ps l := by
  unfold LineBad; simp

theorem lineFine_cons {p : Full.Property} {ps : List Full.Property} {l : ContentLine} :
    Full.LineFine (p :: ps) l ↔ (¬ p.required → l.key = p.name → p.Readable l) ∧ Full.LineFine ps l := by
  unfold Full.LineFine; simp

theorem not_lineBad {n : Str} {ps : List Full.Property} {l : ContentLine} (hn : n ∉ ps.map (·.name)) (hk : l.key = n) : ¬ LineBad ps l := by
  rintro ⟨p, h1, _, h2, _⟩
  exact hn (List.mem_map.2 ⟨p, h1, by rw [← h2, hk]⟩)

theorem lineFine_of {n : Str} {ps : List Full.Property} {l : ContentLine} (hn : n ∉ ps.map (·.name)) (hk : l.key = n) : Full.LineFine ps l := by
  intro p h1 _ h2
  exact absurd (List.mem_map.2 ⟨p, h1, by rw [← h2, hk]⟩) hn

theorem map_iff {α β : Type} (x : Res α) (f : α → β) : (x.map f = .panic ↔ x = .panic) ∧ ((∃ b, x.map f = .ok b) ↔ ∃ a, x = .ok a) := by
  cases x <;> simp

theorem step_iff {fs : List Field} {ps : List Full.Property} (h : Describes fs ps) (l : ContentLine) (s : Slots fs) :
    (Slots.step fs l s = .panic ↔ LineBad ps l) ∧ ((∃ o, Slots.step fs l s = .ok o) ↔ Full.LineFine ps l) := by
  induction h with
  | nil => simp [Slots.step, LineBad, Full.LineFine]
  | @nested n α s' fs ps h ih =>
    obtain ⟨v, vs⟩ := s
    obtain ⟨ih1, ih2⟩ := ih vs
    rw [← ih1, ← ih2]
    simp only [Slots.step, Field.parsed, Bool.false_eq_true, false_and, if_false]
    exact map_iff _ _
  | @req n α s' p R Q fs ps hf hn h ih =>
    obtain ⟨v, vs⟩ := s
    obtain ⟨ih1, ih2⟩ := ih vs
    have hr : (Full.required n R Q).required = True := rfl
    rw [lineBad_cons, lineFine_cons, hr]
    simp only [not_true_eq_false, false_and, false_or, false_implies, true_and]
    simp only [Slots.step, Field.parsed, Field.name, true_and]
    by_cases hk : l.key = n
    · simp [hk, Field.stepField, not_lineBad hn hk, lineFine_of hn hk]
    · rw [if_neg hk, ← ih1, ← ih2]
      exact map_iff _ _
  | @opt n α s' p R Q fs ps hf hn h ih =>
    obtain ⟨v, vs⟩ := s
    obtain ⟨ih1, ih2⟩ := ih vs
    have hr : ¬ (Full.other n R Q).required := id
    have hb : (Full.other n R Q).Panics l ↔ p l = .panic := (hf.panics l).symm
    have hg : (Full.other n R Q).Readable l ↔ ∃ v, p l = .ok v := by
      simp only [hf.reads l _]; rfl
    rw [lineBad_cons, lineFine_cons, hb, hg]
    simp only [hr, not_false_eq_true, true_and, true_implies]
    simp only [Slots.step, Field.parsed, Field.name, true_and]
    have hm : (Full.other n R Q).name = n := rfl
    rw [hm]
    by_cases hk : l.key = n
    · simp only [hk, if_true, Field.stepField, not_lineBad hn hk, lineFine_of hn hk, or_false, and_true, true_and, true_implies]
      cases p l <;> simp
    · rw [if_neg hk, ← ih1, ← ih2]
      simp only [hk, false_and, false_or, false_implies, true_and]
      exact map_iff _ _
  | @push n α s' p R Q fs ps hf hn h ih =>
    obtain ⟨v, vs⟩ := s
    obtain ⟨ih1, ih2⟩ := ih vs
    have hr : ¬ (Full.other n R Q).required := id
    have hb : (Full.other n R Q).Panics l ↔ p l = .panic := (hf.panics l).symm
    have hg : (Full.other n R Q).Readable l ↔ ∃ v, p l = .ok v := by
      simp only [hf.reads l _]; rfl
    rw [lineBad_cons, lineFine_cons, hb, hg]
    simp only [hr, not_false_eq_true, true_and, true_implies]
    simp only [Slots.step, Field.parsed, Field.name, true_and]
    have hm : (Full.other n R Q).name = n := rfl
    rw [hm]
    by_cases hk : l.key = n
    · simp only [hk, if_true, Field.stepField, not_lineBad hn hk, lineFine_of hn hk, or_false, and_true, true_and, true_implies]
      cases p l <;> simp
    · rw [if_neg hk, ← ih1, ← ih2]
      simp only [hk, false_and, false_or, false_implies, true_and]
      exact map_iff _ _
  | @append n α s' p R Q fs ps hf hn h ih =>
    obtain ⟨v, vs⟩ := s
    obtain ⟨ih1, ih2⟩ := ih vs
    have hr : ¬ (Full.other n R Q).required := id
    have hb : (Full.other n R Q).Panics l ↔ p l = .panic := (hf.panics l).symm
    have hg : (Full.other n R Q).Readable l ↔ ∃ v, p l = .ok v := by
      simp only [hf.reads l _]; rfl
    rw [lineBad_cons, lineFine_cons, hb, hg]
    simp only [hr, not_false_eq_true, true_and, true_implies]
    simp only [Slots.step, Field.parsed, Field.name, true_and]
    have hm : (Full.other n R Q).name = n := rfl
    rw [hm]
    by_cases hk : l.key = n
    · simp only [hk, if_true, Field.stepField, not_lineBad hn hk, lineFine_of hn hk, or_false, and_true, true_and, true_implies]
      cases p l <;> simp
    · rw [if_neg hk, ← ih1, ← ih2]
      simp only [hk, false_and, false_or, false_implies, true_and]
      exact map_iff _ _

theorem compStep_iff {fs : List Field} {ps : List Full.Property} (h : Describes fs ps) (l : ContentLine) (c : Comp fs) :
    (Comp.step c l = .panic ↔ LineBad ps l) ∧ ((∃ c', Comp.step c l = .ok c') ↔ Full.LineFine ps l) := by
  obtain ⟨h1, h2⟩ := step_iff h l c.slots
  rw [← h1, ← h2]
  unfold Comp.step
  cases hx : Slots.step fs l c.slots with
  | panic => simp
  | err e => simp
  | ok o =>
    simp only [Res.bind_ok]
    cases o with
    | some s => simp [pure]
    | none => simp only []; split <;> simp [pure]

theorem loop_iff {fs : List Field} {ps : List Full.Property} (h : Describes fs ps) (ls : List ContentLine) (c : Comp fs) :
    Comp.loop c ls = .panic ↔ ∃ before l after, ls = before ++ l :: after ∧ (∀ l' ∈ before, Full.LineFine ps l') ∧ LineBad ps l := by
  induction ls generalizing c with
  | nil => simp [Comp.loop]
  | cons l ls ih =>
    obtain ⟨h1, h2⟩ := compStep_iff h l c
    rw [first_iff, ← h1, ← h2]
    unfold Comp.loop
    cases hs : Comp.step c l with
    | panic => simp
    | err e => simp
    | ok c' =>
      have := ih c'
      simpa using this

theorem linesPanic_iff {fs : List Field} {ps : List Full.Property} (h : Describes fs ps) {α : Type} (conv : Comp fs → α)
    (ls : List ContentLine) : (Comp.tryFrom fs ls).map conv = .panic ↔ Full.LinesPanic ps ls := by
  obtain ⟨h1, h2⟩ := init_iff h ls
  have e : Full.LinesPanic ps ls ↔
      (∃ before p after, ps = before ++ p :: after ∧ (∀ q ∈ before, InitFine ls q) ∧ InitBad ls p) ∨
      ((∀ q ∈ ps, InitFine ls q) ∧
        ∃ before l after, ls = before ++ l :: after ∧ (∀ l' ∈ before, Full.LineFine ps l') ∧ LineBad ps l) := by
    unfold Full.LinesPanic InitBad LineBad
    refine or_congr ?_ (and_congr Iff.rfl ?_)
    · constructor
      · rintro ⟨b, p, a, l, h1, h2, h3, h4⟩; exact ⟨b, p, a, h1, h2, h3, l, h4⟩
      · rintro ⟨b, p, a, h1, h2, h3, l, h4⟩; exact ⟨b, p, a, l, h1, h2, h3, h4⟩
    · constructor
      · rintro ⟨b, l, a, p, h1, h2, h3⟩; exact ⟨b, l, a, h1, h2, p, h3⟩
      · rintro ⟨b, l, a, h1, h2, p, h3⟩; exact ⟨b, l, a, p, h1, h2, h3⟩
  rw [e, ← h1, ← h2, (map_iff _ _).1]
  unfold Comp.tryFrom
  cases hi : Slots.init fs ls with
  | panic => simp
  | err e => simp
  | ok s =>
    have := loop_iff h ls ⟨s, [], []⟩
    simpa using this

/-! ## The properties of each component -/

theorem describes_Audio : Describes Audio.fields Full.audioProperties :=
  .req fail_text (by simp [Full.required, Full.other]) <|
    .req fail_trigger (by simp [Full.required, Full.other]) <|
    .opt fail_duration (by simp [Full.required, Full.other]) <|
    .opt fail_number (by simp [Full.required, Full.other]) <|
    .push fail_text (by simp [Full.required, Full.other]) <|
    .nil

theorem describes_Display : Describes Display.fields Full.displayProperties :=
  .req fail_text (by simp [Full.required, Full.other]) <|
    .req fail_trigger (by simp [Full.required, Full.other]) <|
    .req fail_text (by simp [Full.required, Full.other]) <|
    .opt fail_duration (by simp [Full.required, Full.other]) <|
    .opt fail_number (by simp [Full.required, Full.other]) <|
    .nil

theorem describes_Email : Describes Email.fields Full.emailProperties :=
  .req fail_text (by simp [Full.required, Full.other]) <|
    .req fail_trigger (by simp [Full.required, Full.other]) <|
    .req fail_text (by simp [Full.required, Full.other]) <|
    .req fail_text (by simp [Full.required, Full.other]) <|
    .push fail_uri (by simp [Full.required, Full.other]) <|
    .opt fail_duration (by simp [Full.required, Full.other]) <|
    .opt fail_number (by simp [Full.required, Full.other]) <|
    .push fail_text (by simp [Full.required, Full.other]) <|
    .nil

theorem describes_VEvent : Describes VEvent.fields Full.vEventProperties :=
  .req fail_dateTime (by simp [Full.required, Full.other]) <|
    .req fail_text (by simp [Full.required, Full.other]) <|
    .req fail_date (by simp [Full.required, Full.other]) <|
    .opt fail_class (by simp [Full.required, Full.other]) <|
    .opt fail_dateTime (by simp [Full.required, Full.other]) <|
    .opt fail_text (by simp [Full.required, Full.other]) <|
    .opt fail_geo (by simp [Full.required, Full.other]) <|
    .opt fail_dateTime (by simp [Full.required, Full.other]) <|
    .opt fail_text (by simp [Full.required, Full.other]) <|
    .opt fail_uri (by simp [Full.required, Full.other]) <|
    .opt fail_priority (by simp [Full.required, Full.other]) <|
    .opt fail_number (by simp [Full.required, Full.other]) <|
    .opt fail_status (by simp [Full.required, Full.other]) <|
    .opt fail_text (by simp [Full.required, Full.other]) <|
    .opt fail_transparency (by simp [Full.required, Full.other]) <|
    .opt fail_uri (by simp [Full.required, Full.other]) <|
    .opt fail_date (by simp [Full.required, Full.other]) <|
    .opt fail_rule (by simp [Full.required, Full.other]) <|
    .opt fail_date (by simp [Full.required, Full.other]) <|
    .opt fail_duration (by simp [Full.required, Full.other]) <|
    .push fail_text (by simp [Full.required, Full.other]) <|
    .push fail_uri (by simp [Full.required, Full.other]) <|
    .append fail_texts (by simp [Full.required, Full.other]) <|
    .push fail_text (by simp [Full.required, Full.other]) <|
    .push fail_text (by simp [Full.required, Full.other]) <|
    .append fail_dates (by simp [Full.required, Full.other]) <|
    .push fail_rstatus (by simp [Full.required, Full.other]) <|
    .push fail_text (by simp [Full.required, Full.other]) <|
    .append fail_texts (by simp [Full.required, Full.other]) <|
    .push fail_rdate (by simp [Full.required, Full.other]) <|
    .nested .nil

theorem describes_VFreebusy : Describes VFreebusy.fields Full.vFreebusyProperties :=
  .req fail_dateTime (by simp [Full.required, Full.other]) <|
    .req fail_text (by simp [Full.required, Full.other]) <|
    .opt fail_text (by simp [Full.required, Full.other]) <|
    .opt fail_date (by simp [Full.required, Full.other]) <|
    .opt fail_date (by simp [Full.required, Full.other]) <|
    .opt fail_uri (by simp [Full.required, Full.other]) <|
    .opt fail_uri (by simp [Full.required, Full.other]) <|
    .push fail_uri (by simp [Full.required, Full.other]) <|
    .push fail_text (by simp [Full.required, Full.other]) <|
    .append fail_periods (by simp [Full.required, Full.other]) <|
    .push fail_rstatus (by simp [Full.required, Full.other]) <|
    .nil

theorem describes_VJournal : Describes VJournal.fields Full.vJournalProperties :=
  .req fail_dateTime (by simp [Full.required, Full.other]) <|
    .req fail_text (by simp [Full.required, Full.other]) <|
    .opt fail_class (by simp [Full.required, Full.other]) <|
    .opt fail_dateTime (by simp [Full.required, Full.other]) <|
    .req fail_date (by simp [Full.required, Full.other]) <|
    .opt fail_dateTime (by simp [Full.required, Full.other]) <|
    .opt fail_uri (by simp [Full.required, Full.other]) <|
    .opt fail_date (by simp [Full.required, Full.other]) <|
    .opt fail_number (by simp [Full.required, Full.other]) <|
    .opt fail_status (by simp [Full.required, Full.other]) <|
    .opt fail_text (by simp [Full.required, Full.other]) <|
    .opt fail_uri (by simp [Full.required, Full.other]) <|
    .opt fail_rule (by simp [Full.required, Full.other]) <|
    .push fail_text (by simp [Full.required, Full.other]) <|
    .push fail_uri (by simp [Full.required, Full.other]) <|
    .append fail_texts (by simp [Full.required, Full.other]) <|
    .push fail_text (by simp [Full.required, Full.other]) <|
    .push fail_text (by simp [Full.required, Full.other]) <|
    .push fail_text (by simp [Full.required, Full.other]) <|
    .append fail_dates (by simp [Full.required, Full.other]) <|
    .push fail_text (by simp [Full.required, Full.other]) <|
    .push fail_rdate (by simp [Full.required, Full.other]) <|
    .push fail_rstatus (by simp [Full.required, Full.other]) <|
    .nil

theorem describes_Standard : Describes Standard.fields Full.standardProperties :=
  .req fail_date (by simp [Full.required, Full.other]) <|
    .req fail_offset (by simp [Full.required, Full.other]) <|
    .req fail_offset (by simp [Full.required, Full.other]) <|
    .opt fail_rule (by simp [Full.required, Full.other]) <|
    .push fail_text (by simp [Full.required, Full.other]) <|
    .push fail_rdate (by simp [Full.required, Full.other]) <|
    .push fail_text (by simp [Full.required, Full.other]) <|
    .nil

theorem describes_Daylight : Describes Daylight.fields Full.daylightProperties :=
  .req fail_date (by simp [Full.required, Full.other]) <|
    .req fail_offset (by simp [Full.required, Full.other]) <|
    .req fail_offset (by simp [Full.required, Full.other]) <|
    .opt fail_rule (by simp [Full.required, Full.other]) <|
    .push fail_text (by simp [Full.required, Full.other]) <|
    .push fail_rdate (by simp [Full.required, Full.other]) <|
    .push fail_text (by simp [Full.required, Full.other]) <|
    .nil

theorem describes_VTimezone : Describes VTimezone.fields Full.vTimezoneProperties :=
  .req fail_text (by simp [Full.required, Full.other]) <|
    .opt fail_dateTime (by simp [Full.required, Full.other]) <|
    .opt fail_uri (by simp [Full.required, Full.other]) <|
    .nested (.nested .nil)

theorem describes_VTodo : Describes VTodo.fields Full.vTodoProperties :=
  .req fail_dateTime (by simp [Full.required, Full.other]) <|
    .req fail_text (by simp [Full.required, Full.other]) <|
    .opt fail_class (by simp [Full.required, Full.other]) <|
    .opt fail_dateTime (by simp [Full.required, Full.other]) <|
    .opt fail_dateTime (by simp [Full.required, Full.other]) <|
    .opt fail_date (by simp [Full.required, Full.other]) <|
    .opt fail_geo (by simp [Full.required, Full.other]) <|
    .opt fail_dateTime (by simp [Full.required, Full.other]) <|
    .opt fail_text (by simp [Full.required, Full.other]) <|
    .opt fail_uri (by simp [Full.required, Full.other]) <|
    .opt fail_percent (by simp [Full.required, Full.other]) <|
    .opt fail_priority (by simp [Full.required, Full.other]) <|
    .opt fail_date (by simp [Full.required, Full.other]) <|
    .opt fail_number (by simp [Full.required, Full.other]) <|
    .opt fail_status (by simp [Full.required, Full.other]) <|
    .opt fail_text (by simp [Full.required, Full.other]) <|
    .opt fail_uri (by simp [Full.required, Full.other]) <|
    .opt fail_rule (by simp [Full.required, Full.other]) <|
    .opt fail_date (by simp [Full.required, Full.other]) <|
    .opt fail_duration (by simp [Full.required, Full.other]) <|
    .push fail_text (by simp [Full.required, Full.other]) <|
    .push fail_uri (by simp [Full.required, Full.other]) <|
    .append fail_texts (by simp [Full.required, Full.other]) <|
    .push fail_text (by simp [Full.required, Full.other]) <|
    .push fail_text (by simp [Full.required, Full.other]) <|
    .append fail_dates (by simp [Full.required, Full.other]) <|
    .push fail_rstatus (by simp [Full.required, Full.other]) <|
    .push fail_text (by simp [Full.required, Full.other]) <|
    .append fail_texts (by simp [Full.required, Full.other]) <|
    .push fail_rdate (by simp [Full.required, Full.other]) <|
    .nil

theorem describes_VCalendar : Describes VCalendar.fields Full.vCalendarProperties :=
  .req fail_text (by simp [Full.required, Full.other]) <|
    .req fail_text (by simp [Full.required, Full.other]) <|
    .opt fail_text (by simp [Full.required, Full.other]) <|
    .opt fail_text (by simp [Full.required, Full.other]) <|
    .nested (.nested (.nested (.nested (.nested (.nested .nil)))))

/-! ## Documents -/

theorem leaf_panic {α : Type} {name : Str} {conv : List ContentLine → Res α} {Q : List ContentLine → Prop} (hc : ∀ ls, conv ls = .panic ↔ Q ls)
    (i : Str) : componentP name conv i = .panic ↔ ∃ ls r, LeafText name i ls r ∧ Q ls := by
  unfold componentP
  rw [mapRes_panic]
  constructor
  · rintro (h | ⟨r, ls, h1, h2⟩)
    · simp [delimited, preceded, terminated, pair_panic, contentLines_not_panic] at h
    · simp only [delimited_ok, tag_ok, contentLines_ok] at h1
      obtain ⟨body, _, r2, _, ⟨rfl, -⟩, h3, rfl, -⟩ := h1
      exact ⟨ls, r, ⟨body, rfl, h3⟩, (hc ls).1 h2⟩
  · rintro ⟨ls, r, ⟨body, rfl, h3⟩, h2⟩
    refine .inr ⟨r, ls, ?_, (hc ls).2 h2⟩
    simp only [delimited_ok, tag_ok, contentLines_ok]
    exact ⟨body, _, _, _, ⟨rfl, rfl⟩, h3, rfl, rfl⟩

theorem many0_panic {α : Type} {p : P α} {T : Str → α → Str → Prop} (h : ∀ i r a, p i = .ok r a ↔ T i a r) (hl : Local p) (i : Str) :
    many0 p i = .panic ↔ ∃ as r, SeqText T i as r ∧ p r = .panic := by
  have key : ∀ n i, i.length < n → (many0Go p n i = .panic ↔ ∃ as r, SeqText T i as r ∧ p r = .panic) := by
    intro n
    induction n with
    | zero => intro i hi; omega
    | succ n ih =>
      intro i hi
      simp only [many0Go]
      cases hp : p i with
      | panic => simp only [true_iff]; exact ⟨[], i, .nil, hp⟩
      | err =>
        simp only [reduceCtorEq, false_iff]
        rintro ⟨as, r, hs, hr⟩
        cases hs with
        | nil => rw [hp] at hr; cases hr
        | cons h1 _ => rw [(h _ _ _).2 h1] at hp; cases hp
      | ok r1 a =>
        obtain ⟨c, hc, _, rfl, _⟩ := hl _ _ _ hp
        have hlen := List.length_pos_iff.2 hc
        have hlt : r1.length < (c ++ r1).length := by simp; omega
        simp only [hlt, if_true]
        have hi := ih r1 (by omega)
        have e : (∃ as r, SeqText T (c ++ r1) as r ∧ p r = .panic) ↔ ∃ as r, SeqText T r1 as r ∧ p r = .panic := by
          constructor
          · rintro ⟨as, r, hs, hr⟩
            cases hs with
            | nil => rw [hp] at hr; cases hr
            | cons h1 h2 =>
              have h1 := (h _ _ _).2 h1
              rw [hp] at h1; simp at h1
              exact ⟨_, r, h1.1 ▸ h2, hr⟩
          · rintro ⟨as, r, hs, hr⟩
            exact ⟨a :: as, r, .cons ((h _ _ _).1 hp) hs, hr⟩
        rw [e, ← hi]
        cases many0Go p n r1 <;> simp
  exact key _ i (by omega)

theorem block_panic {α γ : Type} {o e : Str} {q : P α} {T : Str → α → Str → Prop} {f : List ContentLine × List α → Res γ}
    (h : ∀ i r a, q i = .ok r a ↔ T i a r) (hl : Local q) (hf : FailsAtEnd q) (he : c!"END:" <+: e) {Q : Str → Prop}
    (hq : ∀ i, q i = .panic ↔ Q i) {ps : List Full.Property} (hc : ∀ ls as, f (ls, as) = .panic ↔ Full.LinesPanic ps ls) (i : Str) :
    mapRes (delimited (tag o) (pair contentLines (many0 q)) (tag e)) f i = .panic ↔ Full.BlockPanics o e T Q ps i := by
  rw [mapRes_panic]
  unfold Full.BlockPanics
  constructor
  · rintro (h' | ⟨r, ⟨ls, as⟩, h1, h2⟩)
    · simp only [delimited, preceded, terminated, map_panic, pair_panic, contentLines_not_panic, contentLines_ok, tag_ok, map_ok, pair_ok,
        tag_panic, false_or, or_false, exists_false, and_false] at h'
      obtain ⟨r1, _, ⟨rfl, -⟩, r2, ls, h2, h3⟩ := h'
      obtain ⟨as, r, h4, h5⟩ := (many0_panic h hl _).1 h3
      exact ⟨r1, ls, r2, rfl, h2, .inl ⟨as, r, h4, (hq r).1 h5⟩⟩
    · simp only [delimited_ok, tag_ok, pair_ok, contentLines_ok, many0_ok] at h1
      obtain ⟨body, _, r2, _, ⟨rfl, -⟩, ⟨r3, h3, h4⟩, rfl, -⟩ := h1
      exact ⟨body, ls, r3, rfl, h3, .inr ⟨as, r, seqText_of_many h h4, (hc ls as).1 h2⟩⟩
  · rintro ⟨body, ls, r1, rfl, h1, ⟨as, r2, h2, h3⟩ | ⟨as, r, h2, h3⟩⟩
    · left
      simp only [delimited, preceded, terminated, map_panic, pair_panic, contentLines_not_panic, contentLines_ok, tag_ok, map_ok, pair_ok,
        tag_panic, false_or, or_false, exists_false, and_false]
      exact ⟨body, _, ⟨rfl, rfl⟩, r1, ls, h1, (many0_panic h hl _).2 ⟨as, r2, h2, (hq r2).2 h3⟩⟩
    · right
      refine ⟨r, (ls, as), ?_, (hc ls as).2 h3⟩
      simp only [delimited_ok, tag_ok, pair_ok, contentLines_ok, many0_ok]
      exact ⟨body, _, _, _, ⟨rfl, rfl⟩, ⟨r1, h1, many_of_seqText h hl hf h2 (he.trans (List.prefix_append _ _))⟩, rfl, rfl⟩

theorem alarmLines_iff (ls : List ContentLine) : VAlarm.tryFrom ls = .panic ↔ Full.AlarmLinesPanic ls := by
  unfold VAlarm.tryFrom Full.AlarmLinesPanic firstAction
  rw [named_head]
  cases h : (named c!"ACTION" ls).head? with
  | none => simp
  | some l =>
    simp only [Option.map_some, reduceCtorEq, false_or, Option.some.injEq]
    split
    · next h1 => rw [(map_iff _ _).1]; simp [h1, ← linesPanic_iff describes_Audio Audio.ofComp, Audio.tryFrom]
    split
    · next h1 => rw [(map_iff _ _).1]; simp [h1, ← linesPanic_iff describes_Display Display.ofComp, Display.tryFrom]
    split
    · next h1 => rw [(map_iff _ _).1]; simp [h1, ← linesPanic_iff describes_Email Email.ofComp, Email.tryFrom]
    · simp_all

theorem alarm_iff (i : Str) : valarm i = .panic ↔ Full.AlarmPanics i := leaf_panic alarmLines_iff i
theorem todo_iff (i : Str) : vtodo i = .panic ↔ Full.TodoPanics i := leaf_panic (linesPanic_iff describes_VTodo VTodo.ofComp) i
theorem journal_iff (i : Str) : vjournal i = .panic ↔ Full.JournalPanics i := leaf_panic (linesPanic_iff describes_VJournal VJournal.ofComp) i
theorem freebusy_iff (i : Str) : vfreebusy i = .panic ↔ Full.FreebusyPanics i :=
  leaf_panic (linesPanic_iff describes_VFreebusy VFreebusy.ofComp) i
theorem standard_iff (i : Str) : standard i = .panic ↔ Full.StandardPanics i :=
  leaf_panic (linesPanic_iff describes_Standard Standard.ofComp) i
theorem daylight_iff (i : Str) : daylight i = .panic ↔ Full.DaylightPanics i :=
  leaf_panic (linesPanic_iff describes_Daylight Daylight.ofComp) i

theorem event_iff (i : Str) : vevent i = .panic ↔ Full.EventPanics i := by
  unfold Full.EventPanics
  rw [← full_alarm]
  exact block_panic valarm_ok valarm_local valarm_end (by decide) alarm_iff
    (fun ls as => (map_iff _ _).1.trans (linesPanic_iff describes_VEvent VEvent.ofComp ls)) i

theorem Opens.of_panic {α : Type} {o : Str} {p : P α} (h : Opens o p) {i : Str} (hi : p i = .panic) : o <+: i := by
  refine Classical.byContradiction fun hn => ?_
  rw [h i hn] at hi; cases hi

theorem tzPart_iff (i : Str) : alt (map standard TzPart.standard) (map daylight TzPart.daylight) i = .panic ↔
    Full.StandardPanics i ∨ Full.DaylightPanics i := by
  rw [alt_panic, map_panic, map_panic, map_err, standard_iff, daylight_iff]
  refine or_congr Iff.rfl ⟨And.right, fun h => ⟨?_, h⟩⟩
  exact opens_not standard_opens (by decide) (by decide) (daylight_opens.of_panic ((daylight_iff i).2 h))

theorem timezone_iff (i : Str) : vtimezone i = .panic ↔ Full.TimezonePanics i := by
  unfold Full.TimezonePanics
  rw [← full_tzPart]
  exact block_panic tzPart_ok tzPart_local tzPart_end (by decide) tzPart_iff
    (fun ls as => (map_iff _ _).1.trans (linesPanic_iff describes_VTimezone VTimezone.ofComp ls)) i

theorem component_iff (i : Str) : component i = .panic ↔ Full.AlarmPanics i ∨ Full.EventPanics i ∨ Full.FreebusyPanics i ∨
    Full.JournalPanics i ∨ Full.TimezonePanics i ∨ Full.TodoPanics i := by
  unfold component
  simp only [alt_panic, map_panic, map_err, ← alarm_iff, ← event_iff, ← freebusy_iff, ← journal_iff, ← timezone_iff, ← todo_iff]
  constructor
  · rintro (h | ⟨_, h | ⟨_, h | ⟨_, h | ⟨_, h | ⟨_, h⟩⟩⟩⟩⟩) <;> simp [h]
  · have no {α β : Type} {o o' : Str} {p : P α} {q : P β} (hp : Opens o p) (hq : Opens o' q) (h1 : ¬ o <+: o') (h2 : ¬ o' <+: o)
        (h : q i = .panic) : p i = .err := opens_not hp h1 h2 (hq.of_panic h)
    rintro (h | h | h | h | h | h)
    · exact .inl h
    · exact .inr ⟨no valarm_opens vevent_opens (by decide) (by decide) h, .inl h⟩
    · exact .inr ⟨no valarm_opens vfreebusy_opens (by decide) (by decide) h, .inr ⟨no vevent_opens vfreebusy_opens (by decide) (by decide) h,
        .inl h⟩⟩
    · exact .inr ⟨no valarm_opens vjournal_opens (by decide) (by decide) h, .inr ⟨no vevent_opens vjournal_opens (by decide) (by decide) h,
        .inr ⟨no vfreebusy_opens vjournal_opens (by decide) (by decide) h, .inl h⟩⟩⟩
    · exact .inr ⟨no valarm_opens vtimezone_opens (by decide) (by decide) h, .inr ⟨no vevent_opens vtimezone_opens (by decide) (by decide) h,
        .inr ⟨no vfreebusy_opens vtimezone_opens (by decide) (by decide) h, .inr ⟨no vjournal_opens vtimezone_opens (by decide) (by decide) h,
        .inl h⟩⟩⟩⟩
    · exact .inr ⟨no valarm_opens vtodo_opens (by decide) (by decide) h, .inr ⟨no vevent_opens vtodo_opens (by decide) (by decide) h,
        .inr ⟨no vfreebusy_opens vtodo_opens (by decide) (by decide) h, .inr ⟨no vjournal_opens vtodo_opens (by decide) (by decide) h,
        .inr ⟨no vtimezone_opens vtodo_opens (by decide) (by decide) h, h⟩⟩⟩⟩⟩

theorem calendar_iff (i : Str) : vcalendar i = .panic ↔ Full.CalendarPanics i := by
  unfold Full.CalendarPanics
  rw [← full_component]
  exact block_panic component_ok component_local component_end (by decide) component_iff
    (fun ls as => (map_iff _ _).1.trans (linesPanic_iff describes_VCalendar VCalendar.ofComp ls)) i

theorem ofStr_panic {α : Type} {p : P α} {Q : Str → Prop} (h : ∀ i, p i = .panic ↔ Q i) (s : Str) :
    componentOfStr p s = .panic ↔ ∃ u, Full.Unfolds s u ∧ Q u := by
  rw [← unfolds_exists (P := Q), ← h]
  unfold componentOfStr
  cases p (unfold s) <;> simp [NRes.toRes]

/-- What is neither read nor panics is an error. -/
theorem ofStr_err {α : Type} {p : P α} {Q : Str → Prop} (h : ∀ i, p i = .panic ↔ Q i) {T : Str → α → Prop}
    (ht : ∀ s v, componentOfStr p s = .ok v ↔ T s v) (s : Str) :
    componentOfStr p s = .err .parser ↔ (¬ ∃ v, T s v) ∧ ¬ ∃ u, Full.Unfolds s u ∧ Q u := by
  rw [← ofStr_panic h]
  simp only [← ht]
  unfold componentOfStr
  cases p (unfold s) <;> simp [NRes.toRes]

/-! ## C77 -/

/-- **C77** for an alarm: reading panics exactly on the texts described, and returns the parser error exactly on all others that are not
an alarm according to the grammar. -/
theorem C77_VAlarm (s : Str) :
    (VAlarm.ofStr s = .panic ↔ ∃ u, Full.Unfolds s u ∧ Full.AlarmPanics u) ∧
    (VAlarm.ofStr s = .err .parser ↔ (¬ ∃ v u r, Full.Unfolds s u ∧ Full.AlarmText u v r) ∧ ¬ ∃ u, Full.Unfolds s u ∧ Full.AlarmPanics u) :=
  ⟨ofStr_panic alarm_iff s, ofStr_err alarm_iff C76_VAlarm s⟩

/-- **C77** for an event: reading panics exactly on the texts described, and returns the parser error exactly on all others that are not
an event according to the grammar. -/
theorem C77_VEvent (s : Str) :
    (VEvent.ofStr s = .panic ↔ ∃ u, Full.Unfolds s u ∧ Full.EventPanics u) ∧
    (VEvent.ofStr s = .err .parser ↔ (¬ ∃ v u r, Full.Unfolds s u ∧ Full.EventText u v r) ∧ ¬ ∃ u, Full.Unfolds s u ∧ Full.EventPanics u) :=
  ⟨ofStr_panic event_iff s, ofStr_err event_iff C76_VEvent s⟩

/-- **C77** for a to-do: reading panics exactly on the texts described, and returns the parser error exactly on all others that are not
a to-do according to the grammar. -/
theorem C77_VTodo (s : Str) :
    (VTodo.ofStr s = .panic ↔ ∃ u, Full.Unfolds s u ∧ Full.TodoPanics u) ∧
    (VTodo.ofStr s = .err .parser ↔ (¬ ∃ v u r, Full.Unfolds s u ∧ Full.TodoText u v r) ∧ ¬ ∃ u, Full.Unfolds s u ∧ Full.TodoPanics u) :=
  ⟨ofStr_panic todo_iff s, ofStr_err todo_iff C76_VTodo s⟩

/-- **C77** for a journal entry: reading panics exactly on the texts described, and returns the parser error exactly on all others that are not
a journal entry according to the grammar. -/
theorem C77_VJournal (s : Str) :
    (VJournal.ofStr s = .panic ↔ ∃ u, Full.Unfolds s u ∧ Full.JournalPanics u) ∧
    (VJournal.ofStr s = .err .parser ↔ (¬ ∃ v u r, Full.Unfolds s u ∧ Full.JournalText u v r) ∧ ¬ ∃ u, Full.Unfolds s u ∧ Full.JournalPanics u) :=
  ⟨ofStr_panic journal_iff s, ofStr_err journal_iff C76_VJournal s⟩

/-- **C77** for a free/busy time: reading panics exactly on the texts described, and returns the parser error exactly on all others that are not
a free/busy time according to the grammar. -/
theorem C77_VFreebusy (s : Str) :
    (VFreebusy.ofStr s = .panic ↔ ∃ u, Full.Unfolds s u ∧ Full.FreebusyPanics u) ∧
    (VFreebusy.ofStr s = .err .parser ↔ (¬ ∃ v u r, Full.Unfolds s u ∧ Full.FreebusyText u v r) ∧ ¬ ∃ u, Full.Unfolds s u ∧ Full.FreebusyPanics u) :=
  ⟨ofStr_panic freebusy_iff s, ofStr_err freebusy_iff C76_VFreebusy s⟩

/-- **C77** for standard time: reading panics exactly on the texts described, and returns the parser error exactly on all others that are not
standard time according to the grammar. -/
theorem C77_Standard (s : Str) :
    (Standard.ofStr s = .panic ↔ ∃ u, Full.Unfolds s u ∧ Full.StandardPanics u) ∧
    (Standard.ofStr s = .err .parser ↔ (¬ ∃ v u r, Full.Unfolds s u ∧ Full.StandardText u v r) ∧ ¬ ∃ u, Full.Unfolds s u ∧ Full.StandardPanics u) :=
  ⟨ofStr_panic standard_iff s, ofStr_err standard_iff C76_Standard s⟩

/-- **C77** for daylight saving time: reading panics exactly on the texts described, and returns the parser error exactly on all others that are not
daylight saving time according to the grammar. -/
theorem C77_Daylight (s : Str) :
    (Daylight.ofStr s = .panic ↔ ∃ u, Full.Unfolds s u ∧ Full.DaylightPanics u) ∧
    (Daylight.ofStr s = .err .parser ↔ (¬ ∃ v u r, Full.Unfolds s u ∧ Full.DaylightText u v r) ∧ ¬ ∃ u, Full.Unfolds s u ∧ Full.DaylightPanics u) :=
  ⟨ofStr_panic daylight_iff s, ofStr_err daylight_iff C76_Daylight s⟩

/-- **C77** for a time zone: reading panics exactly on the texts described, and returns the parser error exactly on all others that are not
a time zone according to the grammar. -/
theorem C77_VTimezone (s : Str) :
    (VTimezone.ofStr s = .panic ↔ ∃ u, Full.Unfolds s u ∧ Full.TimezonePanics u) ∧
    (VTimezone.ofStr s = .err .parser ↔ (¬ ∃ v u r, Full.Unfolds s u ∧ Full.TimezoneText u v r) ∧ ¬ ∃ u, Full.Unfolds s u ∧ Full.TimezonePanics u) :=
  ⟨ofStr_panic timezone_iff s, ofStr_err timezone_iff C76_VTimezone s⟩

/-- **C77** for a calendar: reading panics exactly on the texts described, and returns the parser error exactly on all others that are not
a calendar according to the grammar. -/
theorem C77_VCalendar (s : Str) :
    (VCalendar.ofStr s = .panic ↔ ∃ u, Full.Unfolds s u ∧ Full.CalendarPanics u) ∧
    (VCalendar.ofStr s = .err .parser ↔ (¬ ∃ v u cs r, Full.Unfolds s u ∧ Full.CalendarText u v cs r) ∧ ¬ ∃ u, Full.Unfolds s u ∧ Full.CalendarPanics u) :=
  ⟨ofStr_panic calendar_iff s, ofStr_err calendar_iff C76_VCalendar s⟩

end

section
attribute [local instance] utc

/-- An unreadable number before a rule without `FREQ`: an error. -/
example : VTodo.ofStr c!"BEGIN:VTODO\r\nUID:1\r\nDTSTAMP:20240229T120000Z\r\nPRIORITY:x\r\nRRULE:COUNT=1\r\nEND:VTODO\r\n" = .err .parser := by
  rfl

set_option maxRecDepth 4000 in
/-- The same lines in the other order: a panic. -/
example : ∃ u, Full.Unfolds c!"BEGIN:VTODO\r\nUID:1\r\nDTSTAMP:20240229T120000Z\r\nRRULE:COUNT=1\r\nPRIORITY:x\r\nEND:VTODO\r\n" u ∧
    Full.TodoPanics u :=
  (C77_VTodo _).1.1 rfl

set_option maxRecDepth 4000 in
/-- The second alarm of the event of a calendar panics, though the event lacks its required properties. -/
example : ∃ u, Full.Unfolds c!"BEGIN:VCALENDAR\r\nBEGIN:VEVENT\r\nBEGIN:VALARM\r\nACTION:AUDIO\r\nTRIGGER:PT1S\r\nEND:VALARM\r\nBEGIN:VALARM\r\nACTION:AUDIO\r\nTRIGGER:P9999999999999W\r\nEND:VALARM\r\nEND:VEVENT\r\nEND:VCALENDAR\r\n" u ∧
    Full.CalendarPanics u :=
  (C77_VCalendar _).1.1 rfl

/-- Without the second alarm, an error. -/
example : VCalendar.ofStr c!"BEGIN:VCALENDAR\r\nBEGIN:VEVENT\r\nBEGIN:VALARM\r\nACTION:AUDIO\r\nTRIGGER:PT1S\r\nEND:VALARM\r\nEND:VEVENT\r\nEND:VCALENDAR\r\n" = .err .parser := by
  rfl

end

end Ikal
