import Verif.Props.Struct
import Verif.Props.Failing
import Verif.Props.Messages
import Verif.TestPlatform

/-! # How the conversion of lines fails, whatever struct the component is derived for (C92) -/

namespace Ikal
open Spec

set_option linter.unusedSectionVars false

section
variable [Platform] {σ : Type} {ds : List FieldDecl} {ms : List (Member σ)} {default : σ} {P : Program σ}

theorem bind_res {α β : Type} (x : Res α) (g : α → Res β) (f : Failure) : (x >>= g) = f.res ↔ x = f.res ∨ ∃ a, x = .ok a ∧ g a = f.res := by
  cases x <;> cases f <;> simp [Failure.res]

theorem first_filter {α : Type} {A B : α → Prop} (q : α → Bool) (xs : List α) :
    (∃ before p after, xs.filter q = before ++ p :: after ∧ (∀ y ∈ before, A y) ∧ B p) ↔
      ∃ before p after, xs = before ++ p :: after ∧ (∀ y ∈ before, q y = true → A y) ∧ q p = true ∧ B p := by
  induction xs with
  | nil => simp
  | cons x xs ih =>
    rw [first_iff (A := fun y => q y = true → A y) (B := fun p => q p = true ∧ B p), ← ih]
    by_cases h : q x = true
    · rw [List.filter_cons_of_pos h, first_iff]
      simp [h]
    · rw [List.filter_cons_of_neg h]
      simp [h]

theorem init_faults {ps : List (Part σ)} (h : ∀ p ∈ ps, p.a.Of p.d p.m) (ls : List ContentLine) :
    ((∃ s, Slots.init ((ps.map (·.a)).map (·.f)) ls = .ok s) ↔ ∀ p ∈ ps, kind p.d = .required → Given p.d ls) ∧
    ∀ f, Slots.init ((ps.map (·.a)).map (·.f)) ls = f.res ↔
      ∃ before d after, ps.map (·.d) = before ++ d :: after ∧ (∀ q ∈ before, kind q = .required → Given q ls) ∧ kind d = .required ∧ GivenFails d ls f := by
  induction ps with
  | nil =>
    refine ⟨⟨fun _ p hp => (by cases hp), fun _ => ⟨(), rfl⟩⟩, fun f => ?_⟩
    have : ¬ (Slots.init (([] : List (Part σ)).map (·.a) |>.map (·.f)) ls = f.res) := ok_ne_res _ f
    simp [this]
  | cons p ps ih =>
    obtain ⟨ih1, ih2⟩ := ih fun q hq => h q (List.mem_cons_of_mem _ hq)
    have hp := (h p (List.mem_cons_self ..)).faults
    have hini : Slots.init (((p :: ps).map (·.a)).map (·.f)) ls =
        (p.a.f.initField ls >>= fun v => Slots.init ((ps.map (·.a)).map (·.f)) ls >>= fun vs => pure (v, vs)) := rfl
    constructor
    · rw [hini, List.forall_mem_cons, ← ih1, ← hp.given]
      cases p.a.f.initField ls <;> cases Slots.init ((ps.map (·.a)).map (·.f)) ls <;> simp [pure]
    · intro f
      rw [hini, show (p :: ps).map (·.d) = p.d :: ps.map (·.d) from rfl, first_iff (A := fun q => kind q = .required → Given q ls) (B := fun d => kind d = .required ∧ GivenFails d ls f), ← ih2, ← hp.init, bind_res, ← hp.given]
      refine or_congr Iff.rfl ?_
      constructor
      · rintro ⟨a, h1, h2⟩
        refine ⟨⟨a, h1⟩, ?_⟩
        rw [bind_res] at h2
        rcases h2 with h2 | ⟨b, _, h2⟩
        · exact h2
        · exact absurd h2 (ok_ne_res _ f)
      · rintro ⟨⟨a, h1⟩, h2⟩
        exact ⟨a, h1, (bind_res ..).2 (.inl h2)⟩

theorem step_faults {ps : List (Part σ)} (h : ∀ p ∈ ps, p.a.Of p.d p.m) (hn : (ps.map fun p => kebab p.d.ident).Nodup) (l : ContentLine) (s : Slots ((ps.map (·.a)).map (·.f))) :
    ((∃ o, Slots.step _ l s = .ok o) ↔ ∀ p ∈ ps, kind p.d ≠ .required → l.key = kebab p.d.ident → Readable p.d l) ∧
    ∀ f, Slots.step _ l s = f.res ↔ ∃ p ∈ ps, kind p.d ≠ .required ∧ l.key = kebab p.d.ident ∧ LineFails p.d l f := by
  induction ps with
  | nil =>
    refine ⟨⟨fun _ p hp => (by cases hp), fun _ => ⟨none, rfl⟩⟩, fun f => ?_⟩
    have : ¬ (Slots.step (([] : List (Part σ)).map (·.a) |>.map (·.f)) l s = f.res) := ok_ne_res _ f
    simp [this]
  | cons p ps ih =>
    obtain ⟨v, vs⟩ := s
    obtain ⟨hn1, hn2⟩ := List.nodup_cons.1 hn
    obtain ⟨ih1, ih2⟩ := ih (fun q hq => h q (List.mem_cons_of_mem _ hq)) hn2 vs
    have hof := h p (List.mem_cons_self ..)
    have hp := hof.faults
    have hstep : Slots.step (((p :: ps).map (·.a)).map (·.f)) l (v, vs) =
        if p.a.f.parsed ∧ l.key = p.a.f.name then (p.a.f.stepField l v).map fun x => some (x, vs)
        else (Slots.step ((ps.map (·.a)).map (·.f)) l vs).map fun o => o.map fun vs => (v, vs) := rfl
    rw [hstep, hof.parsed, hof.name]
    simp only [true_and]
    by_cases hk : l.key = kebab p.d.ident
    · rw [if_pos hk]
      have hno : ∀ q ∈ ps, l.key ≠ kebab q.d.ident := fun q hq e => hn1 (List.mem_map.2 ⟨q, hq, by rw [← e, hk]⟩)
      constructor
      · rw [map_ok, hp.line, List.forall_mem_cons]
        constructor
        · intro h1
          exact ⟨fun h2 _ => h1 h2, fun q hq _ e => absurd e (hno q hq)⟩
        · intro h1 h2
          exact h1.1 h2 hk
      · intro f
        rw [map_res, hp.step]
        constructor
        · rintro ⟨h1, h2⟩
          exact ⟨p, List.mem_cons_self .., h1, hk, h2⟩
        · rintro ⟨q, hq, h1, h2, h3⟩
          rcases List.mem_cons.1 hq with rfl | hq
          · exact ⟨h1, h3⟩
          · exact absurd h2 (hno q hq)
    · rw [if_neg hk]
      constructor
      · rw [map_ok, ih1, List.forall_mem_cons]
        simp [hk]
      · intro f
        rw [map_res, ih2]
        simp [hk]

theorem compStep_faults {fs : List Field} (c : Comp fs) (l : ContentLine) :
    ((∃ o, c.step l = .ok o) ↔ ∃ o, Slots.step fs l c.slots = .ok o) ∧ ∀ f : Failure, c.step l = f.res ↔ Slots.step fs l c.slots = f.res := by
  unfold Comp.step
  cases Slots.step fs l c.slots with
  | ok o =>
    have : ∀ (f : Failure) (x : Comp fs), ¬ ((pure x : Res (Comp fs)) = f.res) := fun f x => ok_ne_res _ f
    cases o with
    | none =>
      simp only [Res.bind_ok]
      split <;> simp [ok_ne_res, pure]
    | some s => simp [ok_ne_res, pure]
  | err e => simp [Failure.res]; intro f; cases f <;> simp
  | panic => simp [Failure.res]; intro f; cases f <;> simp

theorem loop_faults {ps : List (Part σ)} (h : ∀ p ∈ ps, p.a.Of p.d p.m) (hn : (ps.map fun p => kebab p.d.ident).Nodup) (ls : List ContentLine)
    (c : Comp ((ps.map (·.a)).map (·.f))) (f : Failure) :
    c.loop ls = f.res ↔ ∃ before l after, ls = before ++ l :: after ∧ (∀ l' ∈ before, ∀ p ∈ ps, kind p.d ≠ .required → l'.key = kebab p.d.ident → Readable p.d l') ∧
      ∃ p ∈ ps, kind p.d ≠ .required ∧ l.key = kebab p.d.ident ∧ LineFails p.d l f := by
  induction ls generalizing c with
  | nil => simp [Comp.loop, ok_ne_res]
  | cons l ls ih =>
    obtain ⟨h1, h2⟩ := compStep_faults c l
    obtain ⟨h3, h4⟩ := step_faults h hn l c.slots
    rw [first_iff (A := fun l' => ∀ p ∈ ps, kind p.d ≠ .required → l'.key = kebab p.d.ident → Readable p.d l')
      (B := fun l => ∃ p ∈ ps, kind p.d ≠ .required ∧ l.key = kebab p.d.ident ∧ LineFails p.d l f), ← h3, ← h4, ← h1, ← h2]
    simp only [Comp.loop, bind_res]
    refine or_congr Iff.rfl ?_
    constructor
    · rintro ⟨c', e, h5⟩
      exact ⟨⟨c', e⟩, (ih c').1 h5⟩
    · rintro ⟨⟨c', e⟩, h5⟩
      exact ⟨c', e, (ih c').2 h5⟩

/-- **C92**: whatever struct the component is derived for, converting lines fails exactly with the first fault. -/
theorem C92_fails (hd : Declared ds) (h : StructOf ds ms default) (hc : (generate ds).compile ms default = some P) (ls : List ContentLine) (f : Failure) :
    P.tryFrom ls = f.res ↔ FirstFault ds ls f := by
  obtain ⟨ps, nx, ni, gx, gi, sx, si, hmx, hmi, hps, hof, hfit, hdef⟩ := fits hd h hc
  have hof' := fun p hp => (hof p hp).2
  have hn : (ps.map fun p => kebab p.d.ident).Nodup := by
    have := C85_arms_differ hd
    rw [(C85_code hd).1, List.map_map] at this
    rw [show (ps.map fun p => kebab p.d.ident) = (ps.map (·.d)).map fun d => kebab d.ident by rw [List.map_map]; rfl, hps]
    exact this
  have hmem : ∀ {C : FieldDecl → Prop}, (∀ p ∈ ps, C p.d) ↔ ∀ d ∈ ds, d.ignore = false → C d := by
    intro C
    have : (∀ p ∈ ps, C p.d) ↔ ∀ d ∈ ps.map (·.d), C d := by simp
    rw [this, hps]
    simp [List.mem_filter]
  have hex : ∀ {C : FieldDecl → Prop}, (∃ p ∈ ps, C p.d) ↔ ∃ d ∈ ds, d.ignore = false ∧ C d := by
    intro C
    have : (∃ p ∈ ps, C p.d) ↔ ∃ d ∈ ps.map (·.d), C d := by
      simp only [List.mem_map]
      constructor
      · rintro ⟨p, hp, h⟩; exact ⟨_, ⟨p, hp, rfl⟩, h⟩
      · rintro ⟨_, ⟨p, hp, rfl⟩, h⟩; exact ⟨p, hp, h⟩
    rw [this, hps]
    simp [List.mem_filter, and_assoc]
  rw [← map_res _ hfit.proj, hfit.tryFrom]
  obtain ⟨h1, h2⟩ := init_faults hof' ls
  simp only [Comp.tryFrom, bind_res]
  unfold FirstFault
  refine or_congr ?_ ?_
  · rw [h2 f, hps, first_filter (A := fun q => kind q = .required → Given q ls) (B := fun d => kind d = .required ∧ GivenFails d ls f)]
    simp only [Bool.not_eq_true', Needed, and_imp, and_assoc]
  · have e1 : (∀ q ∈ ds, Needed q → Given q ls) ↔ ∀ p ∈ ps, kind p.d = .required → Given p.d ls := by
      rw [hmem (C := fun d => kind d = .required → Given d ls)]
      simp only [Needed, and_imp]
    have e2 : ∀ l, LineFine ds l ↔ ∀ p ∈ ps, kind p.d ≠ .required → l.key = kebab p.d.ident → Readable p.d l := by
      intro l
      rw [hmem (C := fun d => kind d ≠ .required → l.key = kebab d.ident → Readable d l)]
      simp only [LineFine, Spare, and_imp]
    have e3 : ∀ l, (∃ d ∈ ds, Spare d ∧ l.key = kebab d.ident ∧ LineFails d l f) ↔ ∃ p ∈ ps, kind p.d ≠ .required ∧ l.key = kebab p.d.ident ∧ LineFails p.d l f := by
      intro l
      rw [hex (C := fun d => kind d ≠ .required ∧ l.key = kebab d.ident ∧ LineFails d l f)]
      simp only [Spare, and_assoc]
    simp only [e1, e2, e3, ← h1, loop_faults hof' hn]
    constructor
    · rintro ⟨s, h3, h4⟩
      exact ⟨⟨s, h3⟩, h4⟩
    · rintro ⟨⟨s, h3⟩, h4⟩
      exact ⟨s, h3, h4⟩

theorem mapM'_err {α β : Type} {g : α → Res β} {e : Error} {xs : List α} (h : Res.mapM' g xs = .err e) : ∃ x ∈ xs, g x = .err e := by
  induction xs with
  | nil => cases h
  | cons x xs ih =>
    cases hx : g x with
    | ok y =>
      simp only [Res.mapM', hx] at h
      cases hm : Res.mapM' g xs with
      | ok ys => simp [hm] at h
      | err e' =>
        have : e' = e := by simpa [hm] using h
        subst this
        obtain ⟨z, hz, hz'⟩ := ih hm
        exact ⟨z, List.mem_cons_of_mem _ hz, hz'⟩
      | panic => simp [hm] at h
    | err e' =>
      have : e' = e := by simpa [Res.mapM', hx] using h
      subst this
      exact ⟨x, List.mem_cons_self .., hx⟩
    | panic => simp [Res.mapM', hx] at h

/-- **C92**: and the error is the one of the property. -/
theorem C92_error (d : FieldDecl) (l : ContentLine) (e : Error) (h : LineFails d l (.error e)) : ErrorOf d.ident l.value e := by
  obtain ⟨t, p, hp, h⟩ := h
  have hdates : ∀ s, Res.mapM' (fun s => (dateOrDt s).toRes) (splitOn ',' s) = .err e → e = .parser := fun s h => by
    obtain ⟨x, _, h⟩ := mapM'_err h
    exact toRes_err h
  have hperiods : ∀ s, Res.mapM' period (splitOn ',' s) = .err e → e = .parser := fun s h => by
    obtain ⟨x, _, h⟩ := mapM'_err h
    exact (C89_parser x e).2.2.2.2.2.2.2.2.2.2.2.2 h
  have hnum : ∀ o : Option Nat, Res.ofOption .parseInt o = .err e → e = .parseInt := by
    intro o h
    cases o <;> cases h
    rfl
  unfold parserOf at hp
  obtain ⟨l1, l2, htable, _⟩ := List.lookup_eq_some_iff.1 hp
  have hmem : (d.ident, (⟨t, p⟩ : (t : RTy) × (ContentLine → Res t.den))) ∈ l1 ++ (d.ident, ⟨t, p⟩) :: l2 := by simp
  rw [← htable] at hmem
  clear htable hp
  generalize d.ident = ident at hmem ⊢
  simp only [List.mem_cons, Prod.mk.injEq, List.not_mem_nil, or_false] at hmem
  have text : ∀ {ident}, textProp l = .err e → ErrorOf ident l.value e := fun h => (by cases h)
  have uri : ∀ {ident}, uriProp l = .err e → ErrorOf ident l.value e := fun h => (by cases h)
  have texts : ∀ {ident}, textListProp l = .err e → ErrorOf ident l.value e := fun h => (by cases h)
  have parser : ∀ {ident : Str}, e = .parser → ident ∈ [c!"trigger", c!"created", c!"dtstamp", c!"last_modified", c!"completed", c!"dtend", c!"due", c!"dtstart", c!"recurid", c!"duration",
      c!"freebusy", c!"geo", c!"rstatus", c!"exdate", c!"rdate", c!"rrule"] → ErrorOf ident l.value e :=
    fun h h' => .inr (.inr (.inr (.inr (.inr (.inr ⟨h', h⟩)))))
  have int : ∀ {ident : Str}, e = .parseInt → ident ∈ [c!"repeat", c!"sequence", c!"percent_complete"] → ErrorOf ident l.value e := fun h h' => .inl ⟨h', h⟩
  have offset : ∀ {ident : Str}, offsetProp l = .err e → ident ∈ [c!"tzoffsetfrom", c!"tzoffsetto"] → ErrorOf ident l.value e := by
    intro ident h h'
    refine .inr (.inr (.inr (.inr (.inr (.inl ⟨h', ?_⟩)))))
    unfold offsetProp at h
    cases hx : FixedOffset.parse l.value <;> rw [hx] at h <;> cases h
    rfl
  have prio : priority l = .err e → ErrorOf c!"priority" l.value e := by
    intro h
    by_cases hn : ∀ n, IsUnsigned l.value n → 255 < n
    · rw [C26_not_a_number l hn] at h
      cases h
      exact .inr (.inl ⟨rfl, hn, rfl⟩)
    · obtain ⟨n, hn⟩ := Classical.not_forall.1 hn
      obtain ⟨h1, h2⟩ := Classical.not_imp.1 hn
      by_cases h9 : n ≤ 9
      · rw [(C26_priority l n).2 ⟨h1, h9⟩] at h
        cases h
      · rw [C26_too_large l n h1 (by omega) (by omega)] at h
        cases h
        exact .inr (.inr (.inl ⟨rfl, n, h1, by omega, by omega, rfl⟩))
  have stat : status l = .err e → ErrorOf c!"status" l.value e := by
    intro h
    by_cases hv : ∃ v, l.value = statusName v
    · obtain ⟨v, hv⟩ := hv; unfold status at h; rw [((C23_status _).1 v).2 hv] at h; cases h
    · unfold status at h; rw [(C23_status _).2 fun v hx => hv ⟨v, hx⟩] at h; cases h
      exact .inr (.inr (.inr (.inl ⟨rfl, rfl⟩)))
  have tran : transp l = .err e → ErrorOf c!"transp" l.value e := by
    intro h
    by_cases hv : ∃ v, l.value = transparencyName v
    · obtain ⟨v, hv⟩ := hv; unfold transp at h; rw [((C23_transparency _).1 v).2 hv] at h; cases h
    · unfold transp at h; rw [(C23_transparency _).2 fun v hx => hv ⟨v, hx⟩] at h; cases h
      exact .inr (.inr (.inr (.inr (.inl ⟨rfl, rfl⟩))))
  have clas : ∀ {ident}, classProp l = .err e → ErrorOf ident l.value e := by
    intro ident h
    unfold classProp Class.ofStr at h
    repeat' split at h
    all_goals cases h
  have hrdate : rdate l = .err e → e = .parser := by
    intro h
    unfold rdate at h
    split at h
    · exact hperiods _ (map_err h)
    · exact hdates _ (map_err h)
  rcases hmem with ⟨hi, hv⟩ | ⟨hi, hv⟩ | ⟨hi, hv⟩ | ⟨hi, hv⟩ | ⟨hi, hv⟩ | ⟨hi, hv⟩ | ⟨hi, hv⟩ | ⟨hi, hv⟩ | ⟨hi, hv⟩ | ⟨hi, hv⟩ | ⟨hi, hv⟩ | ⟨hi, hv⟩ | ⟨hi, hv⟩ | ⟨hi, hv⟩ | ⟨hi, hv⟩ | ⟨hi, hv⟩ | ⟨hi, hv⟩ | ⟨hi, hv⟩ | ⟨hi, hv⟩ | ⟨hi, hv⟩ | ⟨hi, hv⟩ | ⟨hi, hv⟩ | ⟨hi, hv⟩ | ⟨hi, hv⟩ | ⟨hi, hv⟩ | ⟨hi, hv⟩ | ⟨hi, hv⟩ | ⟨hi, hv⟩ | ⟨hi, hv⟩ | ⟨hi, hv⟩ | ⟨hi, hv⟩ | ⟨hi, hv⟩ | ⟨hi, hv⟩ | ⟨hi, hv⟩ | ⟨hi, hv⟩ | ⟨hi, hv⟩ | ⟨hi, hv⟩ | ⟨hi, hv⟩ | ⟨hi, hv⟩ | ⟨hi, hv⟩ | ⟨hi, hv⟩ | ⟨hi, hv⟩ | ⟨hi, hv⟩ | ⟨hi, hv⟩ | ⟨hi, hv⟩ | ⟨hi, hv⟩
  all_goals subst hi; cases hv
  all_goals first
    | exact text h | exact uri h | exact texts h | exact clas h | exact stat h | exact tran h | exact prio h
    | exact offset h (by decide) | exact int (hnum _ h) (by decide) | exact parser (toRes_err h) (by decide) | exact parser (hdates _ h) (by decide)
    | exact parser (hperiods _ h) (by decide) | exact parser (hrdate h) (by decide)

/-- **C92** for an audio alarm. -/
theorem C92_Audio (ls : List ContentLine) (f : Failure) : Audio.tryFrom ls = f.res ↔ FirstFault Audio.declaration ls f := by
  obtain ⟨P, hc, h1, _⟩ := C85_Audio
  rw [← h1]
  exact C92_fails Audio.declared Audio.structOf hc ls f

/-- **C92** for a display alarm. -/
theorem C92_Display (ls : List ContentLine) (f : Failure) : Display.tryFrom ls = f.res ↔ FirstFault Display.declaration ls f := by
  obtain ⟨P, hc, h1, _⟩ := C85_Display
  rw [← h1]
  exact C92_fails Display.declared Display.structOf hc ls f

/-- **C92** for an email alarm. -/
theorem C92_Email (ls : List ContentLine) (f : Failure) : Email.tryFrom ls = f.res ↔ FirstFault Email.declaration ls f := by
  obtain ⟨P, hc, h1, _⟩ := C85_Email
  rw [← h1]
  exact C92_fails Email.declared Email.structOf hc ls f

/-- **C92** for an event. -/
theorem C92_VEvent (ls : List ContentLine) (f : Failure) : VEvent.tryFrom ls = f.res ↔ FirstFault VEvent.declaration ls f := by
  obtain ⟨P, hc, h1, _⟩ := C85_VEvent
  rw [← h1]
  exact C92_fails VEvent.declared VEvent.structOf hc ls f

/-- **C92** for a free/busy time. -/
theorem C92_VFreebusy (ls : List ContentLine) (f : Failure) : VFreebusy.tryFrom ls = f.res ↔ FirstFault VFreebusy.declaration ls f := by
  obtain ⟨P, hc, h1, _⟩ := C85_VFreebusy
  rw [← h1]
  exact C92_fails VFreebusy.declared VFreebusy.structOf hc ls f

/-- **C92** for a journal entry. -/
theorem C92_VJournal (ls : List ContentLine) (f : Failure) : VJournal.tryFrom ls = f.res ↔ FirstFault VJournal.declaration ls f := by
  obtain ⟨P, hc, h1, _⟩ := C85_VJournal
  rw [← h1]
  exact C92_fails VJournal.declared VJournal.structOf hc ls f

/-- **C92** for standard time. -/
theorem C92_Standard (ls : List ContentLine) (f : Failure) : Standard.tryFrom ls = f.res ↔ FirstFault Standard.declaration ls f := by
  obtain ⟨P, hc, h1, _⟩ := C85_Standard
  rw [← h1]
  exact C92_fails Standard.declared Standard.structOf hc ls f

/-- **C92** for daylight saving time. -/
theorem C92_Daylight (ls : List ContentLine) (f : Failure) : Daylight.tryFrom ls = f.res ↔ FirstFault Daylight.declaration ls f := by
  obtain ⟨P, hc, h1, _⟩ := C85_Daylight
  rw [← h1]
  exact C92_fails Daylight.declared Daylight.structOf hc ls f

/-- **C92** for a time zone. -/
theorem C92_VTimezone (ls : List ContentLine) (f : Failure) : VTimezone.tryFrom ls = f.res ↔ FirstFault VTimezone.declaration ls f := by
  obtain ⟨P, hc, h1, _⟩ := C85_VTimezone
  rw [← h1]
  exact C92_fails VTimezone.declared VTimezone.structOf hc ls f

/-- **C92** for a to-do. -/
theorem C92_VTodo (ls : List ContentLine) (f : Failure) : VTodo.tryFrom ls = f.res ↔ FirstFault VTodo.declaration ls f := by
  obtain ⟨P, hc, h1, _⟩ := C85_VTodo
  rw [← h1]
  exact C92_fails VTodo.declared VTodo.structOf hc ls f

/-- **C92** for a calendar. -/
theorem C92_VCalendar (ls : List ContentLine) (f : Failure) : VCalendar.tryFrom ls = f.res ↔ FirstFault VCalendar.declaration ls f := by
  obtain ⟨P, hc, h1, _⟩ := C85_VCalendar
  rw [← h1]
  exact C92_fails VCalendar.declared VCalendar.structOf hc ls f

/-- **C92** for an alarm. -/
theorem C92_VAlarm (ls : List ContentLine) (f : Failure) : VAlarm.tryFrom ls = f.res ↔ AlarmFault ls f := by
  unfold VAlarm.tryFrom AlarmFault firstAction
  rw [named_head]
  cases h : (named c!"ACTION" ls).head? with
  | none => cases f <;> simp [Failure.res]
  | some l =>
    simp only [Option.map_some, reduceCtorEq, false_and, false_or, Option.some.injEq]
    split
    · next h1 => rw [map_res, C92_Audio]; simp [h1]
    split
    · next h1 => rw [map_res, C92_Display]; simp [h1]
    split
    · next h1 => rw [map_res, C92_Email]; simp [h1]
    · next h1 h2 h3 => cases f <;> simp [Failure.res, h1, h2, h3, eq_comm]

end

section
attribute [local instance] utc

/-- An alarm of an unknown kind, one without `ACTION`. -/
example : VAlarm.tryFrom [⟨c!"ACTION", [], c!"PROCEDURE"⟩] = .err (.alarm c!"PROCEDURE") ∧ VAlarm.tryFrom [] = .panic := ⟨rfl, rfl⟩

/-- The lines of an event. -/
def faultyEvent (more : List ContentLine) : List ContentLine :=
  ⟨c!"UID", [], c!"1"⟩ :: ⟨c!"DTSTAMP", [], c!"20200101T000000Z"⟩ :: ⟨c!"DTSTART", [], c!"20200101"⟩ :: more

/-- Without `UID` the start, which cannot be read either, is not looked at; nor is the priority. -/
example : VEvent.tryFrom [⟨c!"DTSTAMP", [], c!"20200101T000000Z"⟩, ⟨c!"PRIORITY", [], c!"10"⟩, ⟨c!"DTSTART", [], c!"now"⟩] = .err .parser := by rfl

/-- The first line that cannot be read decides, whatever the order of declaration. -/
example : VEvent.tryFrom (faultyEvent [⟨c!"STATUS", [], c!"DONE"⟩, ⟨c!"PRIORITY", [], c!"10"⟩]) = .err (.status c!"DONE") := by rfl
example : VEvent.tryFrom (faultyEvent [⟨c!"PRIORITY", [], c!"10"⟩, ⟨c!"STATUS", [], c!"DONE"⟩]) = .err (.priority 10) := by rfl
example : VEvent.tryFrom (faultyEvent [⟨c!"RRULE", [], c!"COUNT=1"⟩, ⟨c!"STATUS", [], c!"DONE"⟩]) = .panic := by rfl

/-- So these lines have the first fault that the theorem speaks of. -/
example : FirstFault VEvent.declaration (faultyEvent [⟨c!"STATUS", [], c!"DONE"⟩, ⟨c!"PRIORITY", [], c!"10"⟩]) (.error (.status c!"DONE")) :=
  (C92_VEvent _ _).1 rfl

end

end Ikal
