import Verif.Lemmas.Trace
import Verif.Spec.TraceValues
import Verif.Props.Grammar
import Verif.Props.Order
import Verif.Lemmas.Rule
import Verif.TestPlatform

/-!
# C95, continued: what the error of a value says
-/

set_option linter.unusedSectionVars false

namespace Ikal

open Spec

/-! ## The same program -/

section
variable [Platform]

theorem Traced.sim_trigger : Traced.Sim Traced.trigger (Nom.alt (Nom.map Ikal.durationP .duration) (Nom.map Ikal.dateTime .dateTime)) :=
  Traced.sim_alt (Traced.sim_map Traced.sim_durationP _) (Traced.sim_map Traced.sim_dateTime _)
theorem Traced.sim_rrule : Traced.Sim Traced.rrule (Nom.mapRes (Nom.many1 Ikal.rruleItem) recurOfItems) :=
  Traced.sim_context _ (Traced.sim_mapRes (Traced.sim_many1 Traced.sim_rruleItem) _)
theorem Traced.sim_geo [FloatTrace] : Traced.Sim Traced.geo (Nom.map (Nom.separatedPair Ikal.float (Nom.char ';') Ikal.float) fun (a, b) => (⟨a, b⟩ : Geo)) :=
  Traced.sim_map (Traced.sim_separatedPair Traced.sim_float (Traced.sim_char _) Traced.sim_float) _
theorem Traced.sim_rstatus [FloatTrace] : Traced.Sim Traced.rstatus (Nom.map (Nom.pair Ikal.float (Nom.pair (Nom.char ';') (Nom.pair (Nom.takeTill fun c => c = ';')
      (Nom.opt (Nom.preceded (Nom.char ';') (Nom.takeWhile fun _ => true))))))
    (fun (c, _, d, e) => (⟨c, d, e⟩ : RequestStatus))) :=
  Traced.sim_context _ (Traced.sim_map (Traced.sim_pair Traced.sim_float (Traced.sim_pair (Traced.sim_char _) (Traced.sim_pair (Traced.sim_context _ (Traced.sim_takeTill _))
    (Traced.sim_opt (Traced.sim_preceded (Traced.sim_char _) (Traced.sim_context _ (Traced.sim_takeWhile _))))))) _)

theorem Traced.forget_period (s : Str) : (Traced.period s).forget.toRes = Ikal.period s := by
  unfold Traced.period Ikal.period
  rcases splitSlash s with ⟨a, b⟩
  dsimp only
  rcases Traced.sim_dateTime.cases a with ⟨r, v, h1, h2⟩ | ⟨t, h1, h2⟩ | ⟨h1, h2⟩
  · rw [h1, h2]
    cases b with
    | none => rfl
    | some b =>
      dsimp only
      split
      · unfold duration Traced.map
        rcases Traced.sim_durationP.cases b with ⟨r, v, h1, h2⟩ | ⟨t, h1, h2⟩ | ⟨h1, h2⟩ <;>
          simp only [ContentLine.ofValue, h1, h2] <;> rfl
      · unfold Traced.map
        rcases Traced.sim_dateTime.cases b with ⟨r, v, h1, h2⟩ | ⟨t, h1, h2⟩ | ⟨h1, h2⟩ <;> simp only [h1, h2] <;> rfl
  · rw [h1, h2]; rfl
  · rw [h1, h2]; rfl

/-- **C95**, for the values that are read with nom: with the entries of the error forgotten, the results are those of the other properties. -/
theorem C95_same_values [FloatTrace] (s : Str) :
    (Traced.weekday s).forget.toRes = Weekday.ofStr s ∧
    (Traced.weekdaynum s).forget.toRes = WeekdayNum.ofStr s ∧
    (Traced.dateTime s).forget.toRes = dateTimeProp (ContentLine.ofValue s) ∧
    (Traced.dateOrDt s).forget.toRes = dateProp (ContentLine.ofValue s) ∧
    (Traced.durationP s).forget.toRes = duration (ContentLine.ofValue s) ∧
    (Traced.trigger s).forget.toRes = trigger (ContentLine.ofValue s) ∧
    (Traced.period s).forget.toRes = period s ∧
    (Traced.rrule s).forget.toRes = Recur.ofStr s ∧
    (Traced.geo s).forget.toRes = geo (ContentLine.ofValue s) ∧
    (Traced.rstatus s).forget.toRes = rstatus (ContentLine.ofValue s) :=
  ⟨Traced.toRes_forget Traced.sim_weekday s, Traced.toRes_forget Traced.sim_weekdaynum s, Traced.toRes_forget Traced.sim_dateTime s,
    Traced.toRes_forget Traced.sim_dateOrDt s, Traced.toRes_forget Traced.sim_durationP s, Traced.toRes_forget Traced.sim_trigger s,
    Traced.forget_period s, Traced.toRes_forget Traced.sim_rrule s, Traced.toRes_forget Traced.sim_geo s, Traced.toRes_forget Traced.sim_rstatus s⟩

/-- The error of a parser is as described if it is whenever there is one and the description leaves no choice. -/
theorem trace_iff {α : Type} {p : TP α} {q : P α} (h : Traced.Sim p q) {S : Trace → Prop} {i : Str} (h1 : ∀ t, p i = .err t → S t)
    (h2 : ∀ t t', S t → S t' → t = t') (t : Trace) : p i = .err t ↔ (q i).toRes = .err .parser ∧ S t := by
  rcases h.cases i with ⟨r, a, k1, k2⟩ | ⟨t', k1, k2⟩ | ⟨k1, k2⟩
  · simp [k1, k2, NRes.toRes]
  · rw [k1, k2]
    constructor
    · intro e; injection e with e; subst e; exact ⟨rfl, h1 _ k1⟩
    · rintro ⟨-, e⟩; rw [h2 _ _ e (h1 _ k1)]
  · simp [k1, k2, NRes.toRes]

/-! ## Days of the week -/

theorem weekdayStops_of {s : Str} {t : Trace} (h : Traced.weekday s = .err t) : WeekdayStops s t := by
  match s with
  | [] => cases h; exact .inl ⟨by simp, rfl⟩
  | [_] => cases h; exact .inl ⟨by simp, rfl⟩
  | a :: b :: r =>
    refine .inr ⟨by simp, ?_⟩
    simp only [Traced.weekday, Traced.context, Traced.adding, Traced.mapRes, Traced.twoChars, Traced.pair, Traced.anychar] at h
    revert h
    cases Weekday.ofChars a b <;> intro h <;> cases h
    rfl

theorem weekdayStops_det {s : Str} {t t' : Trace} (h : WeekdayStops s t) (h' : WeekdayStops s t') : t = t' := by
  rcases h with ⟨k, rfl⟩ | ⟨k, rfl⟩ <;> rcases h' with ⟨k', rfl⟩ | ⟨k', rfl⟩ <;> first | rfl | omega

/-- **C95** for a day of the week. -/
theorem C95_Weekday (s : Str) (t : Trace) : Traced.weekday s = .err t ↔ Weekday.ofStr s = .err .parser ∧ WeekdayStops s t :=
  trace_iff Traced.sim_weekday (fun _ => weekdayStops_of) (fun _ _ => weekdayStops_det) t

/-- **C95** for a day of the week with a number. -/
theorem C95_WeekdayNum (s : Str) (t : Trace) : Traced.weekdaynum s = .err t ↔ WeekdayNum.ofStr s = .err .parser ∧ WeekdayNumStops s t := by
  refine trace_iff Traced.sim_weekdaynum (fun t h => ?_) (fun t t' => ?_) t
  · have hn : ∀ r, (∃ a, Nom.opt Ikal.nomI8 s = .ok r a) → AfterNumber s r := by
      rintro r ⟨a, ha⟩
      unfold Nom.opt at ha
      revert ha
      cases hi : Ikal.nomI8 s with
      | ok r' n =>
        intro ha; cases ha
        obtain ⟨t, h1, h2, h3, h4, h5⟩ := nomI8_ok.1 hi
        exact .inl ⟨t, n, h1, h2, h3, h4, h5⟩
      | err =>
        intro ha; cases ha
        refine .inr ⟨rfl, fun t n r' h1 h2 h3 h4 => Classical.byContradiction fun hc => ?_⟩
        have := nomI8_ok.2 ⟨t, h1, h2, h3, h4, fun c hc' => by
          cases hd : c.isDigit
          · rfl
          · exact absurd ⟨c, hc', hd⟩ hc⟩
        rw [hi] at this; cases this
      | panic => intro ha; cases ha
    simp only [Traced.weekdaynum, Traced.context, Traced.adding, Traced.map, Traced.pair] at h
    rcases (Traced.sim_opt Traced.sim_nomI8).cases s with ⟨r, a, h1, h2⟩ | ⟨t', h1, h2⟩ | ⟨h1, h2⟩
    · rw [h1] at h
      dsimp only at h
      revert h
      cases hw : Traced.weekday r <;> intro h <;> cases h
      exact ⟨r, _, hn r ⟨a, h2⟩, weekdayStops_of hw, rfl⟩
    · unfold Nom.opt at h2; split at h2 <;> cases h2
    · rw [h1] at h; cases h
  · rintro ⟨r, u, h1, h2, rfl⟩ ⟨r', u', h1', h2', rfl⟩
    have : r = r' := by
      rcases h1 with ⟨x, n, a1, a2, a3, a4, a5⟩ | ⟨rfl, h⟩ <;> rcases h1' with ⟨x', n', b1, b2, b3, b4, b5⟩ | ⟨rfl, h'⟩
      · have e1 := nomI8_ok.2 ⟨x, a1, a2, a3, a4, a5⟩
        have e2 := nomI8_ok.2 ⟨x', b1, b2, b3, b4, b5⟩
        rw [e1] at e2; injection e2 with e2
      · obtain ⟨c, k1, k2⟩ := h' _ _ _ a1 a2 a3 a4
        rw [a5 c k1] at k2; cases k2
      · obtain ⟨c, k1, k2⟩ := h _ _ _ b1 b2 b3 b4
        rw [b5 c k1] at k2; cases k2
      · rfl
    subst this
    rw [weekdayStops_det h2 h2']

/-! ## Dates -/

theorem traced_dateTime_err {s : Str} {t : Trace} (h : Traced.dateTime s = .err t) : t = [(s, .nom .fail)] := by
  unfold Traced.dateTime at h
  split at h
  · split at h <;> cases h
  · cases h; rfl

/-- **C95** for a date-time. -/
theorem C95_DateTime (s : Str) (t : Trace) :
    Traced.dateTime s = .err t ↔ dateTimeProp (ContentLine.ofValue s) = .err .parser ∧ DateTimeStops s t :=
  trace_iff Traced.sim_dateTime (fun _ => traced_dateTime_err) (fun _ _ h h' => h.trans h'.symm) t

theorem traced_map_err {α β : Type} {p : TP α} {f : α → β} {i : Str} {t : Trace} : Traced.map p f i = .err t ↔ p i = .err t := by
  unfold Traced.map
  cases p i <;> simp

theorem traced_adding_err {α : Type} {p : TP α} {k : TraceKind} {i : Str} {t : Trace} :
    Traced.adding k p i = .err t ↔ ∃ t', p i = .err t' ∧ t = t' ++ [(i, k)] := by
  unfold Traced.adding
  cases p i <;> simp [eq_comm]

theorem traced_orElse_err {α : Type} {p q : TP α} {i : Str} {t : Trace} :
    Traced.orElse p q i = .err t ↔ (∃ t', p i = .err t') ∧ q i = .err t := by
  unfold Traced.orElse
  cases p i <;> simp

/-- **C95** for a date or a date-time. -/
theorem C95_Date (s : Str) (t : Trace) : Traced.dateOrDt s = .err t ↔ dateProp (ContentLine.ofValue s) = .err .parser ∧ DateStops s t := by
  refine trace_iff Traced.sim_dateOrDt (fun t h => ?_) (fun _ _ h h' => h.trans h'.symm) t
  unfold Traced.dateOrDt Traced.context Traced.alt at h
  simp only [traced_adding_err, traced_orElse_err, traced_map_err] at h
  obtain ⟨t1, ⟨t2, ⟨-, h⟩, rfl⟩, rfl⟩ := h
  rw [traced_dateTime_err h]
  rfl

/-! ## Durations, triggers and periods -/

theorem traced_opt_err {α : Type} {p : TP α} {i : Str} {t : Trace} : Traced.opt p i ≠ .err t := by
  unfold Traced.opt
  cases p i <;> simp

theorem traced_pair_err {α β : Type} {p : TP α} {q : TP β} {i : Str} {t : Trace} :
    Traced.pair p q i = .err t ↔ p i = .err t ∨ ∃ r a, p i = .ok r a ∧ q r = .err t := by
  unfold Traced.pair
  cases h : p i with
  | ok r a => cases h' : q r <;> simp [h']
  | err t => simp
  | panic => simp

theorem traced_mapRes_err {α β : Type} {p : TP α} {f : α → Res β} {i : Str} {t : Trace} :
    Traced.mapRes p f i = .err t ↔ p i = .err t ∨ ∃ r a e, p i = .ok r a ∧ f a = .err e ∧ t = [(i, .nom .mapRes)] := by
  unfold Traced.mapRes
  cases h : p i with
  | ok r a =>
    cases h' : f a with
    | ok b => simp only [h', reduceCtorEq, false_or, TRes.ok.injEq, false_iff]; rintro ⟨_, _, _, ⟨-, rfl⟩, k, -⟩; rw [h'] at k; cases k
    | err e =>
      simp only [h', TRes.err.injEq, TRes.ok.injEq, reduceCtorEq, false_or]
      constructor
      · rintro rfl; exact ⟨_, _, _, ⟨rfl, rfl⟩, h', rfl⟩
      · rintro ⟨_, _, _, -, -, rfl⟩; rfl
    | panic => simp only [h', reduceCtorEq, false_or, TRes.ok.injEq, false_iff]; rintro ⟨_, _, _, ⟨-, rfl⟩, k, -⟩; rw [h'] at k; cases k
  | err t => simp
  | panic => simp

theorem traced_tag_err {x i : Str} {t : Trace} : Traced.tag x i = .err t ↔ stripPrefix x i = none ∧ t = [(i, .nom .tag)] := by
  unfold Traced.tag
  cases stripPrefix x i <;> simp [eq_comm]

theorem traced_char_err {c : Char} {i : Str} {t : Trace} : Traced.char c i = .err t ↔ i.head? ≠ some c ∧ t = [(i, .chr c)] := by
  unfold Traced.char
  cases i with
  | nil => simp [eq_comm]
  | cons d r =>
    by_cases h : d = c
    · simp [h]
    · simp only [h, if_false, TRes.err.injEq, List.head?_cons, ne_eq, Option.some.injEq, not_false_eq_true, true_and]; exact eq_comm

theorem traced_duration_err {s : Str} {t : Trace} (h : Traced.durationP s = .err t) : DurationStops s t := by
  unfold Traced.durationP Traced.context at h
  rw [traced_adding_err] at h
  obtain ⟨t1, h, rfl⟩ := h
  simp only [traced_mapRes_err, traced_pair_err, Traced.preceded, traced_map_err, traced_opt_err, false_or, and_false, exists_false, or_false, traced_tag_err] at h
  rcases h with ⟨r, a, h1, h2, rfl⟩ | ⟨r, a, e, h1, h2, -⟩
  · refine ⟨r, ?_, ?_, rfl⟩
    · unfold Traced.opt Traced.tag at h1
      match s with
      | [] => simp [stripPrefix] at h1; simp [h1.1]
      | c :: s =>
        by_cases hc : c = '-'
        · subst hc; simp [stripPrefix] at h1; exact .inl (by rw [h1.1])
        · have : ¬ '-' = c := fun k => hc k.symm
          simp [stripPrefix, this] at h1; exact .inr ⟨h1.1.symm, by simp [hc]⟩
    · intro k
      cases r with
      | nil => cases k
      | cons c r => simp at k; subst k; simp [stripPrefix] at h2
  · obtain ⟨a1, a2, a3, a4⟩ := a
    dsimp only at h2
    unfold Res.unwrap at h2
    split at h2 <;> cases h2

/-- **C95** for a duration. -/
theorem C95_Duration (s : Str) (t : Trace) :
    Traced.durationP s = .err t ↔ duration (ContentLine.ofValue s) = .err .parser ∧ DurationStops s t := by
  refine trace_iff Traced.sim_durationP (fun _ => traced_duration_err) (fun t t' => ?_) t
  rintro ⟨r, h1, h2, rfl⟩ ⟨r', h1', h2', rfl⟩
  rcases h1 with rfl | ⟨rfl, h⟩ <;> rcases h1' with h1' | ⟨rfl, h'⟩
  · injection h1' with _ h; rw [h]
  · simp at h'
  · subst h1'; simp at h
  · rfl

/-- **C95** for a trigger. -/
theorem C95_Trigger (s : Str) (t : Trace) :
    Traced.trigger s = .err t ↔ trigger (ContentLine.ofValue s) = .err .parser ∧ TriggerStops s t := by
  refine trace_iff Traced.sim_trigger (fun t h => ?_) (fun _ _ h h' => h.trans h'.symm) t
  unfold Traced.trigger Traced.alt at h
  simp only [traced_adding_err, traced_orElse_err, traced_map_err] at h
  obtain ⟨t1, ⟨-, h⟩, rfl⟩ := h
  rw [traced_dateTime_err h]
  rfl

theorem traced_dateTime_ok {s : Str} : (∃ t, Traced.dateTime s = .err t) ↔ ¬ ∃ v, DateTimeValue s v := by
  rw [Traced.sim_dateTime.err_iff]
  have := C70_date_time_value (ContentLine.ofValue s)
  constructor
  · rintro h ⟨v, hv⟩
    have := (this v).2 hv
    unfold dateTimeProp at this
    rw [show (ContentLine.ofValue s).value = s from rfl, h] at this
    cases this
  · intro h
    cases k : Ikal.dateTime s with
    | ok r v => exact absurd ⟨v, (this v).1 (by unfold dateTimeProp; rw [show (ContentLine.ofValue s).value = s from rfl, k]; rfl)⟩ h
    | err => rfl
    | panic => unfold Ikal.dateTime at k; split at k <;> first | (split at k <;> cases k) | cases k

theorem slash_cases (s : Str) : (∃ a b, s = a ++ '/' :: b ∧ '/' ∉ a) ∨ '/' ∉ s := by
  by_cases h : '/' ∈ s
  · obtain ⟨a, b, rfl, hn⟩ := List.eq_append_cons_of_mem h
    exact .inl ⟨a, b, rfl, hn⟩
  · exact .inr h

theorem not_slash {a : Str} (h : '/' ∉ a) : ∀ c ∈ a, c ≠ '/' := fun c hc e => h (e ▸ hc)

/-- **C95** for a period. -/
theorem C95_Period (s : Str) (t : Trace) : Traced.period s = .err t ↔ period s = .err .parser ∧ PeriodStops s t := by
  have key : ∀ t, Traced.period s = .err t → PeriodStops s t := by
    intro t h
    unfold Traced.period at h
    rcases slash_cases s with ⟨a, b, rfl, ha⟩ | hs
    · rw [splitSlash_append (not_slash ha)] at h
      dsimp only at h
      cases hd : Traced.dateTime a with
      | err t' =>
        rw [hd] at h
        injection h with h
        subst h
        exact .inl ⟨a, '/' :: b, rfl, ha, .inr rfl, traced_dateTime_ok.1 ⟨_, hd⟩, traced_dateTime_err hd⟩
      | ok r v =>
        rw [hd] at h
        have hv : ∃ v, DateTimeValue a v := Classical.byContradiction fun k => by
          obtain ⟨t, ht⟩ := traced_dateTime_ok.2 k
          rw [hd] at ht; cases ht
        dsimp only at h
        split at h
        · next hb =>
          rw [traced_map_err] at h
          obtain ⟨r, h1, h2, rfl⟩ := traced_duration_err h
          rcases h1 with rfl | ⟨rfl, h1⟩
          · cases hb
          · exact absurd hb h2
        · next hb =>
          rw [traced_map_err] at h
          exact .inr ⟨a, b, rfl, ha, hv, hb, traced_dateTime_err h⟩
      | panic => rw [hd] at h; cases h
    · rw [splitSlash_none (not_slash hs)] at h
      dsimp only at h
      cases hd : Traced.dateTime s with
      | err t' =>
        rw [hd] at h
        injection h with h
        subst h
        exact .inl ⟨s, [], by simp, hs, .inl rfl, traced_dateTime_ok.1 ⟨_, hd⟩, traced_dateTime_err hd⟩
      | ok r v => rw [hd] at h; cases h
      | panic => rw [hd] at h; cases h
  have unique {a a' r r' : Str} (ha : '/' ∉ a) (ha' : '/' ∉ a') (hr : r = [] ∨ r.head? = some '/') (hr' : r' = [] ∨ r'.head? = some '/')
      (e : a ++ r = a' ++ r') : a = a' ∧ r = r' := by
    have h1 : a = (a ++ r).takeWhile (fun c => decide (c ≠ '/')) := by
      rw [List.takeWhile_append_of_pos (by intro c hc; simpa using not_slash ha c hc)]
      rcases hr with rfl | hr
      · simp
      · cases r with
        | nil => simp
        | cons c r => simp at hr; simp [hr]
    have h2 : a' = (a' ++ r').takeWhile (fun c => decide (c ≠ '/')) := by
      rw [List.takeWhile_append_of_pos (by intro c hc; simpa using not_slash ha' c hc)]
      rcases hr' with rfl | hr
      · simp
      · cases r' with
        | nil => simp
        | cons c r => simp at hr; simp [hr]
    have : a = a' := by rw [h1, h2, e]
    subst this
    exact ⟨rfl, List.append_cancel_left e⟩
  have det : ∀ t t', PeriodStops s t → PeriodStops s t' → t = t' := by
    rintro t t' (⟨a, r, e, h1, h2, h3, rfl⟩ | ⟨a, b, e, h1, h2, h3, rfl⟩) (⟨a', r', e', h1', h2', h3', rfl⟩ | ⟨a', b', e', h1', h2', h3', rfl⟩)
    · rw [(unique h1 h1' h2 h2' (e.symm.trans e')).1]
    · obtain ⟨rfl, -⟩ := unique h1 h1' h2 (.inr rfl) (e.symm.trans e')
      exact absurd h2' h3
    · obtain ⟨rfl, -⟩ := unique h1 h1' (.inr rfl) h2' (e.symm.trans e')
      exact absurd h2 h3'
    · obtain ⟨-, e⟩ := unique h1 h1' (.inr rfl) (.inr rfl) (e.symm.trans e')
      injection e with _ e; rw [e]
  rw [← Traced.forget_period]
  cases h : Traced.period s with
  | ok r a => simp [TRes.forget, NRes.toRes]
  | err t' =>
    constructor
    · intro e; injection e with e; subst e; exact ⟨rfl, key _ h⟩
    · rintro ⟨-, e⟩; rw [det _ _ e (key _ h)]
  | panic => simp [TRes.forget, NRes.toRes]

/-! ## Recurrence rules -/

theorem traced_key_ok {i r k : Str} : Traced.key i = .ok r k ↔ i = k ++ r ∧ IsName k ∧ ∀ c, r.head? = some c → ¬ NameChar c := by
  rw [Traced.sim_key.ok_iff, key_ok]

theorem traced_key_err {i : Str} {t : Trace} : Traced.key i ≠ .err t := by
  unfold Traced.key Traced.context
  rw [Ne, traced_adding_err]
  rintro ⟨t, h, -⟩
  cases h

theorem traced_item_err {s : Str} {t : Trace} (h : Traced.rruleItem s = .err t) : ∃ k r, s = k ++ r ∧ IsName k ∧
    (∀ c, r.head? = some c → c ≠ '=' ∧ ¬ NameChar c) ∧ t = [(r, .chr '='), (s, .context c!"item")] := by
  unfold Traced.rruleItem Traced.context Traced.terminated Traced.separatedPair Traced.preceded at h
  simp only [traced_adding_err, traced_map_err, traced_pair_err, traced_opt_err, traced_key_err, traced_char_err, and_false, exists_false, or_false, false_or] at h
  obtain ⟨t', ⟨r, k, h1, h2⟩, rfl⟩ := h
  rcases h2 with ⟨h2, rfl⟩ | ⟨_, _, -, h2⟩
  · obtain ⟨e1, e2, e3⟩ := traced_key_ok.1 h1
    exact ⟨k, r, e1, e2, fun c hc => ⟨fun e => h2 (e ▸ hc), e3 c hc⟩, rfl⟩
  · cases h2

theorem traced_many0Go_err {α : Type} {p : TP α} (hp : ∀ i r a, p i = .ok r a → r.length < i.length) : ∀ (n : Nat) (i : Str) (t : Trace), i.length < n →
    Traced.many0Go p n i ≠ .err t := by
  intro n
  induction n with
  | zero => intro i t h; omega
  | succ n ih =>
    intro i t hi
    unfold Traced.many0Go
    cases h : p i with
    | ok r a =>
      have := hp _ _ _ h
      simp only [this, if_true]
      cases h' : Traced.many0Go p n r with
      | err t' => exact absurd h' (ih r t' (by omega))
      | ok r' as => simp
      | panic => simp
    | err t' => simp
    | panic => simp

/-- **C95** for a recurrence rule. -/
theorem C95_Recur (s : Str) (t : Trace) : Traced.rrule s = .err t ↔ Recur.ofStr s = .err .parser ∧ RecurStops s t := by
  have short : ∀ i r a, Traced.rruleItem i = .ok r a → r.length < i.length := by
    rintro i r ⟨k, v⟩ h
    rw [Traced.sim_rruleItem.ok_iff, rruleItem_ok] at h
    obtain ⟨_, _, rfl | ⟨rfl, rfl⟩⟩ := h <;> simp <;> omega
  refine trace_iff Traced.sim_rrule (fun t h => ?_) (fun t t' => ?_) t
  · unfold Traced.rrule Traced.context at h
    rw [traced_adding_err] at h
    obtain ⟨t1, h, rfl⟩ := h
    rw [traced_mapRes_err] at h
    rcases h with h | ⟨r, a, e, h1, -, rfl⟩
    · left
      unfold Traced.many1 at h
      cases hi : Traced.rruleItem s with
      | err t' =>
        rw [hi] at h
        obtain ⟨k, r, e1, e2, e3, rfl⟩ := traced_item_err hi
        cases h
        exact ⟨k, r, e1, e2, e3, rfl⟩
      | ok r a =>
        rw [hi] at h
        dsimp only at h
        cases h' : Traced.many0 Traced.rruleItem r with
        | err t' => exact absurd h' (traced_many0Go_err short _ _ _ (by omega))
        | ok _ _ => rw [h'] at h; cases h
        | panic => rw [h'] at h; cases h
      | panic => rw [hi] at h; cases h
    · right
      unfold Traced.many1 at h1
      cases hi : Traced.rruleItem s with
      | err t' => rw [hi] at h1; cases h1
      | ok r a =>
        obtain ⟨k, v⟩ := a
        rw [Traced.sim_rruleItem.ok_iff, rruleItem_ok] at hi
        obtain ⟨hk, -, hs | ⟨hs, -⟩⟩ := hi
        · exact ⟨⟨k, v ++ ';' :: r, by rw [hs]; simp, hk⟩, rfl⟩
        · exact ⟨⟨k, v, hs, hk⟩, rfl⟩
      | panic => rw [hi] at h1; cases h1
  · have unique {k k' r r' : Str} (hk : IsName k) (hk' : IsName k') (hr : ∀ c, r.head? = some c → ¬ NameChar c)
        (hr' : ∀ c, r'.head? = some c → ¬ NameChar c) (e : k ++ r = k' ++ r') : k = k' ∧ r = r' := by
      have h1 := traced_key_ok.2 ⟨rfl, hk, hr⟩
      rw [e, traced_key_ok.2 ⟨rfl, hk', hr'⟩] at h1
      injection h1 with h1 h2
      exact ⟨h2.symm, h1.symm⟩
    have eqName : ¬ NameChar '=' := by unfold NameChar; decide
    have eqHead (r : Str) : ∀ c, ('=' :: r).head? = some c → ¬ NameChar c := by intro c hc; simp at hc; subst hc; exact eqName
    rintro (⟨k, r, e, h1, h2, rfl⟩ | ⟨⟨k, r, e, h1⟩, rfl⟩) (⟨k', r', e', h1', h2', rfl⟩ | ⟨⟨k', r', e', h1'⟩, rfl⟩)
    · rw [(unique h1 h1' (fun c hc => (h2 c hc).2) (fun c hc => (h2' c hc).2) (e.symm.trans e')).2]
    · obtain ⟨-, rfl⟩ := unique h1 h1' (fun c hc => (h2 c hc).2) (eqHead r') (e.symm.trans e')
      exact absurd rfl (h2 _ rfl).1
    · obtain ⟨-, rfl⟩ := unique h1 h1' (eqHead r) (fun c hc => (h2' c hc).2) (e.symm.trans e')
      exact absurd rfl (h2' _ rfl).1
    · rfl

/-! ## Numbers -/

theorem traced_float_err [FloatTrace] {s : Str} {t : Trace} : Traced.float s = .err t ↔ Platform.floatParse s = none ∧ t = FloatTrace.trace s := by
  unfold Traced.float
  cases Platform.floatParse s <;> simp [eq_comm]

theorem traced_float_ok [FloatTrace] {s r : Str} {x : Platform.F32} : Traced.float s = .ok r x ↔ Platform.floatParse s = some (x, r) := by
  unfold Traced.float
  rcases Platform.floatParse s with _ | ⟨y, q⟩ <;> simp [and_comm]

theorem traced_char_ok {c d : Char} {i r : Str} : Traced.char c i = .ok r d ↔ i = c :: r ∧ d = c := by
  unfold Traced.char
  cases i with
  | nil => simp
  | cons e q =>
    by_cases h : e = c
    · simp [h, eq_comm]
    · simp [h]

/-- **C95** for a position. -/
theorem C95_Geo [FloatTrace] (s : Str) (t : Trace) : Traced.geo s = .err t ↔ geo (ContentLine.ofValue s) = .err .parser ∧ GeoStops s t := by
  have key (t : Trace) : Traced.geo s = .err t ↔ GeoStops s t := by
    unfold Traced.geo Traced.separatedPair Traced.preceded GeoStops
    simp only [traced_map_err, traced_pair_err, traced_float_err, traced_float_ok, traced_char_err, traced_char_ok]
    constructor
    · rintro (h | ⟨r, x, h1, h2⟩)
      · exact .inl h
      · rcases h2 with h2 | ⟨r', c, ⟨rfl, rfl⟩, h3⟩
        · exact .inr ⟨x, r, h1, .inl h2⟩
        · exact .inr ⟨x, _, h1, .inr ⟨r', rfl, h3⟩⟩
    · rintro (h | ⟨x, r, h1, h2 | ⟨r', rfl, h3⟩⟩)
      · exact .inl h
      · exact .inr ⟨r, x, h1, .inl h2⟩
      · exact .inr ⟨_, x, h1, .inr ⟨r', _, ⟨rfl, rfl⟩, h3⟩⟩
  refine trace_iff Traced.sim_geo (fun t => (key t).1) (fun t t' h h' => ?_) t
  have h := (key t).2 h
  rw [(key t').2 h'] at h
  injection h with h
  exact h.symm

/-- **C95** for a request status. -/
theorem C95_RequestStatus [FloatTrace] (s : Str) (t : Trace) :
    Traced.rstatus s = .err t ↔ rstatus (ContentLine.ofValue s) = .err .parser ∧ RequestStatusStops s t := by
  have text (c : Str) (p : Char → Bool) (i : Str) (t : Trace) : Traced.context c (Traced.takeWhile p) i ≠ .err t := by
    unfold Traced.context; rw [Ne, traced_adding_err]; rintro ⟨t, h, -⟩; cases h
  have key (t : Trace) : Traced.rstatus s = .err t ↔ RequestStatusStops s t := by
    unfold Traced.rstatus RequestStatusStops Traced.context
    rw [traced_adding_err]
    have : ∀ (A B : Trace → Prop), (∀ x, A x ↔ B x) → ((∃ t', A t' ∧ t = t' ++ [(s, .context c!"rstatus")]) ↔
        ∃ t', t = t' ++ [(s, .context c!"rstatus")] ∧ B t') := by
      intro A B h; constructor <;> rintro ⟨x, h1, h2⟩
      · exact ⟨x, h2, (h x).1 h1⟩
      · exact ⟨x, (h x).2 h2, h1⟩
    refine this _ _ fun x => ?_
    have t1 (i : Str) (t : Trace) : Traced.adding (.context c!"text") (Traced.takeTill fun c => c = ';') i ≠ .err t := text _ _ i t
    simp only [traced_map_err, traced_pair_err, traced_float_err, traced_float_ok, traced_char_err, traced_opt_err, t1, and_false, exists_false, or_false]
    constructor
    · rintro (h | ⟨r, x, h1, h2⟩)
      · exact .inl h
      · exact .inr ⟨x, r, h1, h2⟩
    · rintro (h | ⟨x, r, h1, h2⟩)
      · exact .inl h
      · exact .inr ⟨r, x, h1, h2⟩
  refine trace_iff Traced.sim_rstatus (fun t => (key t).1) (fun t t' h h' => ?_) t
  have h := (key t).2 h
  rw [(key t').2 h'] at h
  injection h with h
  exact h.symm

end

end Ikal
