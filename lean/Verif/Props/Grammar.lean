import Verif.Props.Broken
import Verif.Props.Panic
import Verif.Spec.Grammar
import Verif.Lemmas.Scan

/-!
# C69, C70: the `VALUE` parameter, and the grammars of structured values
-/

set_option linter.unusedSectionVars false

namespace Ikal

open Nom Spec

section
variable [Platform]

/-! ## C69: what is written as the `VALUE` parameter -/

/-- The line written for a value is read as its name, parameters and text. -/
theorem line_read_back {α : Type} [Ser α] (hc : Ser.isComponent α = false) {name : Str} {v : α} {m : SMap Str} {s out : Str}
    (hn : SafeName name) (hw : WrittenAs v m s) (hs : s ≠ []) (h : field name v = .ok out) (rest : Str) :
    contentLine (unfold out ++ rest) = .ok rest ⟨name, m, s⟩ := by
  have hl := no_lf_line (v := s) hn.1 hw.params hw.clean.lf
  have hu : unfold out = propertyLine name (paramsAttr m) s := by
    rw [← hw.attr]
    refine C01_unfold_folded hc name v _ out hw.ical hs ?_ h
    rw [hw.attr, propertyLine_safe hw.params]
    exact not_fold_of_no_lf hl
  rw [hu]
  exact contentLine_ok.2 (lineText_written hn hw.params hw.clean.lf hw.clean.cr rest)

/-- The text of several dates. -/
def datesText (l : List Date) : Str := join [','] (l.map Date.toStr)

theorem dateParams_eq (x : Date) : dateParams x = if x.hasTime then [] else [(c!"VALUE", c!"DATE")] := by cases x <;> rfl

/-- **C69**: the line written for a date says `VALUE=DATE` exactly when the date has no time, and has no other parameter; so does
that of an optional date. -/
theorem C69_date (name : Str) (hn : SafeName name) (x : Date) (out : Str) (rest : Str) (h : field name x = .ok out ∨ field name (some x) = .ok out) :
    contentLine (unfold out ++ rest) = .ok rest ⟨name, if x.hasTime then [] else [(c!"VALUE", c!"DATE")], x.toStr⟩ := by
  rw [field_some rfl, or_self] at h
  rw [← dateParams_eq]
  exact line_read_back rfl hn (written_date x) (dateOrTime_ne x) h rest

theorem written_dates (l : List Date) : WrittenAs l [] (datesText l) := by
  refine ⟨?_, ?_, rfl, safeParams_nil⟩
  · show (Res.mapM' Ser.ical l).map _ = _
    have : Res.mapM' (Ser.ical : Date → Res Str) l = .ok (l.map Date.toStr) := by
      induction l with
      | nil => rfl
      | cons a l ih => unfold Res.mapM'; rw [ih]; rfl
    rw [this]; rfl
  · refine clean_commas fun s hs => ?_
    obtain ⟨d, _, rfl⟩ := List.mem_map.1 hs
    exact free_dateOrTime d

theorem datesText_ne {l : List Date} (h : l ≠ []) : datesText l ≠ [] := by
  cases l with
  | nil => exact absurd rfl h
  | cons a l =>
    unfold datesText
    cases l with
    | nil => simpa [join] using dateOrTime_ne a
    | cons b l => rw [List.map_cons, join_cons _ _ _ (by simp)]; simp

/-- **C69**, the limit: in the line written for two or more excluded dates there is no `VALUE=DATE`, although the dates may have
no time; a single one is written as a date. -/
theorem C69_excluded_dates (name : Str) (hn : SafeName name) (l : List Date) (out rest : Str) (h : Field.serVec name l = .ok out) :
    (∀ x, l = [x] → contentLine (unfold out ++ rest) = .ok rest ⟨name, if x.hasTime then [] else [(c!"VALUE", c!"DATE")], x.toStr⟩) ∧
    (1 < l.length → contentLine (unfold out ++ rest) = .ok rest ⟨name, [], join [','] (l.map Date.toStr)⟩) := by
  constructor
  · rintro x rfl
    exact C69_date name hn x out rest (.inl h)
  · intro hl
    match l, hl with
    | a :: b :: l, _ =>
      exact line_read_back rfl hn (written_dates (a :: b :: l)) (datesText_ne (by simp)) h rest

/-- **C69**: the line written for a trigger says whether it is a date-time or a duration. -/
theorem C69_trigger (name : Str) (hn : SafeName name) (out rest : Str) :
    (∀ t, field name (Trigger.dateTime t) = .ok out →
      contentLine (unfold out ++ rest) = .ok rest ⟨name, [(c!"VALUE", c!"DATE-TIME")], t.toStr⟩) ∧
    (∀ d, field name (Trigger.duration d) = .ok out →
      contentLine (unfold out ++ rest) = .ok rest ⟨name, [(c!"VALUE", c!"DURATION")], d.toStr⟩) :=
  ⟨fun t h => line_read_back rfl hn (written_trigger (.dateTime t)) (dateTime_ne t) h rest,
   fun d h => line_read_back rfl hn (written_trigger (.duration d)) (delta_ne d) h rest⟩

/-- **C69**, the limit: the line written for recurrence dates has no parameter; `VALUE=` is part of the value, and this value is
not accepted. -/
theorem C69_recurrence_dates (name : Str) (hn : SafeName name) (r : RDate) (out rest : Str) (h : field name r = .ok out) :
    ∃ l, contentLine (unfold out ++ rest) = .ok rest l ∧ l.key = name ∧ l.params = [] ∧
      (∀ ds, r = .date ds → l.value = c!"VALUE=DATE:" ++ join [','] (ds.map Date.toStr)) ∧
      (∀ ps, r = .period ps → l.value = c!"VALUE=PERIOD:" ++ join [','] (ps.map Period.toStr)) ∧
      ∀ x, rdate l ≠ .ok x := by
  refine ⟨_, line_read_back rfl hn (written_rdate r) (rdate_ne r) h rest, rfl, rfl, ?_, ?_, ?_⟩
  · rintro ds rfl; rfl
  · rintro ps rfl; rfl
  · intro x hx
    have hv : ∃ s, r.toStr = 'V' :: s := by cases r <;> exact ⟨_, rfl⟩
    obtain ⟨s, hs⟩ := hv
    unfold rdate at hx
    rw [if_neg (by simp [SMap.get?])] at hx
    obtain ⟨v, hx⟩ : ∃ v, Res.mapM' (fun s => (dateOrDt s).toRes) (splitOn ',' r.toStr) = .ok v := by
      cases hm : Res.mapM' (fun s => (dateOrDt s).toRes) (splitOn ',' r.toStr) with
      | ok v => exact ⟨v, rfl⟩
      | err e => simp only [hm] at hx; cases hx
      | panic => simp only [hm] at hx; cases hx
    have := mapM'_all2.1 hx
    have hp : CommaPieces ('V' :: s) (splitOn ',' ('V' :: s)) := pieces_iff.2 rfl
    rw [hs] at this
    generalize splitOn ',' ('V' :: s) = ps at *
    have : ∃ y q, ps = ('V' :: y) :: q := by
      generalize he : 'V' :: s = z at hp
      cases hp with
      | last h => exact ⟨s, [], by rw [he]⟩
      | @more a r q h hq =>
        cases a with
        | nil => simp at he
        | cons c a => simp at he; exact ⟨a, q, by rw [he.1]⟩
    obtain ⟨y, q, rfl⟩ := this
    cases ‹All2 _ _ v› with
    | cons h _ => exact Field.dateOrDt_v _ _ h

/-- **C69**: when reading, the parameters of a line, `VALUE` among them, make no difference, except that texts and URIs keep them
and that recurrence dates are periods with `VALUE=PERIOD`. -/
theorem C69_parameters_ignored (l l' : ContentLine) (h : l.value = l'.value) :
    dateProp l = dateProp l' ∧ dateTimeProp l = dateTimeProp l' ∧ trigger l = trigger l' ∧ duration l = duration l' ∧ exdate l = exdate l' ∧
    freebusy l = freebusy l' ∧ geo l = geo l' ∧ rstatus l = rstatus l' ∧ rrule l = rrule l' ∧ status l = status l' ∧ transp l = transp l' ∧
    classProp l = classProp l' ∧ u32Prop l = u32Prop l' ∧ percentComplete l = percentComplete l' ∧ priority l = priority l' ∧
    offsetProp l = offsetProp l' ∧ textListProp l = textListProp l' ∧
    (textProp l = textProp l' ↔ l.params = l'.params) ∧ (uriProp l = uriProp l' ↔ l.params = l'.params) ∧
    ((SMap.get? l.params c!"VALUE" = some c!"PERIOD" ↔ SMap.get? l'.params c!"VALUE" = some c!"PERIOD") → rdate l = rdate l') := by
  unfold dateProp dateTimeProp trigger duration exdate freebusy geo rstatus rrule status transp classProp u32Prop percentComplete priority
    offsetProp textListProp textProp uriProp rdate Text.ofLine Uri.ofLine
  rw [h]
  refine ⟨rfl, rfl, rfl, rfl, rfl, rfl, rfl, rfl, rfl, rfl, rfl, rfl, rfl, rfl, rfl, rfl, rfl, ?_, ?_, ?_⟩
  · simp
  · simp
  · intro hp
    by_cases h' : SMap.get? l.params c!"VALUE" = some c!"PERIOD"
    · rw [if_pos h', if_pos (hp.1 h')]
    · rw [if_neg h', if_neg (fun e => h' (hp.2 e))]

/-! ## C70: grammars -/

theorem toRes_ok {α : Type} {x : NRes α} {a : α} : x.toRes = .ok a ↔ ∃ r, x = .ok r a := by cases x <;> simp [NRes.toRes]

/-- **C70**: a text is read as a date if it is one, and as a date-time otherwise; the two never overlap. -/
theorem C70_date (l : ContentLine) :
    (∀ t, dateProp l = .ok (.dateTime t) ↔ dateTimeProp l = .ok t) ∧
    ((∃ x, dateProp l = .ok x) ↔ (∃ d, dateProp l = .ok (.date d)) ∨ ∃ t, dateTimeProp l = .ok t) := by
  have key : ∀ t, dateProp l = .ok (.dateTime t) ↔ dateTimeProp l = .ok t := by
    intro t
    unfold dateProp dateTimeProp dateOrDt
    simp only [toRes_ok, alt_ok, map_ok]
    constructor
    · rintro ⟨r, (⟨x, _, e⟩ | ⟨_, x, h, e⟩)⟩
      · cases e
      · cases e; exact ⟨r, h⟩
    · rintro ⟨r, h⟩
      refine ⟨r, .inr ⟨?_, t, h, rfl⟩⟩
      rw [map_err]
      cases hd : Ikal.date l.value with
      | err => rfl
      | panic => unfold Ikal.date at hd; split at hd <;> cases hd
      | ok q d =>
        exfalso
        unfold Ikal.date at hd
        split at hd
        · next d' hd' =>
          have h1 := parseNaiveDate_some.1 hd'
          unfold dateTime at h
          split at h
          · next t' ht =>
            have h2 := parseNaiveDateTime_some.1 ht
            have hz : trimEndZ l.value = l.value := by
              have := trimEndZ_append (s := l.value) (fun q c e => by
                obtain ⟨q', c', e', hc⟩ := h1.last
                rw [e'] at e
                have := List.append_inj' e rfl
                simp only [List.cons.injEq, and_true] at this
                rw [← this.2]; rintro rfl; exact absurd hc (by decide)) 0
              simpa using this
            rw [hz] at h2
            obtain ⟨a, _, _, _, _, _, h3, _⟩ := h2
            exact absurd (dateThen_det h1 h3) (by simp)
          · cases h
        · cases hd
  refine ⟨key, ?_⟩
  constructor
  · rintro ⟨x, h⟩
    cases x with
    | date d => exact .inl ⟨d, h⟩
    | dateTime t => exact .inr ⟨t, (key t).1 h⟩
  · rintro (⟨d, h⟩ | ⟨t, h⟩)
    · exact ⟨_, h⟩
    · exact ⟨_, (key t).2 h⟩

/-- **C70**: the texts that are dates: year, month and day of a date that exists, each with at most four or two digits, with or
without leading blanks, the year with any number of digits after a sign. -/
theorem C70_date_grammar (l : ContentLine) (d : NaiveDate) :
    (dateProp l = .ok (.date d) ↔ DateThen l.value d []) ∧ (Date.ofStr l.value = .ok (.date d) ↔ DateThen l.value d []) :=
  ⟨dateOrDt_date.trans parseNaiveDate_some, Date.ofStr_date.trans parseNaiveDate_some⟩

/-- **C70**: the texts that are date-times: as dates, with a `T` and hours, minutes and seconds; with one `Z` or several at the
end it is UTC. -/
theorem C70_date_time_grammar (l : ContentLine) (t : NaiveDateTime) :
    (dateTimeProp l = .ok (.naive t) ↔ DateTimeThen l.value t []) ∧
    (dateTimeProp l = .ok (.loc t) ↔ ∃ s n, l.value = s ++ List.replicate (n + 1) 'Z' ∧ DateTimeThen s t []) := by
  obtain ⟨n, hn, hz⟩ := trimEndZ_spec l.value
  have noZ : ∀ {s : Str} {t : NaiveDateTime}, DateTimeThen s t [] → ∀ q c, s = q ++ [c] → c ≠ 'Z' := by
    intro s t h q c e
    obtain ⟨q', c', e', hc⟩ := h.last
    rw [e'] at e
    have := List.append_inj' e rfl
    simp only [List.cons.injEq, and_true] at this
    rw [← this.2]; rintro rfl; exact absurd hc (by decide)
  have key : ∀ x, dateTimeProp l = .ok x ↔ ∃ t, DateTimeThen (trimEndZ l.value) t [] ∧ x = if n = 0 then .naive t else .loc t := by
    intro x
    unfold dateTimeProp dateTime
    cases hp : parseNaiveDateTime [] (trimEndZ l.value) with
    | none =>
      simp only [NRes.toRes, reduceCtorEq, false_iff]
      rintro ⟨t, ht, -⟩
      rw [parseNaiveDateTime_some.2 ht] at hp; cases hp
    | some t' =>
      have h' := parseNaiveDateTime_some.1 hp
      have : (if l.value.getLast? = some 'Z' then NRes.ok [] (DateTime.loc t') else NRes.ok [] (DateTime.naive t')) =
          NRes.ok [] (if n = 0 then .naive t' else .loc t') := by
        by_cases h0 : n = 0
        · rw [if_neg (fun h => hz.1 h h0), if_pos h0]
        · rw [if_pos (hz.2 h0), if_neg h0]
      simp only [this, NRes.toRes, Res.ok.injEq]
      constructor
      · rintro rfl; exact ⟨t', h', rfl⟩
      · rintro ⟨t, ht, rfl⟩
        have := parseNaiveDateTime_some.2 ht
        rw [hp] at this; cases this; rfl
  constructor
  · rw [key]
    constructor
    · rintro ⟨t', h1, h2⟩
      split at h2
      · next h0 =>
        cases h2; subst h0
        rw [List.replicate_zero, List.append_nil] at hn
        rw [hn]; exact h1
      · cases h2
    · intro h
      have e := trimEndZ_append (noZ h) 0
      rw [List.replicate_zero, List.append_nil] at e
      refine ⟨t, by rw [e]; exact h, ?_⟩
      rw [e] at hn
      have : n = 0 := by have := congrArg List.length hn; simp at this; exact this
      rw [if_pos this]
  · rw [key]
    constructor
    · rintro ⟨t', h1, h2⟩
      split at h2
      · cases h2
      · next h0 =>
        cases h2
        exact ⟨_, n - 1, by rw [Nat.sub_add_cancel (by omega)]; exact hn, h1⟩
    · rintro ⟨s, m, h1, h2⟩
      have e := trimEndZ_append (noZ h2) (m + 1)
      rw [← h1] at e
      refine ⟨t, by rw [e]; exact h2, ?_⟩
      rw [e, h1] at hn
      have := List.append_cancel_left hn
      have : n ≠ 0 := by rintro rfl; simp at this
      rw [if_neg this]

/-- **C70**: the conversion from text to date-times accepts the same floating times, and UTC with exactly one `Z`, which is then
taken as a local time; it panics if there is no such local time, if there are two, or if its instant is out of the range of years. -/
theorem C70_date_time_from_str (s : Str) (t : NaiveDateTime) :
    (DateTime.ofStr s = .ok (.naive t) ↔ DateTimeThen s t []) ∧
    (DateTime.ofStr s = .ok (.loc t) ↔ ∃ w off, DateTimeThen s w ['Z'] ∧ Platform.tzLocal w.toSecs = .single off ∧
      t = w.shift (-off) ∧ InRange t.date) ∧
    (DateTime.ofStr s = .panic ↔ ∃ w, DateTimeThen s w ['Z'] ∧
      ∀ off, Platform.tzLocal w.toSecs = .single off → ¬ InRange (w.shift (-off)).date) := by
  have disj : ∀ {a b}, DateTimeThen s a [] → ¬ DateTimeThen s b ['Z'] := by
    intro a b ha hb
    obtain ⟨q, c, e, hc⟩ := ha.last
    obtain ⟨a1, b1, c1, _, _, _, h1, h2, h3, h4, -⟩ := hb
    obtain ⟨p, hp⟩ : ['Z'] <:+ s :=
      ((h4.suffix.trans h3.suffix).trans h2.suffix).trans (List.IsSuffix.trans ⟨['T'], rfl⟩ h1.suffix)
    rw [← hp] at e
    have := List.append_inj' e rfl
    simp only [List.cons.injEq, and_true] at this
    rw [← this.2] at hc; exact absurd hc (by decide)
  unfold DateTime.ofStr
  cases h1 : parseNaiveDateTime [] s with
  | some t' =>
    have h := parseNaiveDateTime_some.1 h1
    simp only [Res.ok.injEq, reduceCtorEq, false_iff, DateTime.naive.injEq]
    refine ⟨⟨fun e => e ▸ h, fun e => ?_⟩, ?_, ?_⟩
    · have := parseNaiveDateTime_some.2 e
      rw [h1] at this; cases this; rfl
    · rintro ⟨w, off, hw, -⟩; exact disj h hw
    · rintro ⟨w, hw, -⟩; exact disj h hw
  | none =>
    have h0 : ∀ {a}, ¬ DateTimeThen s a [] := fun h => by rw [parseNaiveDateTime_some.2 h] at h1; cases h1
    simp only
    cases h2 : parseNaiveDateTime ['Z'] s with
    | none =>
      have h0' : ∀ {a}, ¬ DateTimeThen s a ['Z'] := fun h => by rw [parseNaiveDateTime_some.2 h] at h2; cases h2
      simp [h0, h0']
    | some w =>
      have hw := parseNaiveDateTime_some.1 h2
      have huniq : ∀ {a}, DateTimeThen s a ['Z'] → a = w := fun h => by
        have := parseNaiveDateTime_some.2 h; rw [h2] at this; cases this; rfl
      simp only [localSingle]
      cases hz : Platform.tzLocal w.toSecs with
      | single off =>
        cases hu : utcOf w off with
        | none =>
          have hr := utcOf_none.1 hu
          simp only [hu, Res.unwrap, Res.map, reduceCtorEq, false_iff, true_iff]
          refine ⟨h0, ?_, w, hw, fun o ho => ?_⟩
          · rintro ⟨a, o, ha, hb, rfl, hi⟩
            have := huniq ha; subst this
            rw [hz] at hb; cases hb; exact hr hi
          · rw [hz] at ho; cases ho; exact hr
        | some v =>
          obtain ⟨hr, rfl⟩ := utcOf_iff.1 hu
          simp only [hu, Res.unwrap, Res.map, Res.ok.injEq, reduceCtorEq, false_iff, DateTime.loc.injEq]
          refine ⟨h0, ⟨fun e => ⟨w, off, hw, hz, e ▸ rfl, e ▸ hr⟩, ?_⟩, ?_⟩
          · rintro ⟨a, o, ha, hb, rfl, -⟩
            have := huniq ha; subst this
            rw [hz] at hb; cases hb; rfl
          · rintro ⟨a, ha, hb⟩
            have := huniq ha; subst this
            exact hb off hz hr
      | none =>
        simp only [Res.unwrap, Res.map, reduceCtorEq, false_iff, true_iff]
        refine ⟨h0, ?_, ⟨w, hw, by rw [hz]; intro _ h; cases h⟩⟩
        rintro ⟨a, o, ha, hb, -⟩
        have := huniq ha; subst this
        rw [hz] at hb; cases hb
      | ambiguous x y =>
        simp only [Res.unwrap, Res.map, reduceCtorEq, false_iff, true_iff]
        refine ⟨h0, ?_, ⟨w, hw, by rw [hz]; intro _ h; cases h⟩⟩
        rintro ⟨a, o, ha, hb, -⟩
        have := huniq ha; subst this
        rw [hz] at hb; cases hb

/-- As `PeriodText` of the specification, with the model's readers. -/
def PeriodReads (s : Str) : Period → Prop
  | .startEnd a e => ∃ x y, s = x ++ '/' :: y ∧ '/' ∉ x ∧ y.head? ≠ some 'P' ∧ (dateTime x).toRes = .ok a ∧ (dateTime y).toRes = .ok e
  | .startDur a d => ∃ x y, s = x ++ '/' :: y ∧ '/' ∉ x ∧ y.head? = some 'P' ∧ (dateTime x).toRes = .ok a ∧
      duration (ContentLine.ofValue y) = .ok d

theorem period_reads (s : Str) (p : Period) : period s = .ok p ↔ PeriodReads s p := by
  by_cases hs : '/' ∈ s
  · obtain ⟨a, b, e, ha⟩ := List.eq_append_cons_of_mem hs
    have ha' : ∀ c ∈ a, c ≠ '/' := fun c hc h => ha (h ▸ hc)
    subst e
    have split : ∀ {x y : Str}, a ++ '/' :: b = x ++ '/' :: y → '/' ∉ x → x = a ∧ y = b := by
      intro x y h hx
      have h1 := splitSlash_append ha' b
      have h2 := splitSlash_append (a := x) (fun c hc h => hx (h ▸ hc)) y
      rw [h, h2] at h1
      simp only [Prod.mk.injEq, Option.some.injEq] at h1
      exact h1
    unfold period
    rw [splitSlash_append ha']
    simp only []
    cases h1 : (dateTime a).toRes with
    | ok t =>
      simp only [Res.bind_ok]
      split
      · next hp =>
        cases h2 : duration (ContentLine.ofValue b) with
        | ok d =>
          simp only [Res.bind_ok]
          constructor
          · intro h; cases h
            exact ⟨a, b, rfl, ha, hp, h1, h2⟩
          · intro h
            cases p with
            | startEnd x y => obtain ⟨u, v, e, hu, hv, _, _⟩ := h; obtain ⟨rfl, rfl⟩ := split e hu; exact absurd hp hv
            | startDur x y =>
              obtain ⟨u, v, e, hu, hv, h3, h4⟩ := h; obtain ⟨rfl, rfl⟩ := split e hu
              have h3 := h1.symm.trans h3
              have h4 := h2.symm.trans h4
              cases h3; cases h4; rfl
        | err e =>
          refine ⟨fun h => (by cases h), fun h => ?_⟩
          cases p with
          | startEnd x y => obtain ⟨u, v, e, hu, hv, _, _⟩ := h; obtain ⟨rfl, rfl⟩ := split e hu; exact absurd hp hv
          | startDur x y => obtain ⟨u, v, e, hu, hv, h3, h4⟩ := h; obtain ⟨rfl, rfl⟩ := split e hu; cases h2.symm.trans h4
        | panic =>
          refine ⟨fun h => (by cases h), fun h => ?_⟩
          cases p with
          | startEnd x y => obtain ⟨u, v, e, hu, hv, _, _⟩ := h; obtain ⟨rfl, rfl⟩ := split e hu; exact absurd hp hv
          | startDur x y => obtain ⟨u, v, e, hu, hv, h3, h4⟩ := h; obtain ⟨rfl, rfl⟩ := split e hu; cases h2.symm.trans h4
      · next hp =>
        cases h2 : (dateTime b).toRes with
        | ok d =>
          simp only [Res.bind_ok]
          constructor
          · intro h; cases h
            exact ⟨a, b, rfl, ha, hp, h1, h2⟩
          · intro h
            cases p with
            | startDur x y => obtain ⟨u, v, e, hu, hv, _, _⟩ := h; obtain ⟨rfl, rfl⟩ := split e hu; exact absurd hv hp
            | startEnd x y =>
              obtain ⟨u, v, e, hu, hv, h3, h4⟩ := h; obtain ⟨rfl, rfl⟩ := split e hu
              have h3 := h1.symm.trans h3
              have h4 := h2.symm.trans h4
              cases h3; cases h4; rfl
        | err e =>
          refine ⟨fun h => (by cases h), fun h => ?_⟩
          cases p with
          | startDur x y => obtain ⟨u, v, e, hu, hv, _, _⟩ := h; obtain ⟨rfl, rfl⟩ := split e hu; exact absurd hv hp
          | startEnd x y => obtain ⟨u, v, e, hu, hv, h3, h4⟩ := h; obtain ⟨rfl, rfl⟩ := split e hu; cases h2.symm.trans h4
        | panic =>
          refine ⟨fun h => (by cases h), fun h => ?_⟩
          cases p with
          | startDur x y => obtain ⟨u, v, e, hu, hv, _, _⟩ := h; obtain ⟨rfl, rfl⟩ := split e hu; exact absurd hv hp
          | startEnd x y => obtain ⟨u, v, e, hu, hv, h3, h4⟩ := h; obtain ⟨rfl, rfl⟩ := split e hu; cases h2.symm.trans h4
    | err e =>
      refine ⟨fun h => (by cases h), fun h => ?_⟩
      cases p <;> (obtain ⟨u, v, e, hu, hv, h3, h4⟩ := h; obtain ⟨rfl, rfl⟩ := split e hu; cases h1.symm.trans h3)
    | panic =>
      refine ⟨fun h => (by cases h), fun h => ?_⟩
      cases p <;> (obtain ⟨u, v, e, hu, hv, h3, h4⟩ := h; obtain ⟨rfl, rfl⟩ := split e hu; cases h1.symm.trans h3)
  · refine ⟨fun h => ?_, fun h => ?_⟩
    · unfold period at h
      rw [splitSlash_none fun c hc e => hs (e ▸ hc)] at h
      simp only [] at h
      cases h1 : (dateTime s).toRes <;> (simp only [h1, Res.bind_ok] at h; cases h)
    · cases p <;> (obtain ⟨u, v, rfl, _⟩ := h; simp at hs)

/-! ### Durations -/

theorem optUnit_iff {u : Char} (hu : u.isDigit = false) {i r : Str} {a : Option Int} : opt (durUnit u) i = .ok r a ↔
    ∃ n, DurationFields.NumberOk n ∧ i = unitText n u ++ r ∧ a = n.map (fun ds => (decimal ds : Int)) ∧ (n = none → NoUnit u r) := by
  rw [opt_ok]
  constructor
  · rintro (⟨x, rfl, hx⟩ | ⟨rfl, rfl, he⟩)
    · obtain ⟨ds, h1, rfl, rfl, h4⟩ := (durUnit_ok hu).1 hx
      exact ⟨some ds, fun _ e => (by cases e; exact ⟨h1, h4⟩), by simp [unitText], rfl, fun e => (by cases e)⟩
    · refine ⟨none, fun _ e => (by cases e), rfl, rfl, fun _ ds q h1 h2 e => ?_⟩
      rw [(durUnit_ok hu).2 ⟨ds, h1, e, rfl, h2⟩] at he
      cases he
  · rintro ⟨n, h1, rfl, rfl, h4⟩
    cases n with
    | some ds =>
      obtain ⟨h1, h2⟩ := h1 ds rfl
      exact .inl ⟨_, rfl, (durUnit_ok hu).2 ⟨ds, h1, by simp [unitText], rfl, h2⟩⟩
    | none =>
      refine .inr ⟨rfl, rfl, durUnit_err fun q n h => ?_⟩
      obtain ⟨ds, h1, h2, -, h3⟩ := (durUnit_ok hu).1 h
      exact h4 rfl ds q h1 h3 h2

theorem durTime_iff {i r : Str} {x : Int × Int × Int} : durTime i = .ok r x ↔
    ∃ a b c, (DurationFields.NumberOk a ∧ DurationFields.NumberOk b ∧ DurationFields.NumberOk c) ∧
      i = 'T' :: (unitText a 'H' ++ unitText b 'M' ++ unitText c 'S' ++ r) ∧
      x = ((amount a : Int), (amount b : Int), (amount c : Int)) ∧
      (a = none → NoUnit 'H' (unitText b 'M' ++ unitText c 'S' ++ r)) ∧ (b = none → NoUnit 'M' (unitText c 'S' ++ r)) ∧
      (c = none → NoUnit 'S' r) := by
  have am : ∀ n : Option Str, (n.map (fun ds => (decimal ds : Int))).getD 0 = (amount n : Int) := fun n => by cases n <;> rfl
  unfold durTime
  simp only [map_ok, preceded_ok, tag_ok, pair_ok, optUnit_iff (show ('H').isDigit = false by decide),
    optUnit_iff (show ('M').isDigit = false by decide), optUnit_iff (show ('S').isDigit = false by decide)]
  constructor
  · rintro ⟨⟨_, _, _⟩, ⟨r1, _, ⟨rfl, -⟩, r2, ⟨a, ha, rfl, rfl, ga⟩, r3, ⟨b, hb, rfl, rfl, gb⟩, ⟨c, hc, rfl, rfl, gc⟩⟩, rfl⟩
    exact ⟨a, b, c, ⟨ha, hb, hc⟩, by simp, by simp only [am], by simpa using ga, gb, gc⟩
  · rintro ⟨a, b, c, ⟨ha, hb, hc⟩, rfl, rfl, ga, gb, gc⟩
    exact ⟨(a.map fun ds => (decimal ds : Int), b.map fun ds => (decimal ds : Int), c.map fun ds => (decimal ds : Int)), ⟨_, _, ⟨rfl, rfl⟩, _, ⟨a, ha, by simp, rfl, by simpa using ga⟩, _, ⟨b, hb, rfl, rfl, gb⟩, c, hc, rfl, rfl, gc⟩, by simp only [am]⟩

theorem durTime_err_iff {i : Str} : durTime i = .err ↔ i.head? ≠ some 'T' := by
  constructor
  · intro h e
    obtain ⟨q, rfl⟩ : ∃ q, i = 'T' :: q := by
      cases i with
      | nil => cases e
      | cons c q => simp at e; exact ⟨q, by rw [e]⟩
    have hu : ∀ {u : Char} {s : Str}, ∃ r a, opt (durUnit u) s = .ok r a := by
      intro u s
      unfold opt
      cases hd : durUnit u s with
      | ok r a => exact ⟨_, _, rfl⟩
      | err => exact ⟨_, _, rfl⟩
      | panic => exact absurd hd durUnit_panic
    obtain ⟨r1, a, h1⟩ := @hu 'H' q
    obtain ⟨r2, b, h2⟩ := @hu 'M' r1
    obtain ⟨r3, c, h3⟩ := @hu 'S' r2
    have : durTime ('T' :: q) = .ok r3 (a.getD 0, b.getD 0, c.getD 0) := by
      unfold durTime
      simp only [map_ok, preceded_ok, tag_ok, pair_ok]
      exact ⟨(a, b, c), ⟨q, _, ⟨rfl, rfl⟩, r1, h1, r2, h2, h3⟩, rfl⟩
    rw [this] at h; cases h
  · intro h
    unfold durTime
    rw [map_err]
    have : tag ['T'] i = .err := tag_err.2 fun ⟨q, e⟩ => h (by rw [← e]; rfl)
    unfold preceded Nom.map pair
    rw [this]

/-- **C70**: the grammar of durations: the longest beginning of the text that is one is read, the rest is ignored. -/
theorem C70_duration (l : ContentLine) (d : TimeDelta) : duration l = .ok d ↔
    ∃ f r, DurationFields.Ok f ∧ l.value = f.text ++ r ∧ f.Longest r ∧ f.seconds ≤ 9223372036854775 ∧ d.nanos = f.nanos := by
  have am : ∀ n : Option Str, (n.map (fun ds => (decimal ds : Int))).getD 0 = (amount n : Int) := fun n => by cases n <;> rfl
  have sum : ∀ f : DurationFields, Res.unwrap (durSum f.negative (amount f.weeks) (amount f.days)
        (f.time.map fun (h, m, s) => ((amount h : Int), (amount m : Int), (amount s : Int)))) = .ok d ↔
      f.seconds ≤ 9223372036854775 ∧ d.nanos = f.nanos := by
    intro f
    rw [unwrap_ok, durSum_fields, maxNanos_eq]
    constructor
    · intro h
      split at h
      · cases h; exact ⟨by omega, rfl⟩
      · cases h
    · rintro ⟨h1, h2⟩
      rw [if_pos (by omega)]
      congr 1
      cases d; simp only at h2; rw [h2]
  have sign : ∀ {i r : Str} {neg : Option Str}, opt (tag ['-']) i = .ok r neg ∧ (∃ q, r = 'P' :: q) ↔
      (neg = some ['-'] ∧ i = '-' :: r ∨ neg = none ∧ i = r) ∧ ∃ q, r = 'P' :: q := by
    intro i r neg
    refine and_congr_left fun ⟨q, hq⟩ => ?_
    rw [opt_ok]
    simp only [tag_ok, tag_err]
    constructor
    · rintro (⟨x, rfl, rfl, rfl⟩ | ⟨rfl, rfl, -⟩)
      · exact .inl ⟨rfl, rfl⟩
      · exact .inr ⟨rfl, rfl⟩
    · rintro (⟨rfl, rfl⟩ | ⟨rfl, rfl⟩)
      · exact .inl ⟨_, rfl, rfl, rfl⟩
      · refine .inr ⟨rfl, rfl, ?_⟩
        rintro ⟨z, e⟩
        rw [hq] at e
        simp at e
  unfold duration
  rw [toRes_ok]
  unfold durationP
  simp only [mapRes_ok, pair_ok, preceded_ok, tag_ok]
  constructor
  · rintro ⟨r, ⟨neg, w, dd, t⟩, ⟨r1, h3, r2, _, ⟨rfl, _⟩, r3, h4, r4, h5, h6⟩, h2⟩
    obtain ⟨a, ha, rfl, rfl, ga⟩ := (optUnit_iff (by decide)).1 h4
    obtain ⟨b, hb, rfl, rfl, gb⟩ := (optUnit_iff (by decide)).1 h5
    have hs := (sign.1 ⟨h3, _, rfl⟩).1
    simp only [am] at h2 ga hs
    have hneg : l.value = (if neg.isSome then ['-'] else []) ++ 'P' :: (unitText a 'W' ++ (unitText b 'D' ++ r4)) := by
      rcases hs with ⟨rfl, e⟩ | ⟨rfl, e⟩ <;> simpa using e
    rcases opt_ok.1 h6 with ⟨y, rfl, hy⟩ | ⟨rfl, rfl, he⟩
    · obtain ⟨x, y, z, ⟨kx, ky, kz⟩, rfl, rfl, gx, gy, gz⟩ := durTime_iff.1 hy
      have := (sum ⟨neg.isSome, a, b, some (x, y, z)⟩).1 h2
      refine ⟨⟨neg.isSome, a, b, some (x, y, z)⟩, r, ⟨ha, hb, fun h m s e => (by cases e; exact ⟨kx, ky, kz⟩)⟩, ?_, ⟨ga, gx, gy, gz⟩, this⟩
      rw [hneg]; simp [DurationFields.text]
    · have := (sum ⟨neg.isSome, a, b, none⟩).1 h2
      refine ⟨⟨neg.isSome, a, b, none⟩, r, ⟨ha, hb, fun h m s e => (by cases e)⟩, ?_, ⟨ga, gb, durTime_err_iff.1 he⟩, this⟩
      rw [hneg]; simp [DurationFields.text]
  · rintro ⟨⟨neg, a, b, t⟩, r, ⟨ha, hb, ht⟩, hl, hg, hf⟩
    have h2 := (sum _).2 hf
    simp only at h2
    have rest : ∃ r4, l.value = (if neg then ['-'] else []) ++ 'P' :: (unitText a 'W' ++ (unitText b 'D' ++ r4)) ∧
        (a = none → NoUnit 'W' (unitText b 'D' ++ r4)) ∧ (b = none → NoUnit 'D' r4) ∧
        opt durTime r4 = .ok r (t.map fun (h, m, s) => ((amount h : Int), (amount m : Int), (amount s : Int))) := by
      cases t with
      | none =>
        obtain ⟨g1, g2, g3⟩ := hg
        refine ⟨r, by rw [hl]; simp [DurationFields.text], g1, g2, opt_ok.2 (.inr ⟨rfl, rfl, durTime_err_iff.2 g3⟩)⟩
      | some t =>
        obtain ⟨x, y, z⟩ := t
        obtain ⟨g1, g3, g4, g5⟩ := hg
        refine ⟨'T' :: (unitText x 'H' ++ unitText y 'M' ++ unitText z 'S' ++ r), by rw [hl]; simp [DurationFields.text], g1, ?_, ?_⟩
        · rintro rfl ds q h1 _ e
          have hd := (Digits_iff.1 h1)
          cases ds with
          | nil => exact hd.1 rfl
          | cons c ds =>
            simp only [List.cons_append, List.cons.injEq] at e
            have := hd.2 c (by simp)
            rw [← e.1] at this
            exact absurd this (by decide)
        · exact opt_ok.2 (.inl ⟨_, rfl, durTime_iff.2 ⟨x, y, z, ht x y z rfl, rfl, rfl, g3, g4, g5⟩⟩)
    obtain ⟨r4, e, g1, g2, g3⟩ := rest
    refine ⟨r, (if neg then some ['-'] else none, a.map fun ds => (decimal ds : Int), b.map fun ds => (decimal ds : Int),
      t.map fun (h, m, s) => ((amount h : Int), (amount m : Int), (amount s : Int))), ⟨_, (sign.2 ⟨?_, _, rfl⟩).1, _, _, ⟨rfl, rfl⟩, _,
      (optUnit_iff (by decide)).2 ⟨a, ha, rfl, rfl, g1⟩, r4, (optUnit_iff (by decide)).2 ⟨b, hb, rfl, rfl, g2⟩, g3⟩, ?_⟩
    · rw [e]
      cases neg <;> simp
    · simp only [am]
      rw [← h2]
      cases neg <;> rfl

theorem durationValue_iff (s : Str) (d : TimeDelta) : duration (ContentLine.ofValue s) = .ok d ↔ DurationValue s d :=
  C70_duration (ContentLine.ofValue s) d

/-- **C70**: the texts that are date-times, in one grammar. -/
theorem C70_date_time_value (l : ContentLine) (t : DateTime) : dateTimeProp l = .ok t ↔ DateTimeValue l.value t := by
  cases t with
  | naive t => exact (C70_date_time_grammar l t).1
  | loc t => exact (C70_date_time_grammar l t).2

/-- **C70**: the texts that are dates or date-times, in one grammar. -/
theorem C70_date_value (l : ContentLine) (x : Date) : dateProp l = .ok x ↔ DateValue l.value x := by
  cases x with
  | date d => exact (C70_date_grammar l d).1
  | dateTime t => exact ((C70_date l).1 t).trans (C70_date_time_value l t)

/-- **C70**: the grammar of periods; anything else is an error or, as C22 says, a panic. -/
theorem C70_period (s : Str) (p : Period) : period s = .ok p ↔ PeriodText s p := by
  have hd : ∀ (s : Str) (t : DateTime), (dateTime s).toRes = .ok t ↔ DateTimeValue s t :=
    fun s t => C70_date_time_value (ContentLine.ofValue s) t
  rw [period_reads]
  cases p <;> simp only [PeriodReads, PeriodText, hd, durationValue_iff]

/-- **C30**: the rule that is read from a text is the one its items mean, and nothing else is accepted. -/
theorem C30_meaning (l : ContentLine) (r : Recur) :
    rrule l = .ok r ↔ ∃ items, items ≠ [] ∧ RuleText l.value items ∧ RuleMeans items r := by
  have hd : (fun s d => dateProp (ContentLine.ofValue s) = .ok d) = DateValue := by
    funext s d; exact propext (C70_date_value (ContentLine.ofValue s) d)
  have hw : (fun s w => WeekdayNum.ofStr s = .ok w) = WeekdayNumText := by
    funext s w; exact propext (C28_grammar s w)
  have e : ∀ items, RuleReads items r ↔ RuleMeans items r := by
    intro items
    constructor
    · rintro ⟨h1, h2, h3, h4, h5, h6, h7, h8, h9, h10, h11, h12, h13, h14⟩
      rw [hd] at h2; rw [hw] at h8
      exact ⟨h1, h2, h3, h4, h5, h6, h7, h8, h9, h10, h11, h12, h13, h14⟩
    · rintro ⟨h1, h2, h3, h4, h5, h6, h7, h8, h9, h10, h11, h12, h13, h14⟩
      rw [← hd] at h2; rw [← hw] at h8
      exact ⟨h1, h2, h3, h4, h5, h6, h7, h8, h9, h10, h11, h12, h13, h14⟩
  rw [rule_reads]
  simp only [e]

theorem neg_text {x : Char} (hx : x ≠ 'P') {q r : Str} {f : DurationFields} : [] ++ '-' :: x :: q ≠ f.text ++ r := by
  intro e
  unfold DurationFields.text at e
  cases hn : f.negative
  · rw [hn] at e; simp at e
  · rw [hn] at e; simp at e; exact hx e.1

/-- **C70**: a trigger is a duration or a date-time, whichever the text is; it is never both. -/
theorem C70_trigger (l : ContentLine) :
    (∀ d, trigger l = .ok (.duration d) ↔ duration l = .ok d) ∧ (∀ t, trigger l = .ok (.dateTime t) ↔ dateTimeProp l = .ok t) := by
  have key : ∀ t, dateTimeProp l = .ok t → durationP l.value = .err := by
    intro t h
    have hw : ∃ ws c q, l.value = ws ++ c :: q ∧ (∀ x ∈ ws, isWhitespace x = true) ∧
        (c.isDigit = true ∨ (c = '+' ∨ c = '-') ∧ ∃ x q', q = x :: q' ∧ x.isDigit = true) := by
      have year : ∀ {s r : Str} {y : Int}, YearThen s y r → ∃ ws c q, s = ws ++ c :: q ∧ (∀ x ∈ ws, isWhitespace x = true) ∧
        (c.isDigit = true ∨ (c = '+' ∨ c = '-') ∧ ∃ x q', q = x :: q' ∧ x.isDigit = true) := by
        intro s r y h
        rcases h with ⟨n, ⟨ws, ds, rfl, hw, hd, -⟩, -⟩ | ⟨ws, sg, ds, rfl, hw, hd, -, hs⟩
        · have hd := Digits_iff.1 hd
          cases ds with
          | nil => exact absurd rfl hd.1
          | cons c ds => exact ⟨ws, c, ds ++ r, rfl, hw, .inl (hd.2 c (by simp))⟩
        · have hd := Digits_iff.1 hd
          cases ds with
          | nil => exact absurd rfl hd.1
          | cons c ds =>
            refine ⟨ws, sg, c :: ds ++ r, rfl, hw, .inr ⟨?_, c, ds ++ r, rfl, hd.2 c (by simp)⟩⟩
            rcases hs with ⟨rfl, _⟩ | ⟨rfl, _⟩ <;> simp
      have dt : ∀ {s r : Str} {t : NaiveDateTime}, DateTimeThen s t r → ∃ y q, YearThen s y q := by
        rintro s r t ⟨_, _, _, _, _, _, ⟨_, _, a, _, h, _⟩, _⟩
        exact ⟨_, _, h⟩
      cases t with
      | naive t =>
        obtain ⟨y, q, h⟩ := dt ((C70_date_time_grammar l t).1.1 h)
        exact year h
      | loc t =>
        obtain ⟨s, n, e, h⟩ := (C70_date_time_grammar l t).2.1 h
        obtain ⟨y, q, h⟩ := dt h
        obtain ⟨ws, c, q, rfl, h1, h2⟩ := year h
        refine ⟨ws, c, q ++ List.replicate (n + 1) 'Z', by rw [e]; simp, h1, ?_⟩
        rcases h2 with h2 | ⟨h2, x, q', rfl, h3⟩
        · exact .inl h2
        · exact .inr ⟨h2, x, q' ++ List.replicate (n + 1) 'Z', rfl, h3⟩
    obtain ⟨ws, c, q, e, h1, h2⟩ := hw
    rw [e]
    cases ws with
    | cons x ws =>
      have hx := h1 x (by simp)
      exact durationP_err_head (by rintro rfl; exact absurd hx (by decide)) (by rintro rfl; exact absurd hx (by decide)) _
    | nil =>
      rcases h2 with h2 | ⟨h2 | h2, x, q', rfl, h3⟩
      · exact durationP_err_head (by rintro rfl; exact absurd h2 (by decide)) (by rintro rfl; exact absurd h2 (by decide)) _
      · subst h2; exact durationP_err_head (by decide) (by decide) _
      · subst h2
        have hx : x ≠ 'P' := by rintro rfl; exact absurd h3 (by decide)
        cases hd : durationP ([] ++ '-' :: x :: q') with
        | err => rfl
        | ok r a =>
          obtain ⟨f, r, hf, e, -⟩ := (C70_duration (ContentLine.ofValue ([] ++ '-' :: x :: q')) a).1 (by unfold duration; show (durationP ([] ++ '-' :: x :: q')).toRes = _; rw [hd]; rfl)
          exact absurd e (neg_text hx)
        | panic =>
          obtain ⟨f, r, hf, e, -⟩ := (durationP_panic _).1 hd
          exact absurd e (neg_text hx)
  unfold trigger duration dateTimeProp at *
  have tr : ∀ x, (alt (map durationP Trigger.duration) (map Ikal.dateTime Trigger.dateTime) l.value).toRes = .ok x ↔
      (∃ d, x = .duration d ∧ (durationP l.value).toRes = .ok d) ∨
      (durationP l.value = .err ∧ ∃ t, x = .dateTime t ∧ (Ikal.dateTime l.value).toRes = .ok t) := by
    intro x
    simp only [toRes_ok, alt_ok, map_ok, map_err]
    constructor
    · rintro ⟨r, ⟨d, h, rfl⟩ | ⟨he, t, h, rfl⟩⟩
      · exact .inl ⟨d, rfl, r, h⟩
      · exact .inr ⟨he, t, rfl, r, h⟩
    · rintro (⟨d, rfl, r, h⟩ | ⟨he, t, rfl, r, h⟩)
      · exact ⟨r, .inl ⟨d, h, rfl⟩⟩
      · exact ⟨r, .inr ⟨he, t, h, rfl⟩⟩
  constructor
  · intro d; rw [tr]; simp
  · intro t; rw [tr]; simp; exact fun h => key t h

/-- **C70**: an offset is a sign, two digits of hours, two digits of minutes; what follows, seconds for instance, is ignored. -/
theorem C70_offset (l : ContentLine) (o : FixedOffset) : offsetProp l = .ok o ↔ OffsetText l.value o := by
  unfold offsetProp
  have two : ∀ {s r : Str} {a b : Nat}, FixedOffset.twoDigits s = some (a, b, r) ↔
      ∃ ds, s = ds ++ r ∧ Digits ds ∧ ds.length = 2 ∧ decimal ds = a * 10 + b ∧ a < 10 ∧ b < 10 := by
    intro s r a b
    unfold FixedOffset.twoDigits
    constructor
    · intro h
      split at h
      · next x y q =>
        split at h
        · next hd =>
          cases h
          simp only [Bool.and_eq_true] at hd
          have h1 := digitVal_lt hd.1
          have h2 := digitVal_lt hd.2
          refine ⟨[x, y], rfl, Digits_iff.2 ⟨by simp, by simp [hd]⟩, rfl, ?_, h1, h2⟩
          rw [← digitsVal_eq_decimal]; simp [digitsVal]
        · cases h
      · cases h
    · rintro ⟨ds, rfl, h1, h2, h3, h4, h5⟩
      obtain ⟨x, y, rfl⟩ := two_chars h2
      have hd := (Digits_iff.1 h1).2
      have hx := hd x (by simp)
      have hy := hd y (by simp)
      have h1 := digitVal_lt hx
      have h2 := digitVal_lt hy
      simp only [List.cons_append, List.nil_append, hx, hy, Bool.and_self, if_true]
      rw [← digitsVal_eq_decimal] at h3
      simp [digitsVal] at h3
      have e1 : digitVal x = a := by omega
      have e2 : digitVal y = b := by omega
      rw [e1, e2]
  have skip : ∀ {s t : Str}, s.dropWhile (fun c => c = ':' || isWhitespace c) = t ↔
      ∃ ws, s = ws ++ t ∧ (∀ c ∈ ws, c = ':' ∨ isWhitespace c = true) ∧ ∀ c, t.head? = some c → ¬ (c = ':' ∨ isWhitespace c = true) := by
    intro s t
    constructor
    · rintro rfl
      have h := (takeWhile_ok (p := fun c => c = ':' || isWhitespace c) (i := s) (r := s.dropWhile fun c => c = ':' || isWhitespace c)
        (a := s.takeWhile fun c => c = ':' || isWhitespace c)).1 rfl
      exact ⟨_, h.1, fun c hc => by simpa using h.2.1 c hc, fun c hc => by simpa using h.2.2 c hc⟩
    · rintro ⟨ws, rfl, h1, h2⟩
      have := takeWhile_append (p := fun c => c = ':' || isWhitespace c) (a := ws) (b := t) (fun c hc => by simpa using h1 c hc)
        (fun c hc => by simpa using h2 c hc)
      unfold takeWhile at this
      injection this
  have east : ∀ {n : Int}, FixedOffset.eastOpt n = some o ↔ o.secs = n ∧ -86400 < n ∧ n < 86400 := by
    intro n
    obtain ⟨secs⟩ := o
    unfold FixedOffset.eastOpt
    split
    · next h => simp [h, eq_comm]
    · next h => simp [h]
  have body : ∀ {neg : Bool} {r : Str},
      (match FixedOffset.twoDigits r with
        | none => none
        | some (h1, h2, r) =>
          match FixedOffset.twoDigits (r.dropWhile fun c => c = ':' || isWhitespace c) with
          | none => none
          | some (m1, m2, _) =>
            if m1 ≤ 5 then
              let secs : Int := ((h1 * 10 + h2) * 3600 + (m1 * 10 + m2) * 60 : Nat)
              FixedOffset.eastOpt (if neg then -secs else secs)
            else none) = some o ↔
      ∃ hh ws mm q, r = hh ++ (ws ++ (mm ++ q)) ∧ Digits hh ∧ hh.length = 2 ∧ Digits mm ∧ mm.length = 2 ∧
        (∀ c ∈ ws, c = ':' ∨ isWhitespace c = true) ∧ decimal hh < 24 ∧ decimal mm < 60 ∧
        o.secs = if neg then -((decimal hh * 3600 + decimal mm * 60 : Nat) : Int) else (decimal hh * 3600 + decimal mm * 60 : Nat) := by
    intro neg r
    constructor
    · intro h
      split at h
      · cases h
      · next a b r1 heq =>
        obtain ⟨hh, rfl, d1, d2, d3, d4, d5⟩ := two.1 heq
        split at h
        · cases h
        · next c d q heq' =>
          obtain ⟨mm, e, g1, g2, g3, g4, g5⟩ := two.1 heq'
          obtain ⟨ws, rfl, hw, -⟩ := skip.1 e
          split at h
          · next hm =>
            simp only [] at h
            have ho := east.1 h
            refine ⟨hh, ws, mm, q, rfl, d1, d2, g1, g2, hw, ?_, by omega, ?_⟩
            · rw [d3]
              cases neg
              · simp only [Bool.false_eq_true, if_false] at ho; omega
              · simp only [if_true] at ho; omega
            · rw [d3, g3]; exact ho.1
          · cases h
    · rintro ⟨hh, ws, mm, q, rfl, d1, d2, g1, g2, hw, h1, h2, h3⟩
      have t1 : FixedOffset.twoDigits (hh ++ (ws ++ (mm ++ q))) = _ := two.2 ⟨hh, rfl, d1, d2, (by omega : decimal hh = decimal hh / 10 * 10 + decimal hh % 10), by omega, by omega⟩
      have t2 : FixedOffset.twoDigits (mm ++ q) = _ := two.2 ⟨mm, rfl, g1, g2, (by omega : decimal mm = decimal mm / 10 * 10 + decimal mm % 10), by omega, by omega⟩
      have hm : ∀ c, (mm ++ q).head? = some c → ¬ (c = ':' ∨ isWhitespace c = true) := by
        intro c hc
        have hd := Digits_iff.1 g1
        cases mm with
        | nil => exact absurd rfl hd.1
        | cons x mm =>
          simp at hc; subst hc
          have := hd.2 x (by simp)
          rw [not_ws_of_digit this]
          simp
          rintro rfl
          exact absurd this (by decide)
      simp only [t1]
      rw [skip.2 ⟨ws, rfl, hw, hm⟩]
      simp only [t2]
      rw [if_pos (by omega)]
      have e1 : decimal hh / 10 * 10 + decimal hh % 10 = decimal hh := by omega
      have e2 : decimal mm / 10 * 10 + decimal mm % 10 = decimal mm := by omega
      simp only [e1, e2]
      refine east.2 ⟨h3, ?_⟩
      cases neg
      · simp only [Bool.false_eq_true, if_false]; omega
      · simp only [if_true]; omega
  have oo : ∀ {x : Option FixedOffset}, Res.ofOption .date x = .ok o ↔ x = some o := fun {x} => by cases x <;> simp [Res.ofOption]
  rw [oo]
  unfold FixedOffset.parse OffsetText
  simp only []
  constructor
  · intro h
    split at h
    · cases h
    · next neg r heq =>
      obtain ⟨hh, ws, mm, q, rfl, d1, d2, d3, d4, d5, d6, d7, d8⟩ := body.1 h
      split at heq
      · next e => cases heq; exact ⟨'+', hh, ws, mm, q, e, d1, d2, d3, d4, d5, d6, d7, .inl ⟨rfl, d8⟩⟩
      · next e => cases heq; exact ⟨'-', hh, ws, mm, q, e, d1, d2, d3, d4, d5, d6, d7, .inr ⟨.inl rfl, d8⟩⟩
      · next e => cases heq; exact ⟨_, hh, ws, mm, q, e, d1, d2, d3, d4, d5, d6, d7, .inr ⟨.inr rfl, d8⟩⟩
      · cases heq
  · rintro ⟨sign, hh, ws, mm, q, e, d1, d2, d3, d4, d5, d6, d7, d8⟩
    rw [e]
    rcases d8 with ⟨rfl, d8⟩ | ⟨rfl | rfl, d8⟩
    · exact body.2 ⟨hh, ws, mm, q, rfl, d1, d2, d3, d4, d5, d6, d7, d8⟩
    · exact body.2 ⟨hh, ws, mm, q, rfl, d1, d2, d3, d4, d5, d6, d7, d8⟩
    · exact body.2 ⟨hh, ws, mm, q, rfl, d1, d2, d3, d4, d5, d6, d7, d8⟩

/-- **C70**: free/busy times, excluded dates, recurrence dates, categories and resources are comma separated lists of values, all
of which must be read. -/
theorem C70_lists (l : ContentLine) :
    (∀ ps, freebusy l = .ok ps ↔ ListOf PeriodText l.value ps) ∧
    (∀ ds, exdate l = .ok ds ↔ ListOf DateValue l.value ds) ∧
    (∀ r, rdate l = .ok r ↔
      (SMap.get? l.params c!"VALUE" = some c!"PERIOD" ∧ ∃ ps, r = .period ps ∧ ListOf PeriodText l.value ps) ∨
      (SMap.get? l.params c!"VALUE" ≠ some c!"PERIOD" ∧ ∃ ds, r = .date ds ∧ ListOf DateValue l.value ds)) ∧
    (∀ ts, textListProp l = .ok ts ↔ ListOf (fun s (t : Text) => t.text = s ∧ t.params = []) l.value ts) := by
  have hp : ∀ ps, Res.mapM' period (splitOn ',' l.value) = .ok ps ↔ ListOf PeriodText l.value ps := by
    intro ps
    rw [mapM'_all2, listOf_iff]
    exact ⟨All2.imp fun _ _ => (C70_period _ _).1, All2.imp fun _ _ => (C70_period _ _).2⟩
  have hd : ∀ ds, Res.mapM' (fun s => (dateOrDt s).toRes) (splitOn ',' l.value) = .ok ds ↔ ListOf DateValue l.value ds := by
    intro ds
    rw [mapM'_all2, listOf_iff]
    exact ⟨All2.imp fun s d => (C70_date_value (ContentLine.ofValue s) d).1, All2.imp fun s d => (C70_date_value (ContentLine.ofValue s) d).2⟩
  refine ⟨hp, hd, fun r => ?_, fun ts => ?_⟩
  · unfold rdate
    split
    · next h =>
      constructor
      · intro hr
        cases hm : Res.mapM' period (splitOn ',' l.value) with
        | ok ps => rw [hm] at hr; cases hr; exact .inl ⟨h, ps, rfl, (hp ps).1 hm⟩
        | err e => rw [hm] at hr; cases hr
        | panic => rw [hm] at hr; cases hr
      · rintro (⟨_, ps, rfl, hps⟩ | ⟨h', _⟩)
        · rw [(hp ps).2 hps]; rfl
        · exact absurd h h'
    · next h =>
      constructor
      · intro hr
        cases hm : Res.mapM' (fun s => (dateOrDt s).toRes) (splitOn ',' l.value) with
        | ok ps => rw [hm] at hr; cases hr; exact .inr ⟨h, ps, rfl, (hd ps).1 hm⟩
        | err e => rw [hm] at hr; cases hr
        | panic => rw [hm] at hr; cases hr
      · rintro (⟨h', _⟩ | ⟨_, ps, rfl, hps⟩)
        · exact absurd h' h
        · rw [(hd ps).2 hps]; rfl
  · rw [listOf_iff]
    unfold textListProp
    generalize splitOn ',' l.value = ps
    simp only [Res.ok.injEq]
    constructor
    · rintro rfl
      induction ps with
      | nil => exact .nil
      | cons a ps ih => exact .cons ⟨rfl, rfl⟩ ih
    · intro h
      induction h with
      | nil => rfl
      | cons h _ ih => rw [List.map_cons, ih]; congr 1; cases ‹Text›; simp_all [Text.ofStr]

/-- **C70**: a position is two numbers separated by a semicolon; what follows is ignored. -/
theorem C70_geo (l : ContentLine) (g : Geo) : geo l = .ok g ↔ GeoText l.value g := by
  unfold geo GeoText
  simp only [toRes_ok, map_ok, separatedPair_ok, char_ok]
  have hf : ∀ {i r : Str} {x : Platform.F32}, float i = .ok r x ↔ Platform.floatParse i = some (x, r) := by
    intro i r x
    unfold float
    cases Platform.floatParse i with
    | none => simp
    | some p => simp [Prod.ext_iff, and_comm]
  constructor
  · rintro ⟨rest, ⟨a, b⟩, ⟨r1, r2, c, h1, ⟨rfl, rfl⟩, h3⟩, rfl⟩
    exact ⟨r2, rest, hf.1 h1, hf.1 h3⟩
  · rintro ⟨r, rest, h1, h2⟩
    exact ⟨rest, (g.lat, g.lon), ⟨_, r, ';', hf.2 h1, ⟨rfl, rfl⟩, hf.2 h2⟩, rfl⟩

/-- **C70**: a request status is a number, a description without semicolon and optional data, to the end of the value; escapes
are not undone. -/
theorem C70_request_status (l : ContentLine) (r : RequestStatus) : rstatus l = .ok r ↔ RequestStatusText l.value r := by
  unfold rstatus RequestStatusText
  have hf : ∀ {i r : Str} {x : Platform.F32}, float i = .ok r x ↔ Platform.floatParse i = some (x, r) := by
    intro i r x
    unfold float
    cases Platform.floatParse i with
    | none => simp
    | some p => simp [Prod.ext_iff, and_comm]
  simp only [toRes_ok, map_ok, pair_ok, char_ok, takeTill_ok]
  constructor
  · rintro ⟨rest, ⟨c, x, d, e⟩, ⟨r1, h1, r2, ⟨rfl, h2⟩, r3, ⟨h3, h4, h5⟩, h6⟩, rfl⟩
    simp only at h1 h2 h3 h4 h5 h6 ⊢
    refine ⟨fun hd => by simpa using h4 _ hd, r2, hf.1 h1, ?_⟩
    rcases opt_ok.1 h6 with ⟨y, rfl, hy⟩ | ⟨rfl, rfl, he⟩
    · obtain ⟨z, _, hz, hy⟩ := preceded_ok.1 hy
      obtain ⟨rfl, _⟩ := char_ok.1 hz
      obtain ⟨rfl, -, hn⟩ := takeWhile_ok.1 hy
      have : rest = [] := by
        cases rest with
        | nil => rfl
        | cons c rest => simpa using hn c rfl
      subst this
      simpa using h3
    · simp only
      cases rest with
      | nil => simpa using h3
      | cons c rest =>
        have := h5 c rfl
        simp only [decide_eq_true_eq] at this
        subst this
        simp [preceded, pair, char, takeWhile] at he
  · rintro ⟨hd, rest, h1, h2⟩
    obtain ⟨c, d, e⟩ := r
    cases e with
    | none =>
      simp only at h2; subst h2
      refine ⟨[], (c, ';', rest, none), ⟨_, hf.2 h1, _, ⟨rfl, rfl⟩, [], ⟨by simp, fun x hx => ?_, by simp⟩, ?_⟩, rfl⟩
      · simp; rintro rfl; exact hd hx
      · rfl
    | some e =>
      simp only at h2; subst h2
      refine ⟨[], (c, ';', d, some e), ⟨_, hf.2 h1, _, ⟨rfl, rfl⟩, ';' :: e, ⟨by simp, fun x hx => ?_, by simp⟩, ?_⟩, rfl⟩
      · simp; rintro rfl; exact hd hx
      · refine opt_ok.2 (.inl ⟨e, rfl, preceded_ok.2 ⟨e, ';', by simp [char], ?_⟩⟩)
        rw [takeWhile_ok]; simp

end

/-! ## Examples -/

section
attribute [local instance] utc

/-- A date, a date-time and a list of dates are written. -/
example : field c!"DTSTART" (Date.date ⟨2024, 2, 29⟩) = .ok c!"DTSTART;VALUE=DATE:20240229\r\n" := by decide +kernel
example : Field.serVec c!"EXDATE" [Date.date ⟨2024, 2, 29⟩, Date.date ⟨2024, 3, 1⟩] = .ok c!"EXDATE:20240229,20240301\r\n" := by decide +kernel
example : SafeName c!"DTSTART" := by unfold SafeName IsName NameChar; decide
/-- `VALUE=DATE` does not prevent a date-time from being read. -/
example : dateProp ⟨c!"DTSTART", [(c!"VALUE", c!"DATE")], c!"20240229T120000"⟩ = .ok (.dateTime (.naive ⟨⟨2024, 2, 29⟩, 43200, 0⟩)) := by decide +kernel
/-- Dates with blanks, without leading zeros and with a sign. -/
example : dateProp (ContentLine.ofValue c!" 2024 2 9") = .ok (.date ⟨2024, 2, 9⟩) := by decide +kernel
example : DateThen c!" 2024 2 9" ⟨2024, 2, 9⟩ [] := (C70_date_grammar (ContentLine.ofValue c!" 2024 2 9") _).1.1 (by decide +kernel)
example : dateProp (ContentLine.ofValue c!"+12024 0229") = .ok (.date ⟨12024, 2, 29⟩) := by decide +kernel
example : dateTimeProp (ContentLine.ofValue c!"20240229T12 0 0ZZZ") = .ok (.loc ⟨⟨2024, 2, 29⟩, 43200, 0⟩) := by decide +kernel
/-- A duration with an unreadable rest, and one that stops early. -/
example : duration (ContentLine.ofValue c!"P1DT2H3") = .ok ⟨(86400 + 7200) * 1000000000⟩ := by decide +kernel
example : duration (ContentLine.ofValue c!"P1D2W") = .ok ⟨86400 * 1000000000⟩ := by decide +kernel
/-- A period of either kind. -/
example : period c!"20240229T120000Z/PT1H" = .ok (.startDur (.loc ⟨⟨2024, 2, 29⟩, 43200, 0⟩) ⟨3600000000000⟩) := by decide +kernel
/-- A list of two. -/
example : exdate (ContentLine.ofValue c!"20240229,20240301") = .ok [.date ⟨2024, 2, 29⟩, .date ⟨2024, 3, 1⟩] := by decide +kernel
/-- An offset whose seconds are ignored. -/
example : offsetProp (ContentLine.ofValue c!"-07:5258") = .ok ⟨-28320⟩ := by decide +kernel

end

end Ikal
