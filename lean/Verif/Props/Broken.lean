import Verif.Lemmas.Tidy
import Verif.Props.Absent

/-!
# C47: what is not read back
-/

namespace Ikal

open Nom Spec

set_option linter.unusedSectionVars false
set_option linter.unusedSimpArgs false

theorem linesText_unique {i r r' : Str} {ls ls' : List ContentLine} (h : LinesText i ls r) (h' : LinesText i ls' r') : ls = ls' ∧ r = r' := by
  have a := contentLines_ok.2 h
  rw [contentLines_ok.2 h'] at a
  cases a
  exact ⟨rfl, rfl⟩

theorem leafText_unique {name i r r' : Str} {ls ls' : List ContentLine} (h : LeafText name i ls r) (h' : LeafText name i ls' r') : ls = ls' := by
  obtain ⟨b, e1, h1⟩ := h
  obtain ⟨b', e2, h2⟩ := h'
  rw [e1] at e2
  have e3 := List.append_cancel_left e2
  subst e3
  exact (linesText_unique h1 h2).1

namespace Field

theorem listWritten_short {α : Type} [Ser α] {n : Str} {v : List α} {l : List ContentLine} (h : ListWritten n v l) : l.length ≤ 1 := by
  have hl : ∀ m s, (lineOf n m s).length ≤ 1 := by intro m s; unfold lineOf; split <;> simp
  match v, h with
  | [], h => have h : l = [] := h; subst h; simp
  | [x], ⟨m, s, _, e⟩ => rw [e]; exact hl _ _
  | _ :: _ :: _, ⟨ss, _, e⟩ => rw [e]; exact hl _ _

theorem lives_push_short {n : Str} {α : Type} {s : Ser α} {p : ContentLine → Res α} {v w : List α}
    (h : (Field.push n α s p).Lives v w) : w.length ≤ 1 := by
  obtain ⟨l, h1, h2⟩ := h
  have h1 := listWritten_short (show ListWritten n v l from h1)
  have h2 : (named n l).map p = w.map .ok := h2
  have h3 := congrArg List.length h2
  simp only [List.length_map] at h3
  have : (named n l).length ≤ l.length := List.length_filter_le _ _
  omega

theorem lives_req_ne {n : Str} {α : Type} {s : Ser α} {p : ContentLine → Res α} {v w : α} (h : (Field.req n α s p).Lives v w) :
    Ser.ical v ≠ .ok [] := by
  obtain ⟨l, ⟨m, t, hw, e⟩, hl⟩ := h
  intro he
  have : t = [] := by
    have := hw.ical
    rw [he] at this
    exact (Res.ok.inj this).symm
  subst this
  subst e
  obtain ⟨x, hx, _⟩ := hl
  simp [lineOf, lastNamed, named] at hx

theorem lives_opt_ne {n : Str} {α : Type} {s : Ser α} {p : ContentLine → Res α} {v w : Option α} (h : (Field.opt n α s p).Lives v w) :
    ∀ a ∈ v, Ser.ical a = .ok [] → w = none := by
  obtain ⟨l, h1, h2⟩ := h
  intro a ha he
  cases v with
  | none => cases ha
  | some b =>
    cases ha
    obtain ⟨m, t, hw, e⟩ := h1
    have : t = [] := by
      have := hw.ical
      rw [he] at this
      exact (Res.ok.inj this).symm
    subst this
    subst e
    obtain ⟨_, h4, _⟩ := h2
    exact h4 (by simp [lineOf, lastNamed, named])

/-- An optional value written as one line is readable. -/
theorem lives_opt_read {n : Str} {α : Type} {s : Ser α} {p : ContentLine → Res α} {v w : Option α} (h : (Field.opt n α s p).Lives v w)
    {a : α} (ha : a ∈ v) {x : Str} (hx : Ser.ical a = .ok x) (hne : x ≠ []) : ∃ m b, p ⟨n, m, x⟩ = .ok b ∧ w = some b := by
  obtain ⟨l, h1, h2⟩ := h
  cases v with
  | none => cases ha
  | some b =>
    cases ha
    obtain ⟨m, t, hw, e⟩ := h1
    have : t = x := by
      have := hw.ical
      rw [hx] at this
      exact (Res.ok.inj this).symm
    subst this
    subst e
    rw [lineOf, if_neg hne] at h2
    obtain ⟨_, _, h5⟩ := h2
    obtain ⟨b, hb, e⟩ := h5 _ (show lastNamed n [⟨n, m, t⟩] = some ⟨n, m, t⟩ by simp [lastNamed, named])
    exact ⟨m, b, hb, e⟩

/-- A list of values is written as a line without parameters, or as that of its only value. -/
theorem lives_push_read {n : Str} {α : Type} {s : Ser α} {p : ContentLine → Res α} {v w : List α} (h : (Field.push n α s p).Lives v w)
    {str : α → Str} {m : α → SMap Str} (hm : ∀ a, Ser.attr a = paramsAttr (m a)) (hs : ∀ a, Ser.ical a = .ok (str a)) (hne : ∀ a, str a ≠ []) (hv : v ≠ []) :
    ∃ q b, p ⟨n, q, join [','] (v.map str)⟩ = .ok b ∧ w = [b] ∧ (paramsAttr q = none ∨ ∃ a, v = [a] ∧ paramsAttr q = paramsAttr (m a)) := by
  obtain ⟨l, h1, h2⟩ := h
  have h2 : (named n l).map p = w.map .ok := h2
  have key : ∀ q x, x ≠ [] → l = lineOf n q x → ∃ b, p ⟨n, q, x⟩ = .ok b ∧ w = [b] := by
    intro q x hx e
    subst e
    rw [lineOf, if_neg hx, named_self] at h2
    match w, h2 with
    | [b], h2 => simp at h2; exact ⟨b, h2, rfl⟩
    | [], h2 => simp at h2
    | _ :: _ :: _, h2 => simp at h2
  match v, hv, h1 with
  | [a], _, ⟨q, x, hw, e⟩ =>
    have : x = str a := by
      have := hw.ical
      rw [hs] at this
      exact (Res.ok.inj this).symm
    subst this
    obtain ⟨b, hb, e⟩ := key _ _ (hne a) e
    exact ⟨q, b, hb, e, .inr ⟨a, rfl, by rw [← hw.attr, hm]⟩⟩
  | a :: a' :: v, _, ⟨ss, hss, e⟩ =>
    have : ss = (a :: a' :: v).map str := by
      clear e key h2
      generalize a :: a' :: v = v at hss
      induction hss with
      | nil => rfl
      | cons h _ ih =>
        rw [List.map_cons, ← ih]
        have := h.1
        rw [hs] at this
        rw [Res.ok.inj this]
    subst this
    obtain ⟨b, hb, e⟩ := key _ _ (by simp [join]) e
    exact ⟨[], b, hb, e, .inl rfl⟩

variable [Platform]

theorem lives_req_text {n : Str} {p : ContentLine → Res Text} {v w : Text} (h : (Field.req n Text inferInstance p).Lives v w) :
    v.text ≠ [] := fun e => lives_req_ne h (show Res.ok (escape v.text) = _ by rw [e]; rfl)
theorem lives_req_uri {n : Str} {p : ContentLine → Res Uri} {v w : Uri} (h : (Field.req n Uri inferInstance p).Lives v w) :
    v.uri ≠ [] := fun e => lives_req_ne h (show Res.ok (escape v.uri) = _ by rw [e]; rfl)
theorem lives_opt_text {n : Str} {p : ContentLine → Res Text} {v w : Option Text} (h : (Field.opt n Text inferInstance p).Lives v w) :
    ∀ a ∈ v, a.text = [] → w = none := fun a ha e => lives_opt_ne h a ha (show Res.ok (escape a.text) = _ by rw [e]; rfl)
theorem lives_opt_uri {n : Str} {p : ContentLine → Res Uri} {v w : Option Uri} (h : (Field.opt n Uri inferInstance p).Lives v w) :
    ∀ a ∈ v, a.uri = [] → w = none := fun a ha e => lives_opt_ne h a ha (show Res.ok (escape a.uri) = _ by rw [e]; rfl)

theorem lives_priority {n : Str} {v w : Option Nat} (h : (Field.opt n Nat inferInstance Ikal.priority).Lives v w) :
    ∀ a ∈ v, a ≤ 9 := by
  intro a ha
  obtain ⟨m, b, hb, _⟩ := lives_opt_read h ha (show Ser.ical a = .ok (natStr a) from rfl) (natStr_ne a)
  obtain ⟨h1, h2⟩ := (C26_priority _ _).1 hb
  obtain ⟨ds, h3, h4, h5⟩ := h1
  rcases h5 with h5 | h5
  · have h5 : natStr a = ds := h5
    rw [← h5, decimal_natStr] at h4
    omega
  · have h5 : natStr a = '+' :: ds := h5
    have := natStr_digits a '+' (by rw [h5]; simp)
    exact absurd this (by decide)

theorem dateOrDt_v (s : Str) (d : Date) : (dateOrDt ('V' :: s)).toRes ≠ .ok d := by
  have hy : ∀ s, scanYear ('V' :: s) = none := by
    intro s
    have : trimStart ('V' :: s) = 'V' :: s := rfl
    unfold scanYear
    rw [this]
    rfl
  have hm : ∀ s, scanYmd ('V' :: s) = none := by
    intro s
    unfold scanYmd
    rw [hy]
  have hz : ∃ s', trimEndZ ('V' :: s) = 'V' :: s' := by
    unfold trimEndZ
    rw [List.reverse_cons]
    generalize s.reverse = r
    induction r with
    | nil => exact ⟨[], rfl⟩
    | cons c r ih =>
      rw [List.cons_append, List.dropWhile_cons]
      split
      · exact ih
      · exact ⟨(c :: r).reverse, by simp⟩
  obtain ⟨s', hz⟩ := hz
  have h1 : parseNaiveDate ('V' :: s) = none := by
    unfold parseNaiveDate
    rw [hm]
  have h2 : parseNaiveDateTime [] (trimEndZ ('V' :: s)) = none := by
    unfold parseNaiveDateTime
    rw [hz, hm]
  simp [dateOrDt, alt, Nom.map, Ikal.date, dateTime, h1, h2, NRes.toRes]

theorem lives_rdate {n : Str} {v w : List RDate} (h : (Field.push n RDate inferInstance Ikal.rdate).Lives v w) : v = [] ∧ w = [] := by
  have hv : v = [] := by
    refine Classical.byContradiction fun hv => ?_
    obtain ⟨q, b, hb, -, hq⟩ := lives_push_read (str := RDate.toStr) (m := fun _ => []) h (fun _ => rfl) (fun _ => rfl) rdate_ne hv
    have hq : paramsAttr q = none := by
      rcases hq with h | ⟨_, _, h⟩
      · exact h
      · exact h
    have hq' : q = [] := by
      cases q with
      | nil => rfl
      | cons a q =>
        unfold paramsAttr SMap.ical at hq
        have e : Res.mapM' (fun (p : Str × Str) => (Ser.ical p.2).map fun s => p.1 ++ '=' :: s) (a :: q) =
          .ok ((a :: q).map fun p => p.1 ++ '=' :: escape p.2) := mapM'_ok (fun _ _ => rfl)
        rw [e] at hq
        simp at hq
    subst hq'
    have hV : ∃ x, join [','] (v.map RDate.toStr) = 'V' :: x := by
      match v, hv with
      | a :: v, _ =>
        have : ∃ x, RDate.toStr a = 'V' :: x := by cases a <;> exact ⟨_, rfl⟩
        obtain ⟨x, hx⟩ := this
        cases v with
        | nil => exact ⟨x, by simp [join, hx]⟩
        | cons b v => exact ⟨x ++ (',' :: join [','] ((b :: v).map RDate.toStr)), by simp [join, hx]⟩
    obtain ⟨x, hx⟩ := hV
    rw [hx] at hb
    unfold Ikal.rdate at hb
    rw [if_neg (by simp)] at hb
    simp only [map_eq_ok, mapM'_all2] at hb
    obtain ⟨ds, hds, -⟩ := hb
    have : ∃ y ys, splitOn ',' ('V' :: x) = ('V' :: y) :: ys := by
      cases hc : splitOn ',' x with
      | nil => exact absurd hc (splitOn_ne _ _)
      | cons y ys => exact ⟨y, ys, by simp [splitOn, hc]⟩
    obtain ⟨y, ys, e⟩ := this
    rw [e] at hds
    cases hds with
    | cons h _ => exact dateOrDt_v _ _ h
  subst hv
  obtain ⟨l, h1, h2⟩ := h
  have h1 : l = [] := h1
  subst h1
  have h2 : [] = w.map Res.ok := h2
  refine ⟨rfl, ?_⟩
  cases w with
  | nil => rfl
  | cons a w => simp at h2

end Field

section Main

variable [Platform]

/-! ### VEvent -/

theorem VEvent.reread {v w : VEvent} (h : TidyVEvent v) (ha : v.alarms = []) {t : Str} (ht : ical v = .ok t) (hw : VEvent.ofStr t = .ok w) :
    ∃ sx si, SMap.ical v.xProp = .ok sx ∧ SMap.ical v.ianaProp = .ok si ∧ Slots.LivesAll VEvent.fields v.toComp.slots w.toComp.slots ∧
      w.xProp = extBack c!"X-PROP" v.xProp sx ∧ w.ianaProp = extBack c!"IANA-PROP" v.ianaProp si := by
  rw [ical_eq rfl] at ht
  obtain ⟨sx, hx, hcx⟩ := clean_ext h.xProp
  obtain ⟨si, hi, hci⟩ := clean_ext h.ianaProp
  obtain ⟨ls, hl, _⟩ := VEvent.tidy h
  have e : { v with alarms := [] } = v := by rw [← ha]
  rw [e] at hl
  obtain ⟨u, hu, hr⟩ := Comp.written_tidy (c := v.toComp) VEvent.plain (isName_lit (by decide)) hx hcx hi hci hl ht
  refine ⟨sx, si, hx, hi, ?_⟩
  rw [C19_VEvent, hu.un] at hw
  obtain ⟨r, body, ls', r1, h1, h2, h3, h4⟩ := hw
  obtain ⟨body', h1', h2'⟩ := hr []
  rw [List.append_nil] at h1'
  rw [show c!"BEGIN:" ++ c!"VEVENT" ++ c!"\r\n" = c!"BEGIN:VEVENT\r\n" from rfl] at h1'
  rw [h1] at h1'
  have e := List.append_cancel_left h1'
  subst e
  obtain ⟨e, e'⟩ := linesText_unique h2 h2'
  subst e
  subst e'
  have hwa : w.alarms = [] := by
    generalize w.alarms = as at h3
    cases h3 with
    | nil => rfl
    | cons h _ =>
      obtain ⟨_, ⟨_, e, _⟩, _⟩ := h
      simp at e
  have e : { w with alarms := [] } = w := by rw [← hwa]
  rw [e] at h4
  have h3 := (C14_VEvent_iff _ w).2 h4
  have h4 : Comp.tryFrom VEvent.fields (ls ++ (lineOf c!"X-PROP" [] sx ++ lineOf c!"IANA-PROP" [] si)) = .ok w.toComp := by
    unfold VEvent.tryFrom at h3
    obtain ⟨c, hc, hc'⟩ := map_eq_ok.1 h3
    rw [hc, (VEvent.ofComp_eq c w).1 hc']
  exact Comp.tryFrom_tidy VEvent.nodup
    (show c!"X-PROP" ∉ ([c!"DTSTAMP", c!"UID", c!"DTSTART", c!"CLASS", c!"CREATED", c!"DESCRIPTION", c!"GEO", c!"LAST-MODIFIED", c!"LOCATION", c!"ORGANIZER", c!"PRIORITY", c!"SEQUENCE", c!"STATUS", c!"SUMMARY", c!"TRANSP", c!"URL", c!"RECURID", c!"RRULE", c!"DTEND", c!"DURATION", c!"ATTACH", c!"ATTENDEE", c!"CATEGORIES", c!"COMMENT", c!"CONTACT", c!"EXDATE", c!"RSTATUS", c!"RELATED-TO", c!"RESOURCES", c!"RDATE", c!"ALARMS"] : List Str) by decide)
    (show c!"IANA-PROP" ∉ ([c!"DTSTAMP", c!"UID", c!"DTSTART", c!"CLASS", c!"CREATED", c!"DESCRIPTION", c!"GEO", c!"LAST-MODIFIED", c!"LOCATION", c!"ORGANIZER", c!"PRIORITY", c!"SEQUENCE", c!"STATUS", c!"SUMMARY", c!"TRANSP", c!"URL", c!"RECURID", c!"RRULE", c!"DTEND", c!"DURATION", c!"ATTACH", c!"ATTENDEE", c!"CATEGORIES", c!"COMMENT", c!"CONTACT", c!"EXDATE", c!"RSTATUS", c!"RELATED-TO", c!"RESOURCES", c!"RDATE", c!"ALARMS"] : List Str) by decide) hx hi hl h4

/-- **C47** for an event without alarms: whatever its text is read as has at most one value of each repeatable property and other extension properties;
it is not read at all if there is a recurrence date or a priority above 9. -/
theorem C47_VEvent (v w : VEvent) (h : TidyVEvent v) (ha : v.alarms = []) (t : Str) (ht : ical v = .ok t) (hw : VEvent.ofStr t = .ok w) :
    w.attach.length ≤ 1 ∧
    w.attendee.length ≤ 1 ∧
    w.comment.length ≤ 1 ∧
    w.contact.length ≤ 1 ∧
    w.rstatus.length ≤ 1 ∧
    w.relatedTo.length ≤ 1 ∧
    v.rdate = [] ∧ w.rdate = [] ∧
    (∀ n ∈ v.priority, n ≤ 9) ∧
    (v.xProp ≠ [] → w.xProp ≠ v.xProp) ∧
    (v.ianaProp ≠ [] → w.ianaProp ≠ v.ianaProp) := by
  obtain ⟨sx, si, sx', si', ⟨k_dtstamp, k_uid, k_dtstart, k_class_, k_created, k_description, k_geo, k_lastModified, k_location, k_organizer, k_priority, k_sequence, k_status, k_summary, k_transp, k_url, k_recurid, k_rrule, k_dtend, k_duration, k_attach, k_attendee, k_categories, k_comment, k_contact, k_exdate, k_rstatus, k_relatedTo, k_resources, k_rdate, k_alarms, _⟩, hx, hi⟩ := VEvent.reread h ha ht hw
  exact ⟨Field.lives_push_short k_attach, Field.lives_push_short k_attendee, Field.lives_push_short k_comment, Field.lives_push_short k_contact, Field.lives_push_short k_rstatus, Field.lives_push_short k_relatedTo, (Field.lives_rdate k_rdate).1, (Field.lives_rdate k_rdate).2, Field.lives_priority k_priority, fun hne => by rw [hx]; exact extBack_ne sx' hne, fun hne => by rw [hi]; exact extBack_ne si' hne⟩

/-- **C47** for an event without alarms, the other way round: one that is read back as it was has none of these. -/
theorem C47_VEvent_same (v : VEvent) (h : TidyVEvent v) (ha : v.alarms = []) (t : Str) (ht : ical v = .ok t) (hw : VEvent.ofStr t = .ok v) :
    v.attach.length ≤ 1 ∧
    v.attendee.length ≤ 1 ∧
    v.comment.length ≤ 1 ∧
    v.contact.length ≤ 1 ∧
    v.rstatus.length ≤ 1 ∧
    v.relatedTo.length ≤ 1 ∧
    v.rdate = [] ∧
    v.xProp = [] ∧
    v.ianaProp = [] := by
  obtain ⟨k_attach, k_attendee, k_comment, k_contact, k_rstatus, k_relatedTo, k_rdate, _, _, hx, hi⟩ := C47_VEvent v v h ha t ht hw
  exact ⟨k_attach, k_attendee, k_comment, k_contact, k_rstatus, k_relatedTo, k_rdate, Classical.byContradiction fun e => hx e rfl, Classical.byContradiction fun e => hi e rfl⟩

/-- **C44** for an event without alarms: if its text is read at all then its required texts are not empty, and every empty optional text is read as absent. -/
theorem C44_VEvent_read (v w : VEvent) (h : TidyVEvent v) (ha : v.alarms = []) (t : Str) (ht : ical v = .ok t) (hw : VEvent.ofStr t = .ok w) :
    v.uid.text ≠ [] ∧
    (∀ a ∈ v.description, a.text = [] → w.description = none) ∧
    (∀ a ∈ v.location, a.text = [] → w.location = none) ∧
    (∀ a ∈ v.organizer, a.uri = [] → w.organizer = none) ∧
    (∀ a ∈ v.summary, a.text = [] → w.summary = none) ∧
    (∀ a ∈ v.url, a.uri = [] → w.url = none) := by
  obtain ⟨sx, si, sx', si', ⟨k_dtstamp, k_uid, k_dtstart, k_class_, k_created, k_description, k_geo, k_lastModified, k_location, k_organizer, k_priority, k_sequence, k_status, k_summary, k_transp, k_url, k_recurid, k_rrule, k_dtend, k_duration, k_attach, k_attendee, k_categories, k_comment, k_contact, k_exdate, k_rstatus, k_relatedTo, k_resources, k_rdate, k_alarms, _⟩, hx, hi⟩ := VEvent.reread h ha ht hw
  exact ⟨Field.lives_req_text k_uid, Field.lives_opt_text k_description, Field.lives_opt_text k_location, Field.lives_opt_uri k_organizer, Field.lives_opt_text k_summary, Field.lives_opt_uri k_url⟩

/-! ### VFreebusy -/

theorem VFreebusy.reread {v w : VFreebusy} (h : TidyVFreebusy v) {t : Str} (ht : ical v = .ok t) (hw : VFreebusy.ofStr t = .ok w) :
    ∃ sx si, SMap.ical v.xProp = .ok sx ∧ SMap.ical v.ianaProp = .ok si ∧ Slots.LivesAll VFreebusy.fields v.toComp.slots w.toComp.slots ∧
      w.xProp = extBack c!"X-PROP" v.xProp sx ∧ w.ianaProp = extBack c!"IANA-PROP" v.ianaProp si := by
  rw [ical_eq rfl] at ht
  obtain ⟨sx, hx, hcx⟩ := clean_ext h.xProp
  obtain ⟨si, hi, hci⟩ := clean_ext h.ianaProp
  obtain ⟨ls, hl, _⟩ := VFreebusy.tidy h
  obtain ⟨u, hu, hr⟩ := Comp.written_tidy (c := v.toComp) VFreebusy.plain (isName_lit (by decide)) hx hcx hi hci hl ht
  refine ⟨sx, si, hx, hi, ?_⟩
  rw [C19_VFreebusy, hu.un] at hw
  obtain ⟨r, ls', h1, h2⟩ := hw
  have e := leafText_unique (by simpa using hr []) h1
  subst e
  have h3 := (C14_VFreebusy_iff _ w).2 h2
  have h4 : Comp.tryFrom VFreebusy.fields (ls ++ (lineOf c!"X-PROP" [] sx ++ lineOf c!"IANA-PROP" [] si)) = .ok w.toComp := by
    unfold VFreebusy.tryFrom at h3
    obtain ⟨c, hc, hc'⟩ := map_eq_ok.1 h3
    rw [hc, (VFreebusy.ofComp_eq c w).1 hc']
  exact Comp.tryFrom_tidy VFreebusy.nodup
    (show c!"X-PROP" ∉ ([c!"DTSTAMP", c!"UID", c!"CONTACT", c!"DTSTART", c!"DTEND", c!"ORGANIZER", c!"URL", c!"ATTENDEE", c!"COMMENT", c!"FREEBUSY", c!"RSTATUS"] : List Str) by decide)
    (show c!"IANA-PROP" ∉ ([c!"DTSTAMP", c!"UID", c!"CONTACT", c!"DTSTART", c!"DTEND", c!"ORGANIZER", c!"URL", c!"ATTENDEE", c!"COMMENT", c!"FREEBUSY", c!"RSTATUS"] : List Str) by decide) hx hi hl h4

/-- **C47** for a free/busy component: whatever its text is read as has at most one value of each repeatable property and other extension properties;
it is not read at all if there is a recurrence date. -/
theorem C47_VFreebusy (v w : VFreebusy) (h : TidyVFreebusy v) (t : Str) (ht : ical v = .ok t) (hw : VFreebusy.ofStr t = .ok w) :
    w.attendee.length ≤ 1 ∧
    w.comment.length ≤ 1 ∧
    w.rstatus.length ≤ 1 ∧
    (v.xProp ≠ [] → w.xProp ≠ v.xProp) ∧
    (v.ianaProp ≠ [] → w.ianaProp ≠ v.ianaProp) := by
  obtain ⟨sx, si, sx', si', ⟨k_dtstamp, k_uid, k_contact, k_dtstart, k_dtend, k_organizer, k_url, k_attendee, k_comment, k_freebusy, k_rstatus, _⟩, hx, hi⟩ := VFreebusy.reread h ht hw
  exact ⟨Field.lives_push_short k_attendee, Field.lives_push_short k_comment, Field.lives_push_short k_rstatus, fun hne => by rw [hx]; exact extBack_ne sx' hne, fun hne => by rw [hi]; exact extBack_ne si' hne⟩

/-- **C47** for a free/busy component, the other way round: one that is read back as it was has none of these. -/
theorem C47_VFreebusy_same (v : VFreebusy) (h : TidyVFreebusy v) (t : Str) (ht : ical v = .ok t) (hw : VFreebusy.ofStr t = .ok v) :
    v.attendee.length ≤ 1 ∧
    v.comment.length ≤ 1 ∧
    v.rstatus.length ≤ 1 ∧
    v.xProp = [] ∧
    v.ianaProp = [] := by
  obtain ⟨k_attendee, k_comment, k_rstatus, hx, hi⟩ := C47_VFreebusy v v h t ht hw
  exact ⟨k_attendee, k_comment, k_rstatus, Classical.byContradiction fun e => hx e rfl, Classical.byContradiction fun e => hi e rfl⟩

/-- **C44** for a free/busy component: if its text is read at all then its required texts are not empty, and every empty optional text is read as absent. -/
theorem C44_VFreebusy_read (v w : VFreebusy) (h : TidyVFreebusy v) (t : Str) (ht : ical v = .ok t) (hw : VFreebusy.ofStr t = .ok w) :
    v.uid.text ≠ [] ∧
    (∀ a ∈ v.contact, a.text = [] → w.contact = none) ∧
    (∀ a ∈ v.organizer, a.uri = [] → w.organizer = none) ∧
    (∀ a ∈ v.url, a.uri = [] → w.url = none) := by
  obtain ⟨sx, si, sx', si', ⟨k_dtstamp, k_uid, k_contact, k_dtstart, k_dtend, k_organizer, k_url, k_attendee, k_comment, k_freebusy, k_rstatus, _⟩, hx, hi⟩ := VFreebusy.reread h ht hw
  exact ⟨Field.lives_req_text k_uid, Field.lives_opt_text k_contact, Field.lives_opt_uri k_organizer, Field.lives_opt_uri k_url⟩

/-! ### VJournal -/

theorem VJournal.reread {v w : VJournal} (h : TidyVJournal v) {t : Str} (ht : ical v = .ok t) (hw : VJournal.ofStr t = .ok w) :
    ∃ sx si, SMap.ical v.xProp = .ok sx ∧ SMap.ical v.ianaProp = .ok si ∧ Slots.LivesAll VJournal.fields v.toComp.slots w.toComp.slots ∧
      w.xProp = extBack c!"X-PROP" v.xProp sx ∧ w.ianaProp = extBack c!"IANA-PROP" v.ianaProp si := by
  rw [ical_eq rfl] at ht
  obtain ⟨sx, hx, hcx⟩ := clean_ext h.xProp
  obtain ⟨si, hi, hci⟩ := clean_ext h.ianaProp
  obtain ⟨ls, hl, _⟩ := VJournal.tidy h
  obtain ⟨u, hu, hr⟩ := Comp.written_tidy (c := v.toComp) VJournal.plain (isName_lit (by decide)) hx hcx hi hci hl ht
  refine ⟨sx, si, hx, hi, ?_⟩
  rw [C19_VJournal, hu.un] at hw
  obtain ⟨r, ls', h1, h2⟩ := hw
  have e := leafText_unique (by simpa using hr []) h1
  subst e
  have h3 := (C14_VJournal_iff _ w).2 h2
  have h4 : Comp.tryFrom VJournal.fields (ls ++ (lineOf c!"X-PROP" [] sx ++ lineOf c!"IANA-PROP" [] si)) = .ok w.toComp := by
    unfold VJournal.tryFrom at h3
    obtain ⟨c, hc, hc'⟩ := map_eq_ok.1 h3
    rw [hc, (VJournal.ofComp_eq c w).1 hc']
  exact Comp.tryFrom_tidy VJournal.nodup
    (show c!"X-PROP" ∉ ([c!"DTSTAMP", c!"UID", c!"CLASS", c!"CREATED", c!"DTSTART", c!"LAST-MODIFIED", c!"ORGANIZER", c!"RECURID", c!"SEQUENCE", c!"STATUS", c!"SUMMARY", c!"URL", c!"RRULE", c!"ATTACH", c!"ATTENDEE", c!"CATEGORIES", c!"COMMENT", c!"CONTACT", c!"DESCRIPTION", c!"EXDATE", c!"RELATED-TO", c!"RDATE", c!"RSTATUS"] : List Str) by decide)
    (show c!"IANA-PROP" ∉ ([c!"DTSTAMP", c!"UID", c!"CLASS", c!"CREATED", c!"DTSTART", c!"LAST-MODIFIED", c!"ORGANIZER", c!"RECURID", c!"SEQUENCE", c!"STATUS", c!"SUMMARY", c!"URL", c!"RRULE", c!"ATTACH", c!"ATTENDEE", c!"CATEGORIES", c!"COMMENT", c!"CONTACT", c!"DESCRIPTION", c!"EXDATE", c!"RELATED-TO", c!"RDATE", c!"RSTATUS"] : List Str) by decide) hx hi hl h4

/-- **C47** for a journal entry: whatever its text is read as has at most one value of each repeatable property and other extension properties;
it is not read at all if there is a recurrence date. -/
theorem C47_VJournal (v w : VJournal) (h : TidyVJournal v) (t : Str) (ht : ical v = .ok t) (hw : VJournal.ofStr t = .ok w) :
    w.attach.length ≤ 1 ∧
    w.attendee.length ≤ 1 ∧
    w.comment.length ≤ 1 ∧
    w.contact.length ≤ 1 ∧
    w.description.length ≤ 1 ∧
    w.relatedTo.length ≤ 1 ∧
    w.rstatus.length ≤ 1 ∧
    v.rdate = [] ∧ w.rdate = [] ∧
    (v.xProp ≠ [] → w.xProp ≠ v.xProp) ∧
    (v.ianaProp ≠ [] → w.ianaProp ≠ v.ianaProp) := by
  obtain ⟨sx, si, sx', si', ⟨k_dtstamp, k_uid, k_class_, k_created, k_dtstart, k_lastModified, k_organizer, k_recurid, k_sequence, k_status, k_summary, k_url, k_rrule, k_attach, k_attendee, k_categories, k_comment, k_contact, k_description, k_exdate, k_relatedTo, k_rdate, k_rstatus, _⟩, hx, hi⟩ := VJournal.reread h ht hw
  exact ⟨Field.lives_push_short k_attach, Field.lives_push_short k_attendee, Field.lives_push_short k_comment, Field.lives_push_short k_contact, Field.lives_push_short k_description, Field.lives_push_short k_relatedTo, Field.lives_push_short k_rstatus, (Field.lives_rdate k_rdate).1, (Field.lives_rdate k_rdate).2, fun hne => by rw [hx]; exact extBack_ne sx' hne, fun hne => by rw [hi]; exact extBack_ne si' hne⟩

/-- **C47** for a journal entry, the other way round: one that is read back as it was has none of these. -/
theorem C47_VJournal_same (v : VJournal) (h : TidyVJournal v) (t : Str) (ht : ical v = .ok t) (hw : VJournal.ofStr t = .ok v) :
    v.attach.length ≤ 1 ∧
    v.attendee.length ≤ 1 ∧
    v.comment.length ≤ 1 ∧
    v.contact.length ≤ 1 ∧
    v.description.length ≤ 1 ∧
    v.relatedTo.length ≤ 1 ∧
    v.rstatus.length ≤ 1 ∧
    v.rdate = [] ∧
    v.xProp = [] ∧
    v.ianaProp = [] := by
  obtain ⟨k_attach, k_attendee, k_comment, k_contact, k_description, k_relatedTo, k_rstatus, k_rdate, _, hx, hi⟩ := C47_VJournal v v h t ht hw
  exact ⟨k_attach, k_attendee, k_comment, k_contact, k_description, k_relatedTo, k_rstatus, k_rdate, Classical.byContradiction fun e => hx e rfl, Classical.byContradiction fun e => hi e rfl⟩

/-- **C44** for a journal entry: if its text is read at all then its required texts are not empty, and every empty optional text is read as absent. -/
theorem C44_VJournal_read (v w : VJournal) (h : TidyVJournal v) (t : Str) (ht : ical v = .ok t) (hw : VJournal.ofStr t = .ok w) :
    v.uid.text ≠ [] ∧
    (∀ a ∈ v.organizer, a.uri = [] → w.organizer = none) ∧
    (∀ a ∈ v.summary, a.text = [] → w.summary = none) ∧
    (∀ a ∈ v.url, a.uri = [] → w.url = none) := by
  obtain ⟨sx, si, sx', si', ⟨k_dtstamp, k_uid, k_class_, k_created, k_dtstart, k_lastModified, k_organizer, k_recurid, k_sequence, k_status, k_summary, k_url, k_rrule, k_attach, k_attendee, k_categories, k_comment, k_contact, k_description, k_exdate, k_relatedTo, k_rdate, k_rstatus, _⟩, hx, hi⟩ := VJournal.reread h ht hw
  exact ⟨Field.lives_req_text k_uid, Field.lives_opt_uri k_organizer, Field.lives_opt_text k_summary, Field.lives_opt_uri k_url⟩

/-! ### Standard -/

theorem Standard.reread {v w : Standard} (h : TidyStandard v) {t : Str} (ht : ical v = .ok t) (hw : Standard.ofStr t = .ok w) :
    ∃ sx si, SMap.ical v.xProp = .ok sx ∧ SMap.ical v.ianaProp = .ok si ∧ Slots.LivesAll Standard.fields v.toComp.slots w.toComp.slots ∧
      w.xProp = extBack c!"X-PROP" v.xProp sx ∧ w.ianaProp = extBack c!"IANA-PROP" v.ianaProp si := by
  rw [ical_eq rfl] at ht
  obtain ⟨sx, hx, hcx⟩ := clean_ext h.xProp
  obtain ⟨si, hi, hci⟩ := clean_ext h.ianaProp
  obtain ⟨ls, hl, _⟩ := Standard.tidy h
  obtain ⟨u, hu, hr⟩ := Comp.written_tidy (c := v.toComp) Standard.plain (isName_lit (by decide)) hx hcx hi hci hl ht
  refine ⟨sx, si, hx, hi, ?_⟩
  rw [C19_Standard, hu.un] at hw
  obtain ⟨r, ls', h1, h2⟩ := hw
  have e := leafText_unique (by simpa using hr []) h1
  subst e
  have h3 := (C14_Standard_iff _ w).2 h2
  have h4 : Comp.tryFrom Standard.fields (ls ++ (lineOf c!"X-PROP" [] sx ++ lineOf c!"IANA-PROP" [] si)) = .ok w.toComp := by
    unfold Standard.tryFrom at h3
    obtain ⟨c, hc, hc'⟩ := map_eq_ok.1 h3
    rw [hc, (Standard.ofComp_eq c w).1 hc']
  exact Comp.tryFrom_tidy Standard.nodup
    (show c!"X-PROP" ∉ ([c!"DTSTART", c!"TZOFFSETTO", c!"TZOFFSETFROM", c!"RRULE", c!"COMMENT", c!"RDATE", c!"TZNAME"] : List Str) by decide)
    (show c!"IANA-PROP" ∉ ([c!"DTSTART", c!"TZOFFSETTO", c!"TZOFFSETFROM", c!"RRULE", c!"COMMENT", c!"RDATE", c!"TZNAME"] : List Str) by decide) hx hi hl h4

/-- **C47** for the standard part of a time zone: whatever its text is read as has at most one value of each repeatable property and other extension properties;
it is not read at all if there is a recurrence date. -/
theorem C47_Standard (v w : Standard) (h : TidyStandard v) (t : Str) (ht : ical v = .ok t) (hw : Standard.ofStr t = .ok w) :
    w.comment.length ≤ 1 ∧
    w.tzname.length ≤ 1 ∧
    v.rdate = [] ∧ w.rdate = [] ∧
    (v.xProp ≠ [] → w.xProp ≠ v.xProp) ∧
    (v.ianaProp ≠ [] → w.ianaProp ≠ v.ianaProp) := by
  obtain ⟨sx, si, sx', si', ⟨k_dtstart, k_tzoffsetto, k_tzoffsetfrom, k_rrule, k_comment, k_rdate, k_tzname, _⟩, hx, hi⟩ := Standard.reread h ht hw
  exact ⟨Field.lives_push_short k_comment, Field.lives_push_short k_tzname, (Field.lives_rdate k_rdate).1, (Field.lives_rdate k_rdate).2, fun hne => by rw [hx]; exact extBack_ne sx' hne, fun hne => by rw [hi]; exact extBack_ne si' hne⟩

/-- **C47** for the standard part of a time zone, the other way round: one that is read back as it was has none of these. -/
theorem C47_Standard_same (v : Standard) (h : TidyStandard v) (t : Str) (ht : ical v = .ok t) (hw : Standard.ofStr t = .ok v) :
    v.comment.length ≤ 1 ∧
    v.tzname.length ≤ 1 ∧
    v.rdate = [] ∧
    v.xProp = [] ∧
    v.ianaProp = [] := by
  obtain ⟨k_comment, k_tzname, k_rdate, _, hx, hi⟩ := C47_Standard v v h t ht hw
  exact ⟨k_comment, k_tzname, k_rdate, Classical.byContradiction fun e => hx e rfl, Classical.byContradiction fun e => hi e rfl⟩

/-! ### Daylight -/

theorem Daylight.reread {v w : Daylight} (h : TidyDaylight v) {t : Str} (ht : ical v = .ok t) (hw : Daylight.ofStr t = .ok w) :
    ∃ sx si, SMap.ical v.xProp = .ok sx ∧ SMap.ical v.ianaProp = .ok si ∧ Slots.LivesAll Daylight.fields v.toComp.slots w.toComp.slots ∧
      w.xProp = extBack c!"X-PROP" v.xProp sx ∧ w.ianaProp = extBack c!"IANA-PROP" v.ianaProp si := by
  rw [ical_eq rfl] at ht
  obtain ⟨sx, hx, hcx⟩ := clean_ext h.xProp
  obtain ⟨si, hi, hci⟩ := clean_ext h.ianaProp
  obtain ⟨ls, hl, _⟩ := Daylight.tidy h
  obtain ⟨u, hu, hr⟩ := Comp.written_tidy (c := v.toComp) Daylight.plain (isName_lit (by decide)) hx hcx hi hci hl ht
  refine ⟨sx, si, hx, hi, ?_⟩
  rw [C19_Daylight, hu.un] at hw
  obtain ⟨r, ls', h1, h2⟩ := hw
  have e := leafText_unique (by simpa using hr []) h1
  subst e
  have h3 := (C14_Daylight_iff _ w).2 h2
  have h4 : Comp.tryFrom Daylight.fields (ls ++ (lineOf c!"X-PROP" [] sx ++ lineOf c!"IANA-PROP" [] si)) = .ok w.toComp := by
    unfold Daylight.tryFrom at h3
    obtain ⟨c, hc, hc'⟩ := map_eq_ok.1 h3
    rw [hc, (Daylight.ofComp_eq c w).1 hc']
  exact Comp.tryFrom_tidy Daylight.nodup
    (show c!"X-PROP" ∉ ([c!"DTSTART", c!"TZOFFSETTO", c!"TZOFFSETFROM", c!"RRULE", c!"COMMENT", c!"RDATE", c!"TZNAME"] : List Str) by decide)
    (show c!"IANA-PROP" ∉ ([c!"DTSTART", c!"TZOFFSETTO", c!"TZOFFSETFROM", c!"RRULE", c!"COMMENT", c!"RDATE", c!"TZNAME"] : List Str) by decide) hx hi hl h4

/-- **C47** for the daylight part of a time zone: whatever its text is read as has at most one value of each repeatable property and other extension properties;
it is not read at all if there is a recurrence date. -/
theorem C47_Daylight (v w : Daylight) (h : TidyDaylight v) (t : Str) (ht : ical v = .ok t) (hw : Daylight.ofStr t = .ok w) :
    w.comment.length ≤ 1 ∧
    w.tzname.length ≤ 1 ∧
    v.rdate = [] ∧ w.rdate = [] ∧
    (v.xProp ≠ [] → w.xProp ≠ v.xProp) ∧
    (v.ianaProp ≠ [] → w.ianaProp ≠ v.ianaProp) := by
  obtain ⟨sx, si, sx', si', ⟨k_dtstart, k_tzoffsetto, k_tzoffsetfrom, k_rrule, k_comment, k_rdate, k_tzname, _⟩, hx, hi⟩ := Daylight.reread h ht hw
  exact ⟨Field.lives_push_short k_comment, Field.lives_push_short k_tzname, (Field.lives_rdate k_rdate).1, (Field.lives_rdate k_rdate).2, fun hne => by rw [hx]; exact extBack_ne sx' hne, fun hne => by rw [hi]; exact extBack_ne si' hne⟩

/-- **C47** for the daylight part of a time zone, the other way round: one that is read back as it was has none of these. -/
theorem C47_Daylight_same (v : Daylight) (h : TidyDaylight v) (t : Str) (ht : ical v = .ok t) (hw : Daylight.ofStr t = .ok v) :
    v.comment.length ≤ 1 ∧
    v.tzname.length ≤ 1 ∧
    v.rdate = [] ∧
    v.xProp = [] ∧
    v.ianaProp = [] := by
  obtain ⟨k_comment, k_tzname, k_rdate, _, hx, hi⟩ := C47_Daylight v v h t ht hw
  exact ⟨k_comment, k_tzname, k_rdate, Classical.byContradiction fun e => hx e rfl, Classical.byContradiction fun e => hi e rfl⟩

/-! ### VTodo -/

theorem VTodo.reread {v w : VTodo} (h : TidyVTodo v) {t : Str} (ht : ical v = .ok t) (hw : VTodo.ofStr t = .ok w) :
    ∃ sx si, SMap.ical v.xProp = .ok sx ∧ SMap.ical v.ianaProp = .ok si ∧ Slots.LivesAll VTodo.fields v.toComp.slots w.toComp.slots ∧
      w.xProp = extBack c!"X-PROP" v.xProp sx ∧ w.ianaProp = extBack c!"IANA-PROP" v.ianaProp si := by
  rw [ical_eq rfl] at ht
  obtain ⟨sx, hx, hcx⟩ := clean_ext h.xProp
  obtain ⟨si, hi, hci⟩ := clean_ext h.ianaProp
  obtain ⟨ls, hl, _⟩ := VTodo.tidy h
  obtain ⟨u, hu, hr⟩ := Comp.written_tidy (c := v.toComp) VTodo.plain (isName_lit (by decide)) hx hcx hi hci hl ht
  refine ⟨sx, si, hx, hi, ?_⟩
  rw [C19_VTodo, hu.un] at hw
  obtain ⟨r, ls', h1, h2⟩ := hw
  have e := leafText_unique (by simpa using hr []) h1
  subst e
  have h3 := (C14_VTodo_iff _ w).2 h2
  have h4 : Comp.tryFrom VTodo.fields (ls ++ (lineOf c!"X-PROP" [] sx ++ lineOf c!"IANA-PROP" [] si)) = .ok w.toComp := by
    unfold VTodo.tryFrom at h3
    obtain ⟨c, hc, hc'⟩ := map_eq_ok.1 h3
    rw [hc, (VTodo.ofComp_eq c w).1 hc']
  exact Comp.tryFrom_tidy VTodo.nodup
    (show c!"X-PROP" ∉ ([c!"DTSTAMP", c!"UID", c!"CLASS", c!"COMPLETED", c!"CREATED", c!"DTSTART", c!"GEO", c!"LAST-MODIFIED", c!"LOCATION", c!"ORGANIZER", c!"PERCENT-COMPLETE", c!"PRIORITY", c!"RECURID", c!"SEQUENCE", c!"STATUS", c!"SUMMARY", c!"URL", c!"RRULE", c!"DUE", c!"DURATION", c!"ATTACH", c!"ATTENDEE", c!"CATEGORIES", c!"COMMENT", c!"CONTACT", c!"EXDATE", c!"RSTATUS", c!"RELATED-TO", c!"RESOURCES", c!"RDATE"] : List Str) by decide)
    (show c!"IANA-PROP" ∉ ([c!"DTSTAMP", c!"UID", c!"CLASS", c!"COMPLETED", c!"CREATED", c!"DTSTART", c!"GEO", c!"LAST-MODIFIED", c!"LOCATION", c!"ORGANIZER", c!"PERCENT-COMPLETE", c!"PRIORITY", c!"RECURID", c!"SEQUENCE", c!"STATUS", c!"SUMMARY", c!"URL", c!"RRULE", c!"DUE", c!"DURATION", c!"ATTACH", c!"ATTENDEE", c!"CATEGORIES", c!"COMMENT", c!"CONTACT", c!"EXDATE", c!"RSTATUS", c!"RELATED-TO", c!"RESOURCES", c!"RDATE"] : List Str) by decide) hx hi hl h4

/-- **C47** for a to-do: whatever its text is read as has at most one value of each repeatable property and other extension properties;
it is not read at all if there is a recurrence date or a priority above 9. -/
theorem C47_VTodo (v w : VTodo) (h : TidyVTodo v) (t : Str) (ht : ical v = .ok t) (hw : VTodo.ofStr t = .ok w) :
    w.attach.length ≤ 1 ∧
    w.attendee.length ≤ 1 ∧
    w.comment.length ≤ 1 ∧
    w.contact.length ≤ 1 ∧
    w.rstatus.length ≤ 1 ∧
    w.relatedTo.length ≤ 1 ∧
    v.rdate = [] ∧ w.rdate = [] ∧
    (∀ n ∈ v.priority, n ≤ 9) ∧
    (v.xProp ≠ [] → w.xProp ≠ v.xProp) ∧
    (v.ianaProp ≠ [] → w.ianaProp ≠ v.ianaProp) := by
  obtain ⟨sx, si, sx', si', ⟨k_dtstamp, k_uid, k_class_, k_completed, k_created, k_dtstart, k_geo, k_lastModified, k_location, k_organizer, k_percentComplete, k_priority, k_recurid, k_sequence, k_status, k_summary, k_url, k_rrule, k_due, k_duration, k_attach, k_attendee, k_categories, k_comment, k_contact, k_exdate, k_rstatus, k_relatedTo, k_resources, k_rdate, _⟩, hx, hi⟩ := VTodo.reread h ht hw
  exact ⟨Field.lives_push_short k_attach, Field.lives_push_short k_attendee, Field.lives_push_short k_comment, Field.lives_push_short k_contact, Field.lives_push_short k_rstatus, Field.lives_push_short k_relatedTo, (Field.lives_rdate k_rdate).1, (Field.lives_rdate k_rdate).2, Field.lives_priority k_priority, fun hne => by rw [hx]; exact extBack_ne sx' hne, fun hne => by rw [hi]; exact extBack_ne si' hne⟩

/-- **C47** for a to-do, the other way round: one that is read back as it was has none of these. -/
theorem C47_VTodo_same (v : VTodo) (h : TidyVTodo v) (t : Str) (ht : ical v = .ok t) (hw : VTodo.ofStr t = .ok v) :
    v.attach.length ≤ 1 ∧
    v.attendee.length ≤ 1 ∧
    v.comment.length ≤ 1 ∧
    v.contact.length ≤ 1 ∧
    v.rstatus.length ≤ 1 ∧
    v.relatedTo.length ≤ 1 ∧
    v.rdate = [] ∧
    v.xProp = [] ∧
    v.ianaProp = [] := by
  obtain ⟨k_attach, k_attendee, k_comment, k_contact, k_rstatus, k_relatedTo, k_rdate, _, _, hx, hi⟩ := C47_VTodo v v h t ht hw
  exact ⟨k_attach, k_attendee, k_comment, k_contact, k_rstatus, k_relatedTo, k_rdate, Classical.byContradiction fun e => hx e rfl, Classical.byContradiction fun e => hi e rfl⟩

/-- **C44** for a to-do: if its text is read at all then its required texts are not empty, and every empty optional text is read as absent. -/
theorem C44_VTodo_read (v w : VTodo) (h : TidyVTodo v) (t : Str) (ht : ical v = .ok t) (hw : VTodo.ofStr t = .ok w) :
    v.uid.text ≠ [] ∧
    (∀ a ∈ v.location, a.text = [] → w.location = none) ∧
    (∀ a ∈ v.organizer, a.uri = [] → w.organizer = none) ∧
    (∀ a ∈ v.summary, a.text = [] → w.summary = none) ∧
    (∀ a ∈ v.url, a.uri = [] → w.url = none) := by
  obtain ⟨sx, si, sx', si', ⟨k_dtstamp, k_uid, k_class_, k_completed, k_created, k_dtstart, k_geo, k_lastModified, k_location, k_organizer, k_percentComplete, k_priority, k_recurid, k_sequence, k_status, k_summary, k_url, k_rrule, k_due, k_duration, k_attach, k_attendee, k_categories, k_comment, k_contact, k_exdate, k_rstatus, k_relatedTo, k_resources, k_rdate, _⟩, hx, hi⟩ := VTodo.reread h ht hw
  exact ⟨Field.lives_req_text k_uid, Field.lives_opt_text k_location, Field.lives_opt_uri k_organizer, Field.lives_opt_text k_summary, Field.lives_opt_uri k_url⟩

end Main

end Ikal
