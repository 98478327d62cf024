import Verif.Spec.Sound
import Verif.Props.Reading
import Verif.Props.RoundTrip
import Verif.Props.AlarmText
import Verif.Props.Forward

/-!
# C80, C81: what is read is well-formed; reading, writing and reading again
-/

set_option linter.unusedSectionVars false

namespace Ikal

open Nom Spec

/-! ## Lines -/

theorem mem_get? {V : Type} {m : SMap V} (hw : m.Wf) {p : Str × V} (hp : p ∈ m) : m.get? p.1 = some p.2 := by
  induction m with
  | nil => simp at hp
  | cons q m ih =>
    rcases List.mem_cons.1 hp with rfl | hp
    · simp [SMap.get?]
    · have h1 := (List.pairwise_cons.1 hw).1 p hp
      have h2 : p.1 ≠ q.1 := fun e => strLt_ne h1 e.symm
      simp [SMap.get?, h2, ih hw.tail hp]

theorem read_paramsText {t rest : Str} {ps : List (Str × Str)} (h : ParamsText t ps rest) :
    ∀ p ∈ ps, IsName p.1 ∧ ('"' ∉ p.2 ∨ ';' ∉ p.2 ∧ ':' ∉ p.2) := by
  induction h with
  | nil => simp
  | cons h1 _ ih =>
    intro p hp
    rcases List.mem_cons.1 hp with rfl | hp
    · cases h1 with
      | quoted hk hv => exact ⟨hk, .inl hv⟩
      | plain hk h1 h2 => exact ⟨hk, .inr ⟨h1, h2⟩⟩
      | folded hk h1 h2 => exact ⟨hk, .inr ⟨h1, h2⟩⟩
    · exact ih p hp

theorem read_line {i r : Str} {l : ContentLine} (h : LineText i r l) : ReadLine l := by
  obtain ⟨-, -, pt, ps, eol, -, hk, hp, h1, h2, -, hw, hg⟩ := h
  refine ⟨hk, h1, h2, hw, ?_⟩
  intro p hm
  have h3 := mem_get? hw hm
  rw [hg] at h3
  unfold lastValue at h3
  obtain ⟨q, hq, hq2⟩ := Option.map_eq_some_iff.1 h3
  have h4 := List.mem_filter.1 (List.mem_of_getLast? hq)
  have h5 := read_paramsText hp q h4.1
  have h6 : q.1 = p.1 := by simpa using h4.2
  rw [h6, hq2] at h5
  exact h5

theorem read_lines {i r : Str} {ls : List ContentLine} (h : LinesText i ls r) : ∀ l ∈ ls, ReadLine l := by
  induction h with
  | nil => simp
  | cons h1 _ ih =>
    intro l hl
    rcases List.mem_cons.1 hl with rfl | hl
    · exact read_line h1
    · exact ih l hl

section
variable [Platform]

theorem named_read {ls : List ContentLine} (hl : ∀ l ∈ ls, ReadLine l) {n : Str} {l : ContentLine} (h : l ∈ named n ls) : ReadLine l :=
  hl l (List.mem_filter.1 h).1

theorem last_read {α : Type} {ls : List ContentLine} {n : Str} {R : ContentLine → α → Prop} {P : α → Prop} {v : α}
    (hl : ∀ l ∈ ls, ReadLine l) (h : Full.Last ls n R v) (hP : ∀ l a, ReadLine l → R l a → P a) : P v := by
  obtain ⟨l, h1, h2⟩ := h
  exact hP l v (named_read hl (List.mem_of_getLast? h1)) h2

theorem lastIfAny_read {α : Type} {ls : List ContentLine} {n : Str} {R : ContentLine → α → Prop} {P : α → Prop} {v : Option α}
    (hl : ∀ l ∈ ls, ReadLine l) (h : Full.LastIfAny ls n R v) (hP : ∀ l a, ReadLine l → R l a → P a) : ∀ a ∈ v, P a := by
  intro a ha
  have h2 := h.2
  cases h1 : lastNamed n ls with
  | none => rw [h1] at h2; simp only at h2; subst h2; simp at ha
  | some l =>
    rw [h1] at h2
    obtain ⟨b, hb, rfl⟩ := h2
    obtain rfl : b = a := by simpa using ha
    exact hP l b (named_read hl (List.mem_of_getLast? h1)) hb

theorem All2.right {α β : Type} {R : α → β → Prop} {as : List α} {bs : List β} (h : All2 R as bs) : ∀ b ∈ bs, ∃ a ∈ as, R a b := by
  induction h with
  | nil => simp
  | cons h1 _ ih =>
    intro b hb
    rcases List.mem_cons.1 hb with rfl | hb
    · exact ⟨_, List.mem_cons_self, h1⟩
    · obtain ⟨a, ha, h⟩ := ih b hb
      exact ⟨a, List.mem_cons_of_mem _ ha, h⟩

theorem each_read {α : Type} {ls : List ContentLine} {n : Str} {R : ContentLine → α → Prop} {P : α → Prop} {v : List α}
    (hl : ∀ l ∈ ls, ReadLine l) (h : Full.Each ls n R v) (hP : ∀ l a, ReadLine l → R l a → P a) : ∀ a ∈ v, P a := by
  intro a ha
  obtain ⟨l, h1, h2⟩ := All2.right h a ha
  exact hP l a (named_read hl h1) h2

theorem all_read {α : Type} {ls : List ContentLine} {n : Str} {R : ContentLine → List α → Prop} {P : α → Prop} {v : List α}
    (hl : ∀ l ∈ ls, ReadLine l) (h : Full.All ls n R v) (hP : ∀ l as, ReadLine l → R l as → ∀ a ∈ as, P a) : ∀ a ∈ v, P a := by
  obtain ⟨vss, h1, rfl⟩ := h
  intro a ha
  obtain ⟨vs, hvs, ha⟩ := List.mem_flatten.1 ha
  obtain ⟨l, h3, h4⟩ := All2.right h1 vs hvs
  exact hP l vs (named_read hl h3) h4 a ha

theorem ext_read {ls : List ContentLine} {known : List Str} {sel : Str → Prop} {m : SMap ContentLine}
    (hl : ∀ l ∈ ls, ReadLine l) (h : IsExt known sel ls m) : ReadExt known sel m := by
  obtain ⟨hw, h1, h2⟩ := h
  refine ⟨hw, fun p hp => ?_⟩
  have h3 := mem_get? hw hp
  have hk : p.1 ∉ known ∧ sel p.1 := by
    apply Classical.byContradiction
    intro hc
    have : p.1 ∈ known ∨ ¬ sel p.1 := by
      rcases Classical.em (p.1 ∈ known) with h | h
      · exact .inl h
      · exact .inr fun hs => hc ⟨h, hs⟩
    rw [h2 p.1 this] at h3
    simp at h3
  rw [h1 p.1 hk.1 hk.2] at h3
  have h4 := List.mem_filter.1 (List.mem_of_getLast? h3)
  exact ⟨hk.1, hk.2, by simpa using h4.2, hl _ h4.1⟩

/-! ## Values -/

theorem comma_piece {s : Str} {ps : List Str} (h : CommaPieces s ps) : ∀ p ∈ ps, ',' ∉ p ∧ ∀ c ∈ p, c ∈ s := by
  induction h with
  | last h => intro p hp; obtain rfl := List.mem_singleton.1 hp; exact ⟨h, fun c h => h⟩
  | @more s r ps h _ ih =>
    intro p hp
    rcases List.mem_cons.1 hp with rfl | hp
    · exact ⟨h, fun c hc => List.mem_append_left _ hc⟩
    · obtain ⟨h1, h2⟩ := ih p hp
      exact ⟨h1, fun c hc => List.mem_append_right _ (List.mem_cons_of_mem _ (h2 c hc))⟩

theorem listOf_read {α : Type} {R : Str → α → Prop} {P : α → Prop} {s : Str} {as : List α} (h : ListOf R s as)
    (hP : ∀ p a, ',' ∉ p → (∀ c ∈ p, c ∈ s) → R p a → P a) : ∀ a ∈ as, P a := by
  obtain ⟨ps, h1, h2⟩ := h
  intro a ha
  obtain ⟨p, hp, hr⟩ := All2.right h2 a ha
  obtain ⟨h3, h4⟩ := comma_piece h1 p hp
  exact hP p a h3 h4 hr

theorem read_dateThen {s r : Str} {d : NaiveDate} (h : DateThen s d r) : RealDate d ∧ InRange d := ⟨h.1, h.2.1⟩

theorem read_dateTimeThen {s r : Str} {t : NaiveDateTime} (h : DateTimeThen s t r) : ReadTime t := by
  obtain ⟨a, b, c, hh, m, x, hd, -, -, -, h1, h2, h3⟩ := h
  refine ⟨hd.2.1, hd.1, ?_, ?_⟩ <;> rcases h3 with ⟨h4, h5, h6⟩ | ⟨h4, h5, h6⟩
  · omega
  · omega
  · exact .inl h6
  · exact .inr ⟨h6, by omega⟩

theorem read_dateTimeValue {s : Str} {t : DateTime} (h : DateTimeValue s t) : ReadDateTime t := by
  cases t with
  | naive t => exact read_dateTimeThen h
  | loc t => obtain ⟨z, n, -, h⟩ := h; exact read_dateTimeThen h

theorem read_dateValue {s : Str} {d : Date} (h : DateValue s d) : ReadDate d := by
  cases d with
  | date d => exact read_dateThen h
  | dateTime t => exact read_dateTimeValue h

theorem read_durationValue {s : Str} {d : TimeDelta} (h : DurationValue s d) : WholeDuration d := by
  obtain ⟨f, r, -, -, -, h1, h2⟩ := h
  unfold WholeDuration TimeDelta.Valid TimeDelta.maxNanos
  rw [h2, DurationFields.nanos]
  have : i64Max = 9223372036854775807 := rfl
  rw [this]
  split <;> constructor <;> first | omega | constructor <;> omega

theorem read_durationValue_P {s : Str} {d : TimeDelta} (h : DurationValue s d) (hp : s.head? = some 'P') : 0 ≤ d.nanos := by
  obtain ⟨f, r, -, rfl, -, h1, h2⟩ := h
  rw [h2, DurationFields.nanos]
  cases hn : f.negative with
  | true => simp [DurationFields.text, hn] at hp
  | false => simp only [Bool.false_eq_true, if_false]; omega

theorem read_periodText {s : Str} {p : Period} (h : PeriodText s p) : ReadPeriod p := by
  cases p with
  | startEnd a b => obtain ⟨x, y, -, -, -, h1, h2⟩ := h; exact ⟨read_dateTimeValue h1, read_dateTimeValue h2⟩
  | startDur a d =>
    obtain ⟨x, y, -, -, hp, h1, h2⟩ := h
    exact ⟨read_dateTimeValue h1, read_durationValue h2, read_durationValue_P h2 hp⟩

theorem read_textLine (l : ContentLine) (a : Text) (hl : ReadLine l) (h : Full.TextLine l a) : ReadText a := by
  unfold ReadText; rw [h.1, h.2]; exact hl.2

theorem read_uriLine (l : ContentLine) (a : Uri) (hl : ReadLine l) (h : Full.UriLine l a) : ReadUri a := by
  unfold ReadUri; rw [h.1, h.2]; exact hl.2

theorem read_dateLine (l : ContentLine) (a : Date) (_ : ReadLine l) (h : Full.DateLine l a) : ReadDate a := read_dateValue h

theorem read_dateTimeLine (l : ContentLine) (a : DateTime) (_ : ReadLine l) (h : Full.DateTimeLine l a) : ReadDateTime a :=
  read_dateTimeValue h

theorem read_datesLine (l : ContentLine) (as : List Date) (_ : ReadLine l) (h : Full.DatesLine l as) : ∀ a ∈ as, ReadDate a :=
  listOf_read h fun _ _ _ _ h => read_dateValue h

theorem read_periodsLine (l : ContentLine) (as : List Period) (_ : ReadLine l) (h : Full.PeriodsLine l as) : ∀ a ∈ as, ReadPeriod a :=
  listOf_read h fun _ _ _ _ h => read_periodText h

theorem read_textsLine (l : ContentLine) (as : List Text) (hl : ReadLine l) (h : Full.TextsLine l as) : ∀ a ∈ as, ReadItem a := by
  refine listOf_read h fun p a hc hm h => ?_
  unfold ReadItem
  rw [h.1, h.2]
  exact ⟨fun hn => hl.2.1 (hm _ hn), fun hn => hl.2.2.1 (hm _ hn), hc, rfl⟩

theorem read_durationLine (l : ContentLine) (a : TimeDelta) (_ : ReadLine l) (h : Full.DurationLine l a) : WholeDuration a :=
  read_durationValue h

theorem read_itemOr8 {v : Option Str} {l : List Int} (h : ItemOr (ListOf Signed8) [] v l) : All8 l := by
  cases v with
  | none => obtain rfl : l = [] := h; intro n hn; simp at hn
  | some s => exact listOf_read h fun _ _ _ _ h => h.2

theorem read_ruleMeans {items : List (Str × Str)} {r : Recur} (h : RuleMeans items r) : ReadRule r where
  until_ := by
    intro d hd
    have h1 := h.until_
    rw [hd] at h1
    cases hv : lastValue items c!"UNTIL" with
    | none => rw [hv] at h1; exact h1.elim
    | some s => rw [hv] at h1; exact read_dateValue h1
  count := by
    intro n hn
    have h1 := h.count
    rw [hn] at h1
    cases hv : lastValue items c!"COUNT" with
    | none => rw [hv] at h1; exact h1.elim
    | some s => rw [hv] at h1; exact h1.2
  interval := by
    have h1 := h.interval
    cases hv : lastValue items c!"INTERVAL" with
    | none => rw [hv] at h1; have h1 : r.interval = 1 := h1; omega
    | some s => rw [hv] at h1; exact h1.2
  bySecond := read_itemOr8 h.bySecond
  byMinute := read_itemOr8 h.byMinute
  byHour := read_itemOr8 h.byHour
  byDay := by
    have h1 := h.byDay
    cases hv : lastValue items c!"BYDAY" with
    | none => rw [hv] at h1; have h1 : r.byDay = [] := h1; simp [h1]
    | some s =>
      rw [hv] at h1
      refine listOf_read h1 fun p w _ _ h n hn => ?_
      unfold WeekdayNumText at h
      rw [hn] at h
      obtain ⟨_, _, _, h1, h2, _⟩ := h
      exact ⟨h1, h2⟩
  byMonthday := read_itemOr8 h.byMonthday
  byYearday := read_itemOr8 h.byYearday
  byWeekno := read_itemOr8 h.byWeekno
  byMonth := read_itemOr8 h.byMonth
  bySetpos := read_itemOr8 h.bySetpos

theorem read_ruleLine (l : ContentLine) (a : Recur) (_ : ReadLine l) (h : Full.RuleLine l a) : ReadRule a := by
  obtain ⟨items, -, -, h⟩ := h; exact read_ruleMeans h

theorem read_classLine (l : ContentLine) (a : Class) (hl : ReadLine l) (h : Full.ClassLine l a) : ReadClass a := by
  rintro s rfl
  obtain ⟨h1, h2, h3, h4⟩ := h
  rw [← h1] at h2 h3 h4 ⊢
  exact ⟨h2, h3, h4, hl.2.1, hl.2.2.1⟩

theorem read_rDateLine (l : ContentLine) (a : RDate) (_ : ReadLine l) (h : Full.RDateLine l a) : ReadRDate a := by
  cases a with
  | date ds => exact listOf_read h.2 fun _ _ _ _ h => read_dateValue h
  | period ps => exact listOf_read h.2 fun _ _ _ _ h => read_periodText h

theorem read_requestStatusLine (l : ContentLine) (a : RequestStatus) (_ : ReadLine l) (h : Full.RequestStatusLine l a) : ReadRequestStatus a :=
  h.1

theorem read_triggerLine (l : ContentLine) (a : Trigger) (_ : ReadLine l) (h : Full.TriggerLine l a) : ReadTrigger a := by
  cases a with
  | duration d => exact read_durationValue h
  | dateTime t => exact read_dateTimeValue h

theorem read_offsetLine (l : ContentLine) (a : FixedOffset) (_ : ReadLine l) (h : Full.OffsetLine l a) : GoodOffset a := by
  obtain ⟨sign, hh, ws, mm, r, -, -, -, -, -, -, h1, h2, h3⟩ := h
  unfold GoodOffset FixedOffset.Valid
  rcases h3 with ⟨-, h3⟩ | ⟨-, h3⟩ <;> rw [h3] <;> omega

/-! ## Components -/

theorem read_Audio {ls : List ContentLine} {v : Audio} (hl : ∀ l ∈ ls, ReadLine l) (h : Full.AudioFrom ls v) : ReadAudio v where
  action := last_read hl h.action read_textLine
  trigger := last_read hl h.trigger read_triggerLine
  duration := lastIfAny_read hl h.duration read_durationLine
  repeat_ := fun n hn => (lastIfAny_read (P := fun n => n ≤ 4294967295) hl h.repeat_ (fun l a _ h => h.2) n hn)
  attach := each_read hl h.attach read_textLine
  xProp := ext_read hl h.xProp
  ianaProp := ext_read hl h.ianaProp

theorem read_Display {ls : List ContentLine} {v : Display} (hl : ∀ l ∈ ls, ReadLine l) (h : Full.DisplayFrom ls v) : ReadDisplay v where
  action := last_read hl h.action read_textLine
  trigger := last_read hl h.trigger read_triggerLine
  description := last_read hl h.description read_textLine
  duration := lastIfAny_read hl h.duration read_durationLine
  repeat_ := fun n hn => (lastIfAny_read (P := fun n => n ≤ 4294967295) hl h.repeat_ (fun l a _ h => h.2) n hn)
  xProp := ext_read hl h.xProp
  ianaProp := ext_read hl h.ianaProp

theorem read_Email {ls : List ContentLine} {v : Email} (hl : ∀ l ∈ ls, ReadLine l) (h : Full.EmailFrom ls v) : ReadEmail v where
  action := last_read hl h.action read_textLine
  trigger := last_read hl h.trigger read_triggerLine
  description := last_read hl h.description read_textLine
  summary := last_read hl h.summary read_textLine
  attendee := each_read hl h.attendee read_uriLine
  duration := lastIfAny_read hl h.duration read_durationLine
  repeat_ := fun n hn => (lastIfAny_read (P := fun n => n ≤ 4294967295) hl h.repeat_ (fun l a _ h => h.2) n hn)
  attach := each_read hl h.attach read_textLine
  xProp := ext_read hl h.xProp
  ianaProp := ext_read hl h.ianaProp

theorem read_VEvent {ls : List ContentLine} {v : VEvent} (hl : ∀ l ∈ ls, ReadLine l) (h : Full.VEventFrom ls { v with alarms := [] })
    (h_alarms : ∀ a ∈ v.alarms, ReadVAlarm a) : ReadVEvent v where
  dtstamp := last_read hl h.dtstamp read_dateTimeLine
  uid := last_read hl h.uid read_textLine
  dtstart := last_read hl h.dtstart read_dateLine
  class_ := lastIfAny_read hl h.class_ read_classLine
  created := lastIfAny_read hl h.created read_dateTimeLine
  description := lastIfAny_read hl h.description read_textLine
  lastModified := lastIfAny_read hl h.lastModified read_dateTimeLine
  location := lastIfAny_read hl h.location read_textLine
  organizer := lastIfAny_read hl h.organizer read_uriLine
  priority := fun n hn => (lastIfAny_read (P := fun n => n ≤ 9) hl h.priority (fun l a _ h => h.2) n hn)
  sequence := fun n hn => (lastIfAny_read (P := fun n => n ≤ 4294967295) hl h.sequence (fun l a _ h => h.2) n hn)
  summary := lastIfAny_read hl h.summary read_textLine
  url := lastIfAny_read hl h.url read_uriLine
  recurid := lastIfAny_read hl h.recurid read_dateLine
  rrule := lastIfAny_read hl h.rrule read_ruleLine
  dtend := lastIfAny_read hl h.dtend read_dateLine
  duration := lastIfAny_read hl h.duration read_durationLine
  attach := each_read hl h.attach read_textLine
  attendee := each_read hl h.attendee read_uriLine
  categories := all_read hl h.categories read_textsLine
  comment := each_read hl h.comment read_textLine
  contact := each_read hl h.contact read_textLine
  exdate := all_read hl h.exdate read_datesLine
  rstatus := each_read hl h.rstatus read_requestStatusLine
  relatedTo := each_read hl h.relatedTo read_textLine
  resources := all_read hl h.resources read_textsLine
  rdate := each_read hl h.rdate read_rDateLine
  alarms := h_alarms
  xProp := ext_read hl h.xProp
  ianaProp := ext_read hl h.ianaProp

theorem read_VFreebusy {ls : List ContentLine} {v : VFreebusy} (hl : ∀ l ∈ ls, ReadLine l) (h : Full.VFreebusyFrom ls v) : ReadVFreebusy v where
  dtstamp := last_read hl h.dtstamp read_dateTimeLine
  uid := last_read hl h.uid read_textLine
  contact := lastIfAny_read hl h.contact read_textLine
  dtstart := lastIfAny_read hl h.dtstart read_dateLine
  dtend := lastIfAny_read hl h.dtend read_dateLine
  organizer := lastIfAny_read hl h.organizer read_uriLine
  url := lastIfAny_read hl h.url read_uriLine
  attendee := each_read hl h.attendee read_uriLine
  comment := each_read hl h.comment read_textLine
  freebusy := all_read hl h.freebusy read_periodsLine
  rstatus := each_read hl h.rstatus read_requestStatusLine
  xProp := ext_read hl h.xProp
  ianaProp := ext_read hl h.ianaProp

theorem read_VJournal {ls : List ContentLine} {v : VJournal} (hl : ∀ l ∈ ls, ReadLine l) (h : Full.VJournalFrom ls v) : ReadVJournal v where
  dtstamp := last_read hl h.dtstamp read_dateTimeLine
  uid := last_read hl h.uid read_textLine
  class_ := lastIfAny_read hl h.class_ read_classLine
  created := lastIfAny_read hl h.created read_dateTimeLine
  dtstart := last_read hl h.dtstart read_dateLine
  lastModified := lastIfAny_read hl h.lastModified read_dateTimeLine
  organizer := lastIfAny_read hl h.organizer read_uriLine
  recurid := lastIfAny_read hl h.recurid read_dateLine
  sequence := fun n hn => (lastIfAny_read (P := fun n => n ≤ 4294967295) hl h.sequence (fun l a _ h => h.2) n hn)
  summary := lastIfAny_read hl h.summary read_textLine
  url := lastIfAny_read hl h.url read_uriLine
  rrule := lastIfAny_read hl h.rrule read_ruleLine
  attach := each_read hl h.attach read_textLine
  attendee := each_read hl h.attendee read_uriLine
  categories := all_read hl h.categories read_textsLine
  comment := each_read hl h.comment read_textLine
  contact := each_read hl h.contact read_textLine
  description := each_read hl h.description read_textLine
  exdate := all_read hl h.exdate read_datesLine
  relatedTo := each_read hl h.relatedTo read_textLine
  rdate := each_read hl h.rdate read_rDateLine
  rstatus := each_read hl h.rstatus read_requestStatusLine
  xProp := ext_read hl h.xProp
  ianaProp := ext_read hl h.ianaProp

theorem read_Standard {ls : List ContentLine} {v : Standard} (hl : ∀ l ∈ ls, ReadLine l) (h : Full.StandardFrom ls v) : ReadStandard v where
  dtstart := last_read hl h.dtstart read_dateLine
  tzoffsetto := last_read hl h.tzoffsetto read_offsetLine
  tzoffsetfrom := last_read hl h.tzoffsetfrom read_offsetLine
  rrule := lastIfAny_read hl h.rrule read_ruleLine
  comment := each_read hl h.comment read_textLine
  rdate := each_read hl h.rdate read_rDateLine
  tzname := each_read hl h.tzname read_textLine
  xProp := ext_read hl h.xProp
  ianaProp := ext_read hl h.ianaProp

theorem read_Daylight {ls : List ContentLine} {v : Daylight} (hl : ∀ l ∈ ls, ReadLine l) (h : Full.DaylightFrom ls v) : ReadDaylight v where
  dtstart := last_read hl h.dtstart read_dateLine
  tzoffsetto := last_read hl h.tzoffsetto read_offsetLine
  tzoffsetfrom := last_read hl h.tzoffsetfrom read_offsetLine
  rrule := lastIfAny_read hl h.rrule read_ruleLine
  comment := each_read hl h.comment read_textLine
  rdate := each_read hl h.rdate read_rDateLine
  tzname := each_read hl h.tzname read_textLine
  xProp := ext_read hl h.xProp
  ianaProp := ext_read hl h.ianaProp

theorem read_VTimezone {ls : List ContentLine} {v : VTimezone} (hl : ∀ l ∈ ls, ReadLine l) (h : Full.VTimezoneFrom ls { v with standard := [], daylight := [] })
    (h_standard : ∀ a ∈ v.standard, ReadStandard a) (h_daylight : ∀ a ∈ v.daylight, ReadDaylight a) : ReadVTimezone v where
  tzid := last_read hl h.tzid read_textLine
  lastModified := lastIfAny_read hl h.lastModified read_dateTimeLine
  tzurl := lastIfAny_read hl h.tzurl read_uriLine
  standard := h_standard
  daylight := h_daylight
  xProp := ext_read hl h.xProp
  ianaProp := ext_read hl h.ianaProp

theorem read_VTodo {ls : List ContentLine} {v : VTodo} (hl : ∀ l ∈ ls, ReadLine l) (h : Full.VTodoFrom ls v) : ReadVTodo v where
  dtstamp := last_read hl h.dtstamp read_dateTimeLine
  uid := last_read hl h.uid read_textLine
  class_ := lastIfAny_read hl h.class_ read_classLine
  completed := lastIfAny_read hl h.completed read_dateTimeLine
  created := lastIfAny_read hl h.created read_dateTimeLine
  dtstart := lastIfAny_read hl h.dtstart read_dateLine
  lastModified := lastIfAny_read hl h.lastModified read_dateTimeLine
  location := lastIfAny_read hl h.location read_textLine
  organizer := lastIfAny_read hl h.organizer read_uriLine
  percentComplete := fun n hn => (lastIfAny_read (P := fun n => n ≤ 255) hl h.percentComplete (fun l a _ h => h.2) n hn)
  priority := fun n hn => (lastIfAny_read (P := fun n => n ≤ 9) hl h.priority (fun l a _ h => h.2) n hn)
  recurid := lastIfAny_read hl h.recurid read_dateLine
  sequence := fun n hn => (lastIfAny_read (P := fun n => n ≤ 4294967295) hl h.sequence (fun l a _ h => h.2) n hn)
  summary := lastIfAny_read hl h.summary read_textLine
  url := lastIfAny_read hl h.url read_uriLine
  rrule := lastIfAny_read hl h.rrule read_ruleLine
  due := lastIfAny_read hl h.due read_dateLine
  duration := lastIfAny_read hl h.duration read_durationLine
  attach := each_read hl h.attach read_textLine
  attendee := each_read hl h.attendee read_uriLine
  categories := all_read hl h.categories read_textsLine
  comment := each_read hl h.comment read_textLine
  contact := each_read hl h.contact read_textLine
  exdate := all_read hl h.exdate read_datesLine
  rstatus := each_read hl h.rstatus read_requestStatusLine
  relatedTo := each_read hl h.relatedTo read_textLine
  resources := all_read hl h.resources read_textsLine
  rdate := each_read hl h.rdate read_rDateLine
  xProp := ext_read hl h.xProp
  ianaProp := ext_read hl h.ianaProp

theorem read_VCalendar {ls : List ContentLine} {v : VCalendar} (hl : ∀ l ∈ ls, ReadLine l) (h : Full.VCalendarFrom ls { v with alarms := [], events := [], freebusy := [], journals := [], todo := [], timezones := [] })
    (h_alarms : ∀ a ∈ v.alarms, ReadVAlarm a) (h_events : ∀ a ∈ v.events, ReadVEvent a) (h_freebusy : ∀ a ∈ v.freebusy, ReadVFreebusy a) (h_journals : ∀ a ∈ v.journals, ReadVJournal a) (h_todo : ∀ a ∈ v.todo, ReadVTodo a) (h_timezones : ∀ a ∈ v.timezones, ReadVTimezone a) : ReadVCalendar v where
  prodid := last_read hl h.prodid read_textLine
  version := last_read hl h.version read_textLine
  calscale := lastIfAny_read hl h.calscale read_textLine
  method := lastIfAny_read hl h.method read_textLine
  alarms := h_alarms
  events := h_events
  freebusy := h_freebusy
  journals := h_journals
  todo := h_todo
  timezones := h_timezones
  xProp := ext_read hl h.xProp
  ianaProp := ext_read hl h.ianaProp

theorem seqText_read {α : Type} {T : Str → α → Str → Prop} {P : α → Prop} (hT : ∀ i a r, T i a r → P a) {i r : Str} {as : List α}
    (h : SeqText T i as r) : ∀ a ∈ as, P a := by
  induction h with
  | nil => simp
  | cons h1 _ ih =>
    intro a ha
    rcases List.mem_cons.1 ha with rfl | ha
    · exact hT _ _ _ h1
    · exact ih a ha

theorem leaf_read {name i r : Str} {ls : List ContentLine} (h : LeafText name i ls r) : ∀ l ∈ ls, ReadLine l := by
  obtain ⟨body, -, h⟩ := h; exact read_lines h

theorem alarmText_read {i r : Str} {v : VAlarm} (h : Full.AlarmText i v r) : ReadVAlarm v := by
  obtain ⟨ls, hl, h⟩ := h
  cases v with
  | audio a => exact read_Audio (leaf_read hl) h.2
  | display a => exact read_Display (leaf_read hl) h.2
  | email a => exact read_Email (leaf_read hl) h.2

theorem todoText_read {i r : Str} {v : VTodo} (h : Full.TodoText i v r) : ReadVTodo v := by
  obtain ⟨ls, hl, h⟩ := h; exact read_VTodo (leaf_read hl) h

theorem journalText_read {i r : Str} {v : VJournal} (h : Full.JournalText i v r) : ReadVJournal v := by
  obtain ⟨ls, hl, h⟩ := h; exact read_VJournal (leaf_read hl) h

theorem freebusyText_read {i r : Str} {v : VFreebusy} (h : Full.FreebusyText i v r) : ReadVFreebusy v := by
  obtain ⟨ls, hl, h⟩ := h; exact read_VFreebusy (leaf_read hl) h

theorem standardText_read {i r : Str} {v : Standard} (h : Full.StandardText i v r) : ReadStandard v := by
  obtain ⟨ls, hl, h⟩ := h; exact read_Standard (leaf_read hl) h

theorem daylightText_read {i r : Str} {v : Daylight} (h : Full.DaylightText i v r) : ReadDaylight v := by
  obtain ⟨ls, hl, h⟩ := h; exact read_Daylight (leaf_read hl) h

theorem eventText_read {i r : Str} {v : VEvent} (h : Full.EventText i v r) : ReadVEvent v := by
  obtain ⟨body, ls, r1, -, hl, hs, h⟩ := h
  exact read_VEvent (read_lines hl) h (seqText_read (fun _ _ _ h => alarmText_read h) hs)

theorem timezoneText_read {i r : Str} {v : VTimezone} (h : Full.TimezoneText i v r) : ReadVTimezone v := by
  obtain ⟨body, ls, r1, parts, -, hl, hs, h, h1, h2⟩ := h
  have hp : ∀ p ∈ parts, (∀ s, p = .standard s → ReadStandard s) ∧ ∀ d, p = .daylight d → ReadDaylight d := by
    refine seqText_read (fun i p r h => ?_) hs
    cases p with
    | standard s => exact ⟨fun s' e => (by cases e; exact standardText_read h), fun _ e => (by cases e)⟩
    | daylight d => exact ⟨fun _ e => (by cases e), fun s' e => (by cases e; exact daylightText_read h)⟩
  refine read_VTimezone (read_lines hl) h ?_ ?_
  · intro a ha
    rw [h1, standardParts, List.mem_filterMap] at ha
    obtain ⟨p, hm, he⟩ := ha
    cases p with
    | standard s => exact (hp _ hm).1 a (by simpa using he)
    | daylight d => simp at he
  · intro a ha
    rw [h2, daylightParts, List.mem_filterMap] at ha
    obtain ⟨p, hm, he⟩ := ha
    cases p with
    | standard s => simp at he
    | daylight d => exact (hp _ hm).2 a (by simpa using he)

/-- What a component of a calendar that was read is. -/
def ReadComponent : Component → Prop
  | .alarm c => ReadVAlarm c
  | .event c => ReadVEvent c
  | .freebusy c => ReadVFreebusy c
  | .journal c => ReadVJournal c
  | .timezone c => ReadVTimezone c
  | .todo c => ReadVTodo c

theorem componentText_read {i r : Str} {v : Component} (h : Full.ComponentText i v r) : ReadComponent v := by
  cases v with
  | alarm c => exact alarmText_read h
  | event c => exact eventText_read h
  | freebusy c => exact freebusyText_read h
  | journal c => exact journalText_read h
  | timezone c => exact timezoneText_read h
  | todo c => exact todoText_read h

theorem calendarText_read {i r : Str} {v : VCalendar} {cs : List Component} (h : Full.CalendarText i v cs r) : ReadVCalendar v := by
  obtain ⟨body, ls, r1, -, hl, hs, h, h1, h2, h3, h4, h5, h6⟩ := h
  have hp := seqText_read (fun _ _ _ h => componentText_read h) hs
  refine read_VCalendar (read_lines hl) h ?_ ?_ ?_ ?_ ?_ ?_
  · intro a ha
    rw [h1, alarmsOf, List.mem_filterMap] at ha
    obtain ⟨p, hm, he⟩ := ha
    cases p <;> simp at he
    subst he; exact hp _ hm
  · intro a ha
    rw [h2, eventsOf, List.mem_filterMap] at ha
    obtain ⟨p, hm, he⟩ := ha
    cases p <;> simp at he
    subst he; exact hp _ hm
  · intro a ha
    rw [h3, freebusyOf, List.mem_filterMap] at ha
    obtain ⟨p, hm, he⟩ := ha
    cases p <;> simp at he
    subst he; exact hp _ hm
  · intro a ha
    rw [h4, journalsOf, List.mem_filterMap] at ha
    obtain ⟨p, hm, he⟩ := ha
    cases p <;> simp at he
    subst he; exact hp _ hm
  · intro a ha
    rw [h5, todosOf, List.mem_filterMap] at ha
    obtain ⟨p, hm, he⟩ := ha
    cases p <;> simp at he
    subst he; exact hp _ hm
  · intro a ha
    rw [h6, timezonesOf, List.mem_filterMap] at ha
    obtain ⟨p, hm, he⟩ := ha
    cases p <;> simp at he
    subst he; exact hp _ hm

/-- **C80** for an alarm: whatever text it is read from, it is well-formed. -/
theorem C80_VAlarm {s : Str} {v : VAlarm} (h : VAlarm.ofStr s = .ok v) : ReadVAlarm v := by
  obtain ⟨u, r, -, h⟩ := (C76_VAlarm s v).1 h; exact alarmText_read h

/-- **C80** for an event: whatever text it is read from, it is well-formed. -/
theorem C80_VEvent {s : Str} {v : VEvent} (h : VEvent.ofStr s = .ok v) : ReadVEvent v := by
  obtain ⟨u, r, -, h⟩ := (C76_VEvent s v).1 h; exact eventText_read h

/-- **C80** for a to-do: whatever text it is read from, it is well-formed. -/
theorem C80_VTodo {s : Str} {v : VTodo} (h : VTodo.ofStr s = .ok v) : ReadVTodo v := by
  obtain ⟨u, r, -, h⟩ := (C76_VTodo s v).1 h; exact todoText_read h

/-- **C80** for a journal entry: whatever text it is read from, it is well-formed. -/
theorem C80_VJournal {s : Str} {v : VJournal} (h : VJournal.ofStr s = .ok v) : ReadVJournal v := by
  obtain ⟨u, r, -, h⟩ := (C76_VJournal s v).1 h; exact journalText_read h

/-- **C80** for a free/busy component: whatever text it is read from, it is well-formed. -/
theorem C80_VFreebusy {s : Str} {v : VFreebusy} (h : VFreebusy.ofStr s = .ok v) : ReadVFreebusy v := by
  obtain ⟨u, r, -, h⟩ := (C76_VFreebusy s v).1 h; exact freebusyText_read h

/-- **C80** for the standard part of a time zone: whatever text it is read from, it is well-formed. -/
theorem C80_Standard {s : Str} {v : Standard} (h : Standard.ofStr s = .ok v) : ReadStandard v := by
  obtain ⟨u, r, -, h⟩ := (C76_Standard s v).1 h; exact standardText_read h

/-- **C80** for the daylight part of a time zone: whatever text it is read from, it is well-formed. -/
theorem C80_Daylight {s : Str} {v : Daylight} (h : Daylight.ofStr s = .ok v) : ReadDaylight v := by
  obtain ⟨u, r, -, h⟩ := (C76_Daylight s v).1 h; exact daylightText_read h

/-- **C80** for a time zone: whatever text it is read from, it is well-formed. -/
theorem C80_VTimezone {s : Str} {v : VTimezone} (h : VTimezone.ofStr s = .ok v) : ReadVTimezone v := by
  obtain ⟨u, r, -, h⟩ := (C76_VTimezone s v).1 h; exact timezoneText_read h

/-- **C80** for a calendar: whatever text it is read from, it is well-formed, and so is each of its components. -/
theorem C80_VCalendar {s : Str} {v : VCalendar} (h : VCalendar.ofStr s = .ok v) : ReadVCalendar v := by
  obtain ⟨u, cs, r, -, h⟩ := (C76_VCalendar s v).1 h; exact calendarText_read h

/-! ## Survival -/

theorem safe_params {m : SMap Str} (hr : ReadParams m) (h : KeptParams m) : SafeParams m :=
  ⟨hr.1, fun p hp => ⟨(hr.2 p hp).1, h p hp⟩⟩

theorem good_Text {t : Text} (hr : ReadText t) (h : KeptText t) : GoodText t :=
  ⟨h.1, ⟨h.2.1, h.2.2.1, hr.1⟩, hr.2.1, safe_params hr.2.2 h.2.2.2⟩

theorem good_Uri {t : Uri} (hr : ReadUri t) (h : KeptUri t) : GoodUri t :=
  ⟨h.1, ⟨h.2.1, h.2.2.1, hr.1⟩, hr.2.1, safe_params hr.2.2 h.2.2.2⟩

theorem good_texts {l : List Text} (hr : ∀ t ∈ l, ReadItem t) (h : KeptTexts l) : GoodTexts l :=
  ⟨fun t ht => ⟨(hr t ht).2.2.2, ⟨h.1 t ht, (hr t ht).2.2.1, (hr t ht).1⟩, (hr t ht).2.1⟩, h.2⟩

theorem good_DateTime {t : DateTime} (hr : ReadDateTime t) (h : KeptDateTime t) : PlainDateTime t := by
  cases t with
  | naive t => exact ⟨h, hr.2⟩
  | loc t => exact ⟨h.1, hr.2, h.2⟩

theorem good_Date {t : Date} (hr : ReadDate t) (h : KeptDate t) : PlainDate t := by
  cases t with
  | date d => exact ⟨h, hr.1⟩
  | dateTime t => exact good_DateTime hr h

theorem good_Period {p : Period} (hr : ReadPeriod p) (h : KeptPeriod p) : GoodPeriod p := by
  cases p with
  | startEnd a b => exact ⟨good_DateTime hr.1 h.1, good_DateTime hr.2 h.2⟩
  | startDur a d => exact ⟨good_DateTime hr.1 h, hr.2⟩

theorem good_Trigger {t : Trigger} (hr : ReadTrigger t) (h : KeptTrigger t) : GoodTrigger t := by
  cases t with
  | duration d => exact hr
  | dateTime t => exact good_DateTime hr h

theorem good_Class {c : Class} (hr : ReadClass c) (h : KeptClass c) : GoodClass c :=
  fun s hs => ⟨(h s hs).1, (h s hs).2, hr s hs⟩

theorem good_RequestStatus {r : RequestStatus} (_ : ReadRequestStatus r) (h : KeptRequestStatus r) : GoodRequestStatus r := h

theorem good_Rule {r : Recur} (hr : ReadRule r) (h : KeptRule r) : PlainRule r :=
  { hr with until_ := fun d hd => good_Date (hr.until_ d hd) (h d hd) }

theorem good_Audio {v : Audio} (hr : ReadAudio v) (h : KeptAudio v) : GoodAudio v where
  action := good_Text hr.action h.action
  trigger := good_Trigger hr.trigger h.trigger
  duration := hr.duration
  repeat_ := hr.repeat_
  attach := ⟨h.attach.1, fun a ha => good_Text (hr.attach a ha) (h.attach.2 a ha)⟩
  xProp := h.xProp
  ianaProp := h.ianaProp

theorem good_Display {v : Display} (hr : ReadDisplay v) (h : KeptDisplay v) : GoodDisplay v where
  action := good_Text hr.action h.action
  trigger := good_Trigger hr.trigger h.trigger
  description := good_Text hr.description h.description
  duration := hr.duration
  repeat_ := hr.repeat_
  xProp := h.xProp
  ianaProp := h.ianaProp

theorem good_Email {v : Email} (hr : ReadEmail v) (h : KeptEmail v) : GoodEmail v where
  action := good_Text hr.action h.action
  trigger := good_Trigger hr.trigger h.trigger
  description := good_Text hr.description h.description
  summary := good_Text hr.summary h.summary
  attendee := ⟨h.attendee.1, fun a ha => good_Uri (hr.attendee a ha) (h.attendee.2 a ha)⟩
  duration := hr.duration
  repeat_ := hr.repeat_
  attach := ⟨h.attach.1, fun a ha => good_Text (hr.attach a ha) (h.attach.2 a ha)⟩
  xProp := h.xProp
  ianaProp := h.ianaProp

theorem good_VEvent {v : VEvent} (hr : ReadVEvent v) (h : KeptVEvent v) : GoodVEvent v where
  dtstamp := good_DateTime hr.dtstamp h.dtstamp
  uid := good_Text hr.uid h.uid
  dtstart := good_Date hr.dtstart h.dtstart
  class_ := fun a ha => good_Class (hr.class_ a ha) (h.class_ a ha)
  created := fun a ha => good_DateTime (hr.created a ha) (h.created a ha)
  description := fun a ha => good_Text (hr.description a ha) (h.description a ha)
  geo := h.geo
  lastModified := fun a ha => good_DateTime (hr.lastModified a ha) (h.lastModified a ha)
  location := fun a ha => good_Text (hr.location a ha) (h.location a ha)
  organizer := fun a ha => good_Uri (hr.organizer a ha) (h.organizer a ha)
  priority := hr.priority
  sequence := hr.sequence
  summary := fun a ha => good_Text (hr.summary a ha) (h.summary a ha)
  url := fun a ha => good_Uri (hr.url a ha) (h.url a ha)
  recurid := fun a ha => good_Date (hr.recurid a ha) (h.recurid a ha)
  rrule := fun a ha => good_Rule (hr.rrule a ha) (h.rrule a ha)
  dtend := fun a ha => good_Date (hr.dtend a ha) (h.dtend a ha)
  duration := hr.duration
  attach := ⟨h.attach.1, fun a ha => good_Text (hr.attach a ha) (h.attach.2 a ha)⟩
  attendee := ⟨h.attendee.1, fun a ha => good_Uri (hr.attendee a ha) (h.attendee.2 a ha)⟩
  categories := good_texts hr.categories h.categories
  comment := ⟨h.comment.1, fun a ha => good_Text (hr.comment a ha) (h.comment.2 a ha)⟩
  contact := ⟨h.contact.1, fun a ha => good_Text (hr.contact a ha) (h.contact.2 a ha)⟩
  exdate := fun a ha => good_Date (hr.exdate a ha) (h.exdate a ha)
  rstatus := ⟨h.rstatus.1, fun a ha => good_RequestStatus (hr.rstatus a ha) (h.rstatus.2 a ha)⟩
  relatedTo := ⟨h.relatedTo.1, fun a ha => good_Text (hr.relatedTo a ha) (h.relatedTo.2 a ha)⟩
  resources := good_texts hr.resources h.resources
  rdate := h.rdate
  alarms := h.alarms
  xProp := h.xProp
  ianaProp := h.ianaProp

theorem good_VFreebusy {v : VFreebusy} (hr : ReadVFreebusy v) (h : KeptVFreebusy v) : GoodVFreebusy v where
  dtstamp := good_DateTime hr.dtstamp h.dtstamp
  uid := good_Text hr.uid h.uid
  contact := fun a ha => good_Text (hr.contact a ha) (h.contact a ha)
  dtstart := fun a ha => good_Date (hr.dtstart a ha) (h.dtstart a ha)
  dtend := fun a ha => good_Date (hr.dtend a ha) (h.dtend a ha)
  organizer := fun a ha => good_Uri (hr.organizer a ha) (h.organizer a ha)
  url := fun a ha => good_Uri (hr.url a ha) (h.url a ha)
  attendee := ⟨h.attendee.1, fun a ha => good_Uri (hr.attendee a ha) (h.attendee.2 a ha)⟩
  comment := ⟨h.comment.1, fun a ha => good_Text (hr.comment a ha) (h.comment.2 a ha)⟩
  freebusy := fun a ha => good_Period (hr.freebusy a ha) (h.freebusy a ha)
  rstatus := ⟨h.rstatus.1, fun a ha => good_RequestStatus (hr.rstatus a ha) (h.rstatus.2 a ha)⟩
  xProp := h.xProp
  ianaProp := h.ianaProp

theorem good_VJournal {v : VJournal} (hr : ReadVJournal v) (h : KeptVJournal v) : GoodVJournal v where
  dtstamp := good_DateTime hr.dtstamp h.dtstamp
  uid := good_Text hr.uid h.uid
  class_ := fun a ha => good_Class (hr.class_ a ha) (h.class_ a ha)
  created := fun a ha => good_DateTime (hr.created a ha) (h.created a ha)
  dtstart := good_Date hr.dtstart h.dtstart
  lastModified := fun a ha => good_DateTime (hr.lastModified a ha) (h.lastModified a ha)
  organizer := fun a ha => good_Uri (hr.organizer a ha) (h.organizer a ha)
  recurid := fun a ha => good_Date (hr.recurid a ha) (h.recurid a ha)
  sequence := hr.sequence
  summary := fun a ha => good_Text (hr.summary a ha) (h.summary a ha)
  url := fun a ha => good_Uri (hr.url a ha) (h.url a ha)
  rrule := fun a ha => good_Rule (hr.rrule a ha) (h.rrule a ha)
  attach := ⟨h.attach.1, fun a ha => good_Text (hr.attach a ha) (h.attach.2 a ha)⟩
  attendee := ⟨h.attendee.1, fun a ha => good_Uri (hr.attendee a ha) (h.attendee.2 a ha)⟩
  categories := good_texts hr.categories h.categories
  comment := ⟨h.comment.1, fun a ha => good_Text (hr.comment a ha) (h.comment.2 a ha)⟩
  contact := ⟨h.contact.1, fun a ha => good_Text (hr.contact a ha) (h.contact.2 a ha)⟩
  description := ⟨h.description.1, fun a ha => good_Text (hr.description a ha) (h.description.2 a ha)⟩
  exdate := fun a ha => good_Date (hr.exdate a ha) (h.exdate a ha)
  relatedTo := ⟨h.relatedTo.1, fun a ha => good_Text (hr.relatedTo a ha) (h.relatedTo.2 a ha)⟩
  rdate := h.rdate
  rstatus := ⟨h.rstatus.1, fun a ha => good_RequestStatus (hr.rstatus a ha) (h.rstatus.2 a ha)⟩
  xProp := h.xProp
  ianaProp := h.ianaProp

theorem good_Standard {v : Standard} (hr : ReadStandard v) (h : KeptStandard v) : GoodStandard v where
  dtstart := good_Date hr.dtstart h.dtstart
  tzoffsetto := hr.tzoffsetto
  tzoffsetfrom := hr.tzoffsetfrom
  rrule := fun a ha => good_Rule (hr.rrule a ha) (h.rrule a ha)
  comment := ⟨h.comment.1, fun a ha => good_Text (hr.comment a ha) (h.comment.2 a ha)⟩
  rdate := h.rdate
  tzname := ⟨h.tzname.1, fun a ha => good_Text (hr.tzname a ha) (h.tzname.2 a ha)⟩
  xProp := h.xProp
  ianaProp := h.ianaProp

theorem good_Daylight {v : Daylight} (hr : ReadDaylight v) (h : KeptDaylight v) : GoodDaylight v where
  dtstart := good_Date hr.dtstart h.dtstart
  tzoffsetto := hr.tzoffsetto
  tzoffsetfrom := hr.tzoffsetfrom
  rrule := fun a ha => good_Rule (hr.rrule a ha) (h.rrule a ha)
  comment := ⟨h.comment.1, fun a ha => good_Text (hr.comment a ha) (h.comment.2 a ha)⟩
  rdate := h.rdate
  tzname := ⟨h.tzname.1, fun a ha => good_Text (hr.tzname a ha) (h.tzname.2 a ha)⟩
  xProp := h.xProp
  ianaProp := h.ianaProp

theorem good_VTimezone {v : VTimezone} (hr : ReadVTimezone v) (h : KeptVTimezone v) : GoodVTimezone v where
  tzid := good_Text hr.tzid h.tzid
  lastModified := fun a ha => good_DateTime (hr.lastModified a ha) (h.lastModified a ha)
  tzurl := fun a ha => good_Uri (hr.tzurl a ha) (h.tzurl a ha)
  standard := ⟨h.standard.1, fun a ha => good_Standard (hr.standard a ha) (h.standard.2 a ha)⟩
  daylight := ⟨h.daylight.1, fun a ha => good_Daylight (hr.daylight a ha) (h.daylight.2 a ha)⟩
  xProp := h.xProp
  ianaProp := h.ianaProp

theorem good_VTodo {v : VTodo} (hr : ReadVTodo v) (h : KeptVTodo v) : GoodVTodo v where
  dtstamp := good_DateTime hr.dtstamp h.dtstamp
  uid := good_Text hr.uid h.uid
  class_ := fun a ha => good_Class (hr.class_ a ha) (h.class_ a ha)
  completed := fun a ha => good_DateTime (hr.completed a ha) (h.completed a ha)
  created := fun a ha => good_DateTime (hr.created a ha) (h.created a ha)
  dtstart := fun a ha => good_Date (hr.dtstart a ha) (h.dtstart a ha)
  geo := h.geo
  lastModified := fun a ha => good_DateTime (hr.lastModified a ha) (h.lastModified a ha)
  location := fun a ha => good_Text (hr.location a ha) (h.location a ha)
  organizer := fun a ha => good_Uri (hr.organizer a ha) (h.organizer a ha)
  percentComplete := hr.percentComplete
  priority := hr.priority
  recurid := fun a ha => good_Date (hr.recurid a ha) (h.recurid a ha)
  sequence := hr.sequence
  summary := fun a ha => good_Text (hr.summary a ha) (h.summary a ha)
  url := fun a ha => good_Uri (hr.url a ha) (h.url a ha)
  rrule := fun a ha => good_Rule (hr.rrule a ha) (h.rrule a ha)
  due := fun a ha => good_Date (hr.due a ha) (h.due a ha)
  duration := hr.duration
  attach := ⟨h.attach.1, fun a ha => good_Text (hr.attach a ha) (h.attach.2 a ha)⟩
  attendee := ⟨h.attendee.1, fun a ha => good_Uri (hr.attendee a ha) (h.attendee.2 a ha)⟩
  categories := good_texts hr.categories h.categories
  comment := ⟨h.comment.1, fun a ha => good_Text (hr.comment a ha) (h.comment.2 a ha)⟩
  contact := ⟨h.contact.1, fun a ha => good_Text (hr.contact a ha) (h.contact.2 a ha)⟩
  exdate := fun a ha => good_Date (hr.exdate a ha) (h.exdate a ha)
  rstatus := ⟨h.rstatus.1, fun a ha => good_RequestStatus (hr.rstatus a ha) (h.rstatus.2 a ha)⟩
  relatedTo := ⟨h.relatedTo.1, fun a ha => good_Text (hr.relatedTo a ha) (h.relatedTo.2 a ha)⟩
  resources := good_texts hr.resources h.resources
  rdate := h.rdate
  xProp := h.xProp
  ianaProp := h.ianaProp

theorem good_VCalendar {v : VCalendar} (hr : ReadVCalendar v) (h : KeptVCalendar v) : GoodVCalendar v where
  prodid := good_Text hr.prodid h.prodid
  version := good_Text hr.version h.version
  calscale := fun a ha => good_Text (hr.calscale a ha) (h.calscale a ha)
  method := fun a ha => good_Text (hr.method a ha) (h.method a ha)
  alarms := h.alarms
  events := ⟨h.events.1, fun a ha => good_VEvent (hr.events a ha) (h.events.2 a ha)⟩
  freebusy := ⟨h.freebusy.1, fun a ha => good_VFreebusy (hr.freebusy a ha) (h.freebusy.2 a ha)⟩
  journals := ⟨h.journals.1, fun a ha => good_VJournal (hr.journals a ha) (h.journals.2 a ha)⟩
  todo := ⟨h.todo.1, fun a ha => good_VTodo (hr.todo a ha) (h.todo.2 a ha)⟩
  timezones := ⟨h.timezones.1, fun a ha => good_VTimezone (hr.timezones a ha) (h.timezones.2 a ha)⟩
  xProp := h.xProp
  ianaProp := h.ianaProp

theorem good_VAlarm {v : VAlarm} (hr : ReadVAlarm v) (h : KeptVAlarm v) : GoodVAlarm v := by
  cases v with
  | audio a => exact ⟨good_Audio hr h.1, h.2⟩
  | display a => exact ⟨good_Display hr h.1, h.2⟩
  | email a => exact ⟨good_Email hr h.1, h.2⟩

/-- **C81** for an alarm: what was read from any text and is kept by writing is read again from what is written. -/
theorem C81_VAlarm {s t : Str} {v : VAlarm} (h : VAlarm.ofStr s = .ok v) (hk : KeptVAlarm v) (ht : ical v = .ok t) : VAlarm.ofStr t = .ok v :=
  C45_VAlarm v (good_VAlarm (C80_VAlarm h) hk) t ht

/-- **C81** for an event: what was read from any text and is kept by writing is read again from what is written. -/
theorem C81_VEvent {s t : Str} {v : VEvent} (h : VEvent.ofStr s = .ok v) (hk : KeptVEvent v) (ht : ical v = .ok t) : VEvent.ofStr t = .ok v :=
  C46_VEvent v (good_VEvent (C80_VEvent h) hk) t ht

/-- **C81** for a to-do: what was read from any text and is kept by writing is read again from what is written. -/
theorem C81_VTodo {s t : Str} {v : VTodo} (h : VTodo.ofStr s = .ok v) (hk : KeptVTodo v) (ht : ical v = .ok t) : VTodo.ofStr t = .ok v :=
  C46_VTodo v (good_VTodo (C80_VTodo h) hk) t ht

/-- **C81** for a journal entry: what was read from any text and is kept by writing is read again from what is written. -/
theorem C81_VJournal {s t : Str} {v : VJournal} (h : VJournal.ofStr s = .ok v) (hk : KeptVJournal v) (ht : ical v = .ok t) : VJournal.ofStr t = .ok v :=
  C46_VJournal v (good_VJournal (C80_VJournal h) hk) t ht

/-- **C81** for a free/busy component: what was read from any text and is kept by writing is read again from what is written. -/
theorem C81_VFreebusy {s t : Str} {v : VFreebusy} (h : VFreebusy.ofStr s = .ok v) (hk : KeptVFreebusy v) (ht : ical v = .ok t) : VFreebusy.ofStr t = .ok v :=
  C46_VFreebusy v (good_VFreebusy (C80_VFreebusy h) hk) t ht

/-- **C81** for the standard part of a time zone: what was read from any text and is kept by writing is read again from what is written. -/
theorem C81_Standard {s t : Str} {v : Standard} (h : Standard.ofStr s = .ok v) (hk : KeptStandard v) (ht : ical v = .ok t) : Standard.ofStr t = .ok v :=
  C46_Standard v (good_Standard (C80_Standard h) hk) t ht

/-- **C81** for the daylight part of a time zone: what was read from any text and is kept by writing is read again from what is written. -/
theorem C81_Daylight {s t : Str} {v : Daylight} (h : Daylight.ofStr s = .ok v) (hk : KeptDaylight v) (ht : ical v = .ok t) : Daylight.ofStr t = .ok v :=
  C46_Daylight v (good_Daylight (C80_Daylight h) hk) t ht

/-- **C81** for a time zone: what was read from any text and is kept by writing is read again from what is written. -/
theorem C81_VTimezone {s t : Str} {v : VTimezone} (h : VTimezone.ofStr s = .ok v) (hk : KeptVTimezone v) (ht : ical v = .ok t) : VTimezone.ofStr t = .ok v :=
  C46_VTimezone v (good_VTimezone (C80_VTimezone h) hk) t ht

/-- **C81** for a calendar: what was read from any text and is kept by writing is read again from what is written. -/
theorem C81_VCalendar {s t : Str} {v : VCalendar} (h : VCalendar.ofStr s = .ok v) (hk : KeptVCalendar v) (ht : ical v = .ok t) : VCalendar.ofStr t = .ok v :=
  C46_VCalendar v (good_VCalendar (C80_VCalendar h) hk) t ht

/-! ## Iterating what was read -/

/-- If the start is in local time and the rule is in months or years, the zone is one of the real world, and the clocks show a year in range at the
start. -/
def Spec.SteadyStart (r : Recur) (d : Date) : Prop :=
  ∀ t, d = .dateTime (.loc t) → r.freq = .monthly ∨ r.freq = .yearly → FaithfulZone ∧ TwoOffsets ∧ InRange (localOf t).date

/-- If the start is in local time and the rule is in weeks or less, the clocks are not put back by as much as a step. -/
def Spec.SteadyClocks (r : Recur) (d : Date) : Prop :=
  ∀ t u, d = .dateTime (.loc t) → secondsOf r.freq = some u → ClocksAdvance (r.interval * u)

theorem read_realTime {t : NaiveDateTime} (h : ReadTime t) : RealTime t :=
  ⟨h.2.1, h.1, h.2.2.1, by rcases h.2.2.2 with h | h <;> omega⟩

theorem fixed_or_calendar (f : Freq) : (∃ u, secondsOf f = some u) ∨ f = .monthly ∨ f = .yearly := by
  cases f <;> first | exact .inl ⟨_, rfl⟩ | exact .inr (.inl rfl) | exact .inr (.inr rfl)

theorem read_fate {α : Type} [Recurring α] [LawfulRecurring α] {s : α} {d : Date} {r : Recur} (hd : Recurring.dtstart s = some d)
    (hr : Recurring.rrule s = some r) (h1 : ReadDate d) (h2 : ReadRule r) (hi : r.interval ≠ 0) (hl : SteadyStart r d) :
    ∃ xs s', Run s xs s' ∧ (Exhausted s' ∨ Panics s') := by
  refine C73_fate hd hr (by omega) h2.interval ?_
  match d, h1 with
  | .date x, h1 => exact h1
  | .dateTime (.naive t), h1 => exact read_realTime h1
  | .dateTime (.loc t), h1 =>
    rcases fixed_or_calendar r.freq with hu | hf
    · exact .inl ⟨read_realTime h1, hu⟩
    · obtain ⟨a, b, c⟩ := hl t rfl hf
      exact .inr ⟨a, b, hf, c⟩

theorem read_increasing {α : Type} [Recurring α] [LawfulRecurring α] {s : α} {d : Date} {r : Recur} (hd : Recurring.dtstart s = some d)
    (hr : Recurring.rrule s = some r) (h1 : ReadDate d) (h2 : ReadRule r) (hi : r.interval ≠ 0) (hl : SteadyStart r d) (hc : SteadyClocks r d)
    (hf : d.hasTime = true ∨ r.freq = .daily ∨ r.freq = .weekly ∨ r.freq = .monthly ∨ r.freq = .yearly) : Increasing s := by
  match d, h1 with
  | .date x, h1 =>
    exact C63_increasing hd hr (by omega) h2.interval (.inl ⟨x, rfl, h1.1, h1.2, hf.resolve_left (by simp [Date.hasTime])⟩)
  | .dateTime (.naive t), h1 => exact C63_increasing hd hr (by omega) h2.interval (.inr ⟨t, rfl, read_realTime h1⟩)
  | .dateTime (.loc t), h1 =>
    rcases fixed_or_calendar r.freq with ⟨u, hu⟩ | hf
    · exact C60_local hd hr (by omega) h2.interval (read_realTime h1) hu (hc t u rfl hu)
    · obtain ⟨a, b, c⟩ := hl t rfl hf
      exact C60_local_calendar a b hd hr (by omega) h2.interval hf c

/-- **C80**: the iteration over an event that was read, with an interval other than 0, comes to an end or to a panic, whatever the text (for months and
years on local times: in a zone of the real world). -/
theorem C80_VEvent_fate {s : Str} {v : VEvent} (h : VEvent.ofStr s = .ok v) {d : Date} {r : Recur} (hd : v.dtstart = d) (hr : v.rrule = some r)
    (hi : r.interval ≠ 0) (hl : SteadyStart r d) : ∃ xs s', Run v xs s' ∧ (Exhausted s' ∨ Panics s') :=
  read_fate (s := v) (congrArg some hd) hr ((hd ▸ (C80_VEvent h).dtstart)) ((C80_VEvent h).rrule r hr) hi hl

/-- **C80**: and its occurrences are in increasing order, if the rule is not finer than daily or the start has a time (and for a start in local
time if the clocks are not put back by as much as a step). -/
theorem C80_VEvent_increasing {s : Str} {v : VEvent} (h : VEvent.ofStr s = .ok v) {d : Date} {r : Recur} (hd : v.dtstart = d)
    (hr : v.rrule = some r) (hi : r.interval ≠ 0) (hl : SteadyStart r d) (hc : SteadyClocks r d)
    (hf : d.hasTime = true ∨ r.freq = .daily ∨ r.freq = .weekly ∨ r.freq = .monthly ∨ r.freq = .yearly) : Increasing v :=
  read_increasing (s := v) (congrArg some hd) hr ((hd ▸ (C80_VEvent h).dtstart)) ((C80_VEvent h).rrule r hr) hi hl hc hf

/-- **C80**: the iteration over a to-do that was read, with an interval other than 0, comes to an end or to a panic, whatever the text (for months and
years on local times: in a zone of the real world). -/
theorem C80_VTodo_fate {s : Str} {v : VTodo} (h : VTodo.ofStr s = .ok v) {d : Date} {r : Recur} (hd : v.dtstart = some d) (hr : v.rrule = some r)
    (hi : r.interval ≠ 0) (hl : SteadyStart r d) : ∃ xs s', Run v xs s' ∧ (Exhausted s' ∨ Panics s') :=
  read_fate (s := v) hd hr ((C80_VTodo h).dtstart d hd) ((C80_VTodo h).rrule r hr) hi hl

/-- **C80**: and its occurrences are in increasing order, if the rule is not finer than daily or the start has a time (and for a start in local
time if the clocks are not put back by as much as a step). -/
theorem C80_VTodo_increasing {s : Str} {v : VTodo} (h : VTodo.ofStr s = .ok v) {d : Date} {r : Recur} (hd : v.dtstart = some d)
    (hr : v.rrule = some r) (hi : r.interval ≠ 0) (hl : SteadyStart r d) (hc : SteadyClocks r d)
    (hf : d.hasTime = true ∨ r.freq = .daily ∨ r.freq = .weekly ∨ r.freq = .monthly ∨ r.freq = .yearly) : Increasing v :=
  read_increasing (s := v) hd hr ((C80_VTodo h).dtstart d hd) ((C80_VTodo h).rrule r hr) hi hl hc hf

/-- **C80**: the iteration over a journal entry that was read, with an interval other than 0, comes to an end or to a panic, whatever the text (for months and
years on local times: in a zone of the real world). -/
theorem C80_VJournal_fate {s : Str} {v : VJournal} (h : VJournal.ofStr s = .ok v) {d : Date} {r : Recur} (hd : v.dtstart = d) (hr : v.rrule = some r)
    (hi : r.interval ≠ 0) (hl : SteadyStart r d) : ∃ xs s', Run v xs s' ∧ (Exhausted s' ∨ Panics s') :=
  read_fate (s := v) (congrArg some hd) hr ((hd ▸ (C80_VJournal h).dtstart)) ((C80_VJournal h).rrule r hr) hi hl

/-- **C80**: and its occurrences are in increasing order, if the rule is not finer than daily or the start has a time (and for a start in local
time if the clocks are not put back by as much as a step). -/
theorem C80_VJournal_increasing {s : Str} {v : VJournal} (h : VJournal.ofStr s = .ok v) {d : Date} {r : Recur} (hd : v.dtstart = d)
    (hr : v.rrule = some r) (hi : r.interval ≠ 0) (hl : SteadyStart r d) (hc : SteadyClocks r d)
    (hf : d.hasTime = true ∨ r.freq = .daily ∨ r.freq = .weekly ∨ r.freq = .monthly ∨ r.freq = .yearly) : Increasing v :=
  read_increasing (s := v) (congrArg some hd) hr ((hd ▸ (C80_VJournal h).dtstart)) ((C80_VJournal h).rrule r hr) hi hl hc hf

end

section
attribute [local instance] utc

/-- A free/busy component as someone else writes it: without carriage returns, with blanks, quotes and in another order. -/
def foreignFreebusy : Str :=
  c!"BEGIN:VFREEBUSY\r\nUID;X=\"1\":1\nFREEBUSY:20240229T235960/PT1H\nDTSTART:2024 3 1\nDTSTAMP:20240229T235960\nEND:VFREEBUSY\r\n"

/-- What it means. -/
def keptFreebusy : VFreebusy :=
  { dtstamp := .naive ⟨⟨2024, 2, 29⟩, 86399, 1000000000⟩, uid := ⟨[(c!"X", c!"1")], c!"1"⟩, dtstart := some (.date ⟨2024, 3, 1⟩), contact := none,
    dtend := none, organizer := none, url := none, attendee := [], comment := [],
    freebusy := [.startDur (.naive ⟨⟨2024, 2, 29⟩, 86399, 1000000000⟩) ⟨3600000000000⟩], rstatus := [], xProp := [], ianaProp := [] }

set_option maxRecDepth 8000 in
theorem foreignFreebusy_read : VFreebusy.ofStr foreignFreebusy = .ok keptFreebusy := rfl

theorem keptFreebusy_kept : KeptVFreebusy keptFreebusy where
  dtstamp := ⟨by decide, by decide⟩
  uid := ⟨by decide, by decide, by decide, by intro p hp; obtain rfl := List.mem_singleton.1 hp; decide⟩
  contact := by intro a ha; simp [keptFreebusy] at ha
  dtstart := by
    intro a ha
    obtain rfl : Date.date ⟨2024, 3, 1⟩ = a := by simpa [keptFreebusy] using ha
    exact ⟨by decide, by decide⟩
  dtend := by intro a ha; simp [keptFreebusy] at ha
  organizer := by intro a ha; simp [keptFreebusy] at ha
  url := by intro a ha; simp [keptFreebusy] at ha
  attendee := ⟨by decide, by intro a ha; simp [keptFreebusy] at ha⟩
  comment := ⟨by decide, by intro a ha; simp [keptFreebusy] at ha⟩
  freebusy := by
    intro a ha
    obtain rfl := List.mem_singleton.1 ha
    exact ⟨by decide, by decide⟩
  rstatus := ⟨by decide, by intro a ha; simp [keptFreebusy] at ha⟩
  xProp := rfl
  ianaProp := rfl

set_option maxRecDepth 8000 in
example : ∃ t, ical keptFreebusy = .ok t ∧ t ≠ foreignFreebusy ∧ VFreebusy.ofStr t = .ok keptFreebusy :=
  ⟨_, rfl, by decide +kernel, C81_VFreebusy foreignFreebusy_read keptFreebusy_kept rfl⟩

example : ReadVFreebusy keptFreebusy := C80_VFreebusy foreignFreebusy_read

/-- A weekly event that is read. -/
def foreignEvent : Str :=
  c!"BEGIN:VEVENT\r\nUID:1\nDTSTAMP:20240229T120000\nRRULE:FREQ=WEEKLY;INTERVAL=2\nDTSTART:20240301\nEND:VEVENT\r\n"

set_option maxRecDepth 8000 in
example : ∃ v, VEvent.ofStr foreignEvent = .ok v ∧ Increasing v ∧ ∃ xs s', Run v xs s' ∧ (Exhausted s' ∨ Panics s') := by
  have h : ∃ v r, VEvent.ofStr foreignEvent = .ok v ∧ v.dtstart = .date ⟨2024, 3, 1⟩ ∧ v.rrule = some r ∧ r.interval = 2 ∧ r.freq = .weekly :=
    ⟨_, _, rfl, rfl, rfl, rfl, rfl⟩
  obtain ⟨v, r, h, hd, hr, hi, hf⟩ := h
  exact ⟨v, h, C80_VEvent_increasing h hd hr (by omega) (fun t e => by cases e) (fun t u e => by cases e) (.inr (.inr (.inl hf))),
    C80_VEvent_fate h hd hr (by omega) (fun t e => by cases e)⟩

end

section
attribute [local instance] summerZone

/-- Days and months of events with a time in UTC, where the clocks are put forward and back by an hour. -/
def utcEvent (rule : Str) : Str :=
  c!"BEGIN:VEVENT\r\nUID:1\nDTSTAMP:20240229T120000\nRRULE:FREQ=" ++ rule ++ c!";INTERVAL=2\nDTSTART:20240301T120000Z\nEND:VEVENT\r\n"

set_option maxRecDepth 8000 in
example : ∃ v, VEvent.ofStr (utcEvent c!"DAILY") = .ok v ∧ Increasing v ∧ ∃ xs s', Run v xs s' ∧ (Exhausted s' ∨ Panics s') := by
  have h : ∃ v r, VEvent.ofStr (utcEvent c!"DAILY") = .ok v ∧ v.dtstart = .dateTime (.loc ⟨⟨2024, 3, 1⟩, 43200, 0⟩) ∧ v.rrule = some r ∧ r.interval = 2 ∧ r.freq = .daily :=
    ⟨_, _, rfl, rfl, rfl, rfl, rfl⟩
  obtain ⟨v, r, h, hd, hr, hi, hf⟩ := h
  have hs : SteadyStart r (.dateTime (.loc ⟨⟨2024, 3, 1⟩, 43200, 0⟩)) := fun t _ hm => by rcases hm with hm | hm <;> rw [hf] at hm <;> cases hm
  refine ⟨v, h, C80_VEvent_increasing h hd hr (by omega) hs ?_ (.inl rfl), C80_VEvent_fate h hd hr (by omega) hs⟩
  intro t u _ hu n
  rw [hf] at hu
  cases hu
  rw [hi]
  show n + summerOffset n < (n + _) + summerOffset (n + _)
  unfold summerOffset
  split <;> split <;> omega

set_option maxRecDepth 8000 in
example : ∃ v, VEvent.ofStr (utcEvent c!"MONTHLY") = .ok v ∧ Increasing v ∧ ∃ xs s', Run v xs s' ∧ (Exhausted s' ∨ Panics s') := by
  have h : ∃ v r, VEvent.ofStr (utcEvent c!"MONTHLY") = .ok v ∧ v.dtstart = .dateTime (.loc ⟨⟨2024, 3, 1⟩, 43200, 0⟩) ∧ v.rrule = some r ∧ r.interval = 2 ∧ r.freq = .monthly :=
    ⟨_, _, rfl, rfl, rfl, rfl, rfl⟩
  obtain ⟨v, r, h, hd, hr, hi, hf⟩ := h
  have hs : SteadyStart r (.dateTime (.loc ⟨⟨2024, 3, 1⟩, 43200, 0⟩)) := fun t e _ => by
    cases e
    exact ⟨summerZone_faithful, summerZone_offsets, by decide +kernel⟩
  exact ⟨v, h, C80_VEvent_increasing h hd hr (by omega) hs (fun t u _ hu => by rw [hf] at hu; cases hu) (.inl rfl), C80_VEvent_fate h hd hr (by omega) hs⟩

end

end Ikal
