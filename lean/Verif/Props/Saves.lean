import Verif.Lemmas.Saves
import Verif.Props.Echo
import Verif.Props.Kinds
import Verif.Props.Float

/-!
# C101: saving and loading again and again
-/

namespace Ikal

open Nom Spec Spec.After

set_option linter.unusedSectionVars false
set_option linter.unusedVariables false

theorem repeat_induct {α : Type} {S : α → α → Prop} {T : α → Prop} {A : Nat → α → α → Prop} (h0 : ∀ v, A 0 v v)
    (hs : ∀ {n v w x}, A n v w → T w → S w x → A (n + 1) v x ∧ T x) {n : Nat} {v w : α} (h : T v) (hr : Repeatedly S n v w) : A n v w ∧ T w := by
  induction hr with
  | none => exact ⟨h0 _, h⟩
  | more _ hb ih =>
    obtain ⟨h1, h2⟩ := ih h
    exact hs h1 h2 hb

section
variable [Platform]

theorem Audio.after_zero (v : Audio) : After.AudioProps 0 v v where
  action := required_zero _ _
  trigger := stepped_trigger.zero _
  duration := opt_zero stepped_duration _
  repeat_ := rfl
  attach := listed_zero _ _
  xProp := ext_zero _ _
  ianaProp := ext_zero _ _

theorem Audio.after_step {n : Nat} {v w x : Audio} (h : After.AudioProps n v w) (hb : Back.AudioProps w x) : After.AudioProps (n + 1) v x where
  action := required_step linked_text h.action hb.action
  trigger := one_step stepped_trigger h.trigger hb.trigger
  duration := opt_step stepped_duration h.duration hb.duration
  repeat_ := number_step h.repeat_ hb.repeat_
  attach := listed_step linked_text h.attach hb.attach
  xProp := ext_step rfl h.xProp hb.xProp
  ianaProp := ext_step rfl h.ianaProp hb.ianaProp

theorem Audio.tidy_stays (P : OneLinePlatform) {v w : Audio} (h : TidyAudio v) (hb : Back.AudioProps v w) : TidyAudio w where
  action := tidy_one linked_text h.action hb.action
  attach := tidy_many linked_text h.attach hb.attach
  xProp := tidy_ext (by decide) h.xProp hb.xProp
  ianaProp := tidy_ext (by decide) h.ianaProp hb.ianaProp

theorem Display.after_zero (v : Display) : After.DisplayProps 0 v v where
  action := required_zero _ _
  trigger := stepped_trigger.zero _
  description := required_zero _ _
  duration := opt_zero stepped_duration _
  repeat_ := rfl
  xProp := ext_zero _ _
  ianaProp := ext_zero _ _

theorem Display.after_step {n : Nat} {v w x : Display} (h : After.DisplayProps n v w) (hb : Back.DisplayProps w x) : After.DisplayProps (n + 1) v x where
  action := required_step linked_text h.action hb.action
  trigger := one_step stepped_trigger h.trigger hb.trigger
  description := required_step linked_text h.description hb.description
  duration := opt_step stepped_duration h.duration hb.duration
  repeat_ := number_step h.repeat_ hb.repeat_
  xProp := ext_step rfl h.xProp hb.xProp
  ianaProp := ext_step rfl h.ianaProp hb.ianaProp

theorem Display.tidy_stays (P : OneLinePlatform) {v w : Display} (h : TidyDisplay v) (hb : Back.DisplayProps v w) : TidyDisplay w where
  action := tidy_one linked_text h.action hb.action
  description := tidy_one linked_text h.description hb.description
  xProp := tidy_ext (by decide) h.xProp hb.xProp
  ianaProp := tidy_ext (by decide) h.ianaProp hb.ianaProp

theorem Email.after_zero (v : Email) : After.EmailProps 0 v v where
  action := required_zero _ _
  trigger := stepped_trigger.zero _
  description := required_zero _ _
  summary := required_zero _ _
  attendee := listed_zero _ _
  duration := opt_zero stepped_duration _
  repeat_ := rfl
  attach := listed_zero _ _
  xProp := ext_zero _ _
  ianaProp := ext_zero _ _

theorem Email.after_step {n : Nat} {v w x : Email} (h : After.EmailProps n v w) (hb : Back.EmailProps w x) : After.EmailProps (n + 1) v x where
  action := required_step linked_text h.action hb.action
  trigger := one_step stepped_trigger h.trigger hb.trigger
  description := required_step linked_text h.description hb.description
  summary := required_step linked_text h.summary hb.summary
  attendee := listed_step linked_uri h.attendee hb.attendee
  duration := opt_step stepped_duration h.duration hb.duration
  repeat_ := number_step h.repeat_ hb.repeat_
  attach := listed_step linked_text h.attach hb.attach
  xProp := ext_step rfl h.xProp hb.xProp
  ianaProp := ext_step rfl h.ianaProp hb.ianaProp

theorem Email.tidy_stays (P : OneLinePlatform) {v w : Email} (h : TidyEmail v) (hb : Back.EmailProps v w) : TidyEmail w where
  action := tidy_one linked_text h.action hb.action
  description := tidy_one linked_text h.description hb.description
  summary := tidy_one linked_text h.summary hb.summary
  attendee := tidy_many linked_uri h.attendee hb.attendee
  attach := tidy_many linked_text h.attach hb.attach
  xProp := tidy_ext (by decide) h.xProp hb.xProp
  ianaProp := tidy_ext (by decide) h.ianaProp hb.ianaProp

theorem VEvent.after_zero (v : VEvent) : After.VEventProps 0 v v where
  dtstamp := stepped_dateTime.zero _
  uid := required_zero _ _
  dtstart := stepped_date.zero _
  class_ := .none
  created := opt_zero stepped_dateTime _
  description := maybe_zero _ _
  geo := .none
  lastModified := opt_zero stepped_dateTime _
  location := maybe_zero _ _
  organizer := maybe_zero _ _
  priority := rfl
  sequence := rfl
  status := rfl
  summary := maybe_zero _ _
  transp := rfl
  url := maybe_zero _ _
  recurid := opt_zero stepped_date _
  rrule := .none
  dtend := opt_zero stepped_date _
  duration := opt_zero stepped_duration _
  attach := listed_zero _ _
  attendee := listed_zero _ _
  categories := split_zero _
  comment := listed_zero _ _
  contact := listed_zero _ _
  exdate := each_zero stepped_date.zero _
  rstatus := .none
  relatedTo := listed_zero _ _
  resources := split_zero _
  rdate := .none
  xProp := ext_zero _ _
  ianaProp := ext_zero _ _

theorem VEvent.after_step {n : Nat} {v w x : VEvent} (h : After.VEventProps n v w) (hb : Back.VEventProps w x) : After.VEventProps (n + 1) v x where
  dtstamp := one_step stepped_dateTime h.dtstamp hb.dtstamp
  uid := required_step linked_text h.uid hb.uid
  dtstart := one_step stepped_date h.dtstart hb.dtstart
  class_ := .more h.class_ hb.class_
  created := opt_step stepped_dateTime h.created hb.created
  description := maybe_step linked_text h.description hb.description
  geo := .more h.geo hb.geo
  lastModified := opt_step stepped_dateTime h.lastModified hb.lastModified
  location := maybe_step linked_text h.location hb.location
  organizer := maybe_step linked_uri h.organizer hb.organizer
  priority := priority_step h.priority hb.priority
  sequence := number_step h.sequence hb.sequence
  status := status_step h.status hb.status
  summary := maybe_step linked_text h.summary hb.summary
  transp := transp_step h.transp hb.transp
  url := maybe_step linked_uri h.url hb.url
  recurid := opt_step stepped_date h.recurid hb.recurid
  rrule := .more h.rrule hb.rrule
  dtend := opt_step stepped_date h.dtend hb.dtend
  duration := opt_step stepped_duration h.duration hb.duration
  attach := listed_step linked_text h.attach hb.attach
  attendee := listed_step linked_uri h.attendee hb.attendee
  categories := split_step h.categories hb.categories
  comment := listed_step linked_text h.comment hb.comment
  contact := listed_step linked_text h.contact hb.contact
  exdate := dates_step h.exdate hb.exdate
  rstatus := .more h.rstatus hb.rstatus
  relatedTo := listed_step linked_text h.relatedTo hb.relatedTo
  resources := split_step h.resources hb.resources
  rdate := .more h.rdate hb.rdate
  xProp := ext_step rfl h.xProp hb.xProp
  ianaProp := ext_step rfl h.ianaProp hb.ianaProp

theorem VEvent.tidy_stays (P : OneLinePlatform) {v w : VEvent} (h : TidyVEvent v) (hb : Back.VEventProps v w) : TidyVEvent w where
  uid := tidy_one linked_text h.uid hb.uid
  class_ := class_stays P h.class_ hb.class_
  description := tidy_opt linked_text h.description hb.description
  geo := fun g _ => geo_stays P g
  location := tidy_opt linked_text h.location hb.location
  organizer := tidy_opt linked_uri h.organizer hb.organizer
  summary := tidy_opt linked_text h.summary hb.summary
  url := tidy_opt linked_uri h.url hb.url
  attach := tidy_many linked_text h.attach hb.attach
  attendee := tidy_many linked_uri h.attendee hb.attendee
  categories := tidy_parts h.categories hb.categories
  comment := tidy_many linked_text h.comment hb.comment
  contact := tidy_many linked_text h.contact hb.contact
  rstatus := rstatus_stays P h.rstatus hb.rstatus
  relatedTo := tidy_many linked_text h.relatedTo hb.relatedTo
  resources := tidy_parts h.resources hb.resources
  xProp := tidy_ext (by decide) h.xProp hb.xProp
  ianaProp := tidy_ext (by decide) h.ianaProp hb.ianaProp

theorem VFreebusy.after_zero (v : VFreebusy) : After.VFreebusyProps 0 v v where
  dtstamp := stepped_dateTime.zero _
  uid := required_zero _ _
  contact := maybe_zero _ _
  dtstart := opt_zero stepped_date _
  dtend := opt_zero stepped_date _
  organizer := maybe_zero _ _
  url := maybe_zero _ _
  attendee := listed_zero _ _
  comment := listed_zero _ _
  freebusy := each_zero period_zero _
  rstatus := .none
  xProp := ext_zero _ _
  ianaProp := ext_zero _ _

theorem VFreebusy.after_step {n : Nat} {v w x : VFreebusy} (h : After.VFreebusyProps n v w) (hb : Back.VFreebusyProps w x) : After.VFreebusyProps (n + 1) v x where
  dtstamp := one_step stepped_dateTime h.dtstamp hb.dtstamp
  uid := required_step linked_text h.uid hb.uid
  contact := maybe_step linked_text h.contact hb.contact
  dtstart := opt_step stepped_date h.dtstart hb.dtstart
  dtend := opt_step stepped_date h.dtend hb.dtend
  organizer := maybe_step linked_uri h.organizer hb.organizer
  url := maybe_step linked_uri h.url hb.url
  attendee := listed_step linked_uri h.attendee hb.attendee
  comment := listed_step linked_text h.comment hb.comment
  freebusy := periods_step h.freebusy hb.freebusy
  rstatus := .more h.rstatus hb.rstatus
  xProp := ext_step rfl h.xProp hb.xProp
  ianaProp := ext_step rfl h.ianaProp hb.ianaProp

theorem VFreebusy.tidy_stays (P : OneLinePlatform) {v w : VFreebusy} (h : TidyVFreebusy v) (hb : Back.VFreebusyProps v w) : TidyVFreebusy w where
  uid := tidy_one linked_text h.uid hb.uid
  contact := tidy_opt linked_text h.contact hb.contact
  organizer := tidy_opt linked_uri h.organizer hb.organizer
  url := tidy_opt linked_uri h.url hb.url
  attendee := tidy_many linked_uri h.attendee hb.attendee
  comment := tidy_many linked_text h.comment hb.comment
  rstatus := rstatus_stays P h.rstatus hb.rstatus
  xProp := tidy_ext (by decide) h.xProp hb.xProp
  ianaProp := tidy_ext (by decide) h.ianaProp hb.ianaProp

theorem VJournal.after_zero (v : VJournal) : After.VJournalProps 0 v v where
  dtstamp := stepped_dateTime.zero _
  uid := required_zero _ _
  class_ := .none
  created := opt_zero stepped_dateTime _
  dtstart := stepped_date.zero _
  lastModified := opt_zero stepped_dateTime _
  organizer := maybe_zero _ _
  recurid := opt_zero stepped_date _
  sequence := rfl
  status := rfl
  summary := maybe_zero _ _
  url := maybe_zero _ _
  rrule := .none
  attach := listed_zero _ _
  attendee := listed_zero _ _
  categories := split_zero _
  comment := listed_zero _ _
  contact := listed_zero _ _
  description := listed_zero _ _
  exdate := each_zero stepped_date.zero _
  relatedTo := listed_zero _ _
  rdate := .none
  rstatus := .none
  xProp := ext_zero _ _
  ianaProp := ext_zero _ _

theorem VJournal.after_step {n : Nat} {v w x : VJournal} (h : After.VJournalProps n v w) (hb : Back.VJournalProps w x) : After.VJournalProps (n + 1) v x where
  dtstamp := one_step stepped_dateTime h.dtstamp hb.dtstamp
  uid := required_step linked_text h.uid hb.uid
  class_ := .more h.class_ hb.class_
  created := opt_step stepped_dateTime h.created hb.created
  dtstart := one_step stepped_date h.dtstart hb.dtstart
  lastModified := opt_step stepped_dateTime h.lastModified hb.lastModified
  organizer := maybe_step linked_uri h.organizer hb.organizer
  recurid := opt_step stepped_date h.recurid hb.recurid
  sequence := number_step h.sequence hb.sequence
  status := status_step h.status hb.status
  summary := maybe_step linked_text h.summary hb.summary
  url := maybe_step linked_uri h.url hb.url
  rrule := .more h.rrule hb.rrule
  attach := listed_step linked_text h.attach hb.attach
  attendee := listed_step linked_uri h.attendee hb.attendee
  categories := split_step h.categories hb.categories
  comment := listed_step linked_text h.comment hb.comment
  contact := listed_step linked_text h.contact hb.contact
  description := listed_step linked_text h.description hb.description
  exdate := dates_step h.exdate hb.exdate
  relatedTo := listed_step linked_text h.relatedTo hb.relatedTo
  rdate := .more h.rdate hb.rdate
  rstatus := .more h.rstatus hb.rstatus
  xProp := ext_step rfl h.xProp hb.xProp
  ianaProp := ext_step rfl h.ianaProp hb.ianaProp

theorem VJournal.tidy_stays (P : OneLinePlatform) {v w : VJournal} (h : TidyVJournal v) (hb : Back.VJournalProps v w) : TidyVJournal w where
  uid := tidy_one linked_text h.uid hb.uid
  class_ := class_stays P h.class_ hb.class_
  organizer := tidy_opt linked_uri h.organizer hb.organizer
  summary := tidy_opt linked_text h.summary hb.summary
  url := tidy_opt linked_uri h.url hb.url
  attach := tidy_many linked_text h.attach hb.attach
  attendee := tidy_many linked_uri h.attendee hb.attendee
  categories := tidy_parts h.categories hb.categories
  comment := tidy_many linked_text h.comment hb.comment
  contact := tidy_many linked_text h.contact hb.contact
  description := tidy_many linked_text h.description hb.description
  relatedTo := tidy_many linked_text h.relatedTo hb.relatedTo
  rstatus := rstatus_stays P h.rstatus hb.rstatus
  xProp := tidy_ext (by decide) h.xProp hb.xProp
  ianaProp := tidy_ext (by decide) h.ianaProp hb.ianaProp

theorem Standard.after_zero (v : Standard) : After.StandardProps 0 v v where
  dtstart := stepped_date.zero _
  tzoffsetto := stepped_offset.zero _
  tzoffsetfrom := stepped_offset.zero _
  rrule := .none
  comment := listed_zero _ _
  rdate := .none
  tzname := listed_zero _ _
  xProp := ext_zero _ _
  ianaProp := ext_zero _ _

theorem Standard.after_step {n : Nat} {v w x : Standard} (h : After.StandardProps n v w) (hb : Back.StandardProps w x) : After.StandardProps (n + 1) v x where
  dtstart := one_step stepped_date h.dtstart hb.dtstart
  tzoffsetto := one_step stepped_offset h.tzoffsetto hb.tzoffsetto
  tzoffsetfrom := one_step stepped_offset h.tzoffsetfrom hb.tzoffsetfrom
  rrule := .more h.rrule hb.rrule
  comment := listed_step linked_text h.comment hb.comment
  rdate := .more h.rdate hb.rdate
  tzname := listed_step linked_text h.tzname hb.tzname
  xProp := ext_step rfl h.xProp hb.xProp
  ianaProp := ext_step rfl h.ianaProp hb.ianaProp

theorem Standard.tidy_stays (P : OneLinePlatform) {v w : Standard} (h : TidyStandard v) (hb : Back.StandardProps v w) : TidyStandard w where
  comment := tidy_many linked_text h.comment hb.comment
  tzname := tidy_many linked_text h.tzname hb.tzname
  xProp := tidy_ext (by decide) h.xProp hb.xProp
  ianaProp := tidy_ext (by decide) h.ianaProp hb.ianaProp

theorem Daylight.after_zero (v : Daylight) : After.DaylightProps 0 v v where
  dtstart := stepped_date.zero _
  tzoffsetto := stepped_offset.zero _
  tzoffsetfrom := stepped_offset.zero _
  rrule := .none
  comment := listed_zero _ _
  rdate := .none
  tzname := listed_zero _ _
  xProp := ext_zero _ _
  ianaProp := ext_zero _ _

theorem Daylight.after_step {n : Nat} {v w x : Daylight} (h : After.DaylightProps n v w) (hb : Back.DaylightProps w x) : After.DaylightProps (n + 1) v x where
  dtstart := one_step stepped_date h.dtstart hb.dtstart
  tzoffsetto := one_step stepped_offset h.tzoffsetto hb.tzoffsetto
  tzoffsetfrom := one_step stepped_offset h.tzoffsetfrom hb.tzoffsetfrom
  rrule := .more h.rrule hb.rrule
  comment := listed_step linked_text h.comment hb.comment
  rdate := .more h.rdate hb.rdate
  tzname := listed_step linked_text h.tzname hb.tzname
  xProp := ext_step rfl h.xProp hb.xProp
  ianaProp := ext_step rfl h.ianaProp hb.ianaProp

theorem Daylight.tidy_stays (P : OneLinePlatform) {v w : Daylight} (h : TidyDaylight v) (hb : Back.DaylightProps v w) : TidyDaylight w where
  comment := tidy_many linked_text h.comment hb.comment
  tzname := tidy_many linked_text h.tzname hb.tzname
  xProp := tidy_ext (by decide) h.xProp hb.xProp
  ianaProp := tidy_ext (by decide) h.ianaProp hb.ianaProp

theorem VTimezone.after_zero (v : VTimezone) : After.VTimezoneProps 0 v v where
  tzid := required_zero _ _
  lastModified := opt_zero stepped_dateTime _
  tzurl := maybe_zero _ _
  xProp := ext_zero _ _
  ianaProp := ext_zero _ _

theorem VTimezone.after_step {n : Nat} {v w x : VTimezone} (h : After.VTimezoneProps n v w) (hb : Back.VTimezoneProps w x) : After.VTimezoneProps (n + 1) v x where
  tzid := required_step linked_text h.tzid hb.tzid
  lastModified := opt_step stepped_dateTime h.lastModified hb.lastModified
  tzurl := maybe_step linked_uri h.tzurl hb.tzurl
  xProp := ext_step rfl h.xProp hb.xProp
  ianaProp := ext_step rfl h.ianaProp hb.ianaProp

theorem VTimezone.tidy_stays (P : OneLinePlatform) {v w : VTimezone} (h : TidyVTimezone v) (hb : Back.VTimezoneProps v w) : TidyVTimezone w where
  tzid := tidy_one linked_text h.tzid hb.tzid
  tzurl := tidy_opt linked_uri h.tzurl hb.tzurl
  xProp := tidy_ext (by decide) h.xProp hb.xProp
  ianaProp := tidy_ext (by decide) h.ianaProp hb.ianaProp

theorem VTodo.after_zero (v : VTodo) : After.VTodoProps 0 v v where
  dtstamp := stepped_dateTime.zero _
  uid := required_zero _ _
  class_ := .none
  completed := opt_zero stepped_dateTime _
  created := opt_zero stepped_dateTime _
  dtstart := opt_zero stepped_date _
  geo := .none
  lastModified := opt_zero stepped_dateTime _
  location := maybe_zero _ _
  organizer := maybe_zero _ _
  percentComplete := rfl
  priority := rfl
  recurid := opt_zero stepped_date _
  sequence := rfl
  status := rfl
  summary := maybe_zero _ _
  url := maybe_zero _ _
  rrule := .none
  due := opt_zero stepped_date _
  duration := opt_zero stepped_duration _
  attach := listed_zero _ _
  attendee := listed_zero _ _
  categories := split_zero _
  comment := listed_zero _ _
  contact := listed_zero _ _
  exdate := each_zero stepped_date.zero _
  rstatus := .none
  relatedTo := listed_zero _ _
  resources := split_zero _
  rdate := .none
  xProp := ext_zero _ _
  ianaProp := ext_zero _ _

theorem VTodo.after_step {n : Nat} {v w x : VTodo} (h : After.VTodoProps n v w) (hb : Back.VTodoProps w x) : After.VTodoProps (n + 1) v x where
  dtstamp := one_step stepped_dateTime h.dtstamp hb.dtstamp
  uid := required_step linked_text h.uid hb.uid
  class_ := .more h.class_ hb.class_
  completed := opt_step stepped_dateTime h.completed hb.completed
  created := opt_step stepped_dateTime h.created hb.created
  dtstart := opt_step stepped_date h.dtstart hb.dtstart
  geo := .more h.geo hb.geo
  lastModified := opt_step stepped_dateTime h.lastModified hb.lastModified
  location := maybe_step linked_text h.location hb.location
  organizer := maybe_step linked_uri h.organizer hb.organizer
  percentComplete := percent_step h.percentComplete hb.percentComplete
  priority := priority_step h.priority hb.priority
  recurid := opt_step stepped_date h.recurid hb.recurid
  sequence := number_step h.sequence hb.sequence
  status := status_step h.status hb.status
  summary := maybe_step linked_text h.summary hb.summary
  url := maybe_step linked_uri h.url hb.url
  rrule := .more h.rrule hb.rrule
  due := opt_step stepped_date h.due hb.due
  duration := opt_step stepped_duration h.duration hb.duration
  attach := listed_step linked_text h.attach hb.attach
  attendee := listed_step linked_uri h.attendee hb.attendee
  categories := split_step h.categories hb.categories
  comment := listed_step linked_text h.comment hb.comment
  contact := listed_step linked_text h.contact hb.contact
  exdate := dates_step h.exdate hb.exdate
  rstatus := .more h.rstatus hb.rstatus
  relatedTo := listed_step linked_text h.relatedTo hb.relatedTo
  resources := split_step h.resources hb.resources
  rdate := .more h.rdate hb.rdate
  xProp := ext_step rfl h.xProp hb.xProp
  ianaProp := ext_step rfl h.ianaProp hb.ianaProp

theorem VTodo.tidy_stays (P : OneLinePlatform) {v w : VTodo} (h : TidyVTodo v) (hb : Back.VTodoProps v w) : TidyVTodo w where
  uid := tidy_one linked_text h.uid hb.uid
  class_ := class_stays P h.class_ hb.class_
  geo := fun g _ => geo_stays P g
  location := tidy_opt linked_text h.location hb.location
  organizer := tidy_opt linked_uri h.organizer hb.organizer
  summary := tidy_opt linked_text h.summary hb.summary
  url := tidy_opt linked_uri h.url hb.url
  attach := tidy_many linked_text h.attach hb.attach
  attendee := tidy_many linked_uri h.attendee hb.attendee
  categories := tidy_parts h.categories hb.categories
  comment := tidy_many linked_text h.comment hb.comment
  contact := tidy_many linked_text h.contact hb.contact
  rstatus := rstatus_stays P h.rstatus hb.rstatus
  relatedTo := tidy_many linked_text h.relatedTo hb.relatedTo
  resources := tidy_parts h.resources hb.resources
  xProp := tidy_ext (by decide) h.xProp hb.xProp
  ianaProp := tidy_ext (by decide) h.ianaProp hb.ianaProp

theorem VCalendar.after_zero (v : VCalendar) : After.VCalendarProps 0 v v where
  prodid := required_zero _ _
  version := required_zero _ _
  calscale := maybe_zero _ _
  method := maybe_zero _ _
  xProp := ext_zero _ _
  ianaProp := ext_zero _ _

theorem VCalendar.after_step {n : Nat} {v w x : VCalendar} (h : After.VCalendarProps n v w) (hb : Back.VCalendarProps w x) : After.VCalendarProps (n + 1) v x where
  prodid := required_step linked_text h.prodid hb.prodid
  version := required_step linked_text h.version hb.version
  calscale := maybe_step linked_text h.calscale hb.calscale
  method := maybe_step linked_text h.method hb.method
  xProp := ext_step rfl h.xProp hb.xProp
  ianaProp := ext_step rfl h.ianaProp hb.ianaProp

theorem VCalendar.tidy_stays (P : OneLinePlatform) {v w : VCalendar} (h : TidyVCalendar v) (hb : Back.VCalendarProps v w) : TidyVCalendar w where
  prodid := tidy_one linked_text h.prodid hb.prodid
  version := tidy_one linked_text h.version hb.version
  calscale := tidy_opt linked_text h.calscale hb.calscale
  method := tidy_opt linked_text h.method hb.method
  xProp := tidy_ext (by decide) h.xProp hb.xProp
  ianaProp := tidy_ext (by decide) h.ianaProp hb.ianaProp

/-- **C101** for a free/busy component. -/
theorem C101_VFreebusy (P : OneLinePlatform) (n : Nat) (v w : VFreebusy) (h : TidyVFreebusy v) (hs : Repeatedly (Saved VFreebusy.ofStr) n v w) : After.VFreebusyProps n v w := by
  refine (repeat_induct (T := TidyVFreebusy) (A := After.VFreebusyProps) VFreebusy.after_zero (fun {n v w x} hA ht hb => ?_) h hs).1
  obtain ⟨t, h1, h2⟩ := hb
  have hb := (C78_VFreebusy w x ht t h1).1 h2
  exact ⟨VFreebusy.after_step hA hb, VFreebusy.tidy_stays P ht hb⟩

/-- **C101** for a journal entry. -/
theorem C101_VJournal (P : OneLinePlatform) (n : Nat) (v w : VJournal) (h : TidyVJournal v) (hs : Repeatedly (Saved VJournal.ofStr) n v w) : After.VJournalProps n v w := by
  refine (repeat_induct (T := TidyVJournal) (A := After.VJournalProps) VJournal.after_zero (fun {n v w x} hA ht hb => ?_) h hs).1
  obtain ⟨t, h1, h2⟩ := hb
  have hb := (C78_VJournal w x ht t h1).1 h2
  exact ⟨VJournal.after_step hA hb, VJournal.tidy_stays P ht hb⟩

/-- **C101** for the standard part of a time zone. -/
theorem C101_Standard (P : OneLinePlatform) (n : Nat) (v w : Standard) (h : TidyStandard v) (hs : Repeatedly (Saved Standard.ofStr) n v w) : After.StandardProps n v w := by
  refine (repeat_induct (T := TidyStandard) (A := After.StandardProps) Standard.after_zero (fun {n v w x} hA ht hb => ?_) h hs).1
  obtain ⟨t, h1, h2⟩ := hb
  have hb := (C78_Standard w x ht t h1).1 h2
  exact ⟨Standard.after_step hA hb, Standard.tidy_stays P ht hb⟩

/-- **C101** for the daylight part of a time zone. -/
theorem C101_Daylight (P : OneLinePlatform) (n : Nat) (v w : Daylight) (h : TidyDaylight v) (hs : Repeatedly (Saved Daylight.ofStr) n v w) : After.DaylightProps n v w := by
  refine (repeat_induct (T := TidyDaylight) (A := After.DaylightProps) Daylight.after_zero (fun {n v w x} hA ht hb => ?_) h hs).1
  obtain ⟨t, h1, h2⟩ := hb
  have hb := (C78_Daylight w x ht t h1).1 h2
  exact ⟨Daylight.after_step hA hb, Daylight.tidy_stays P ht hb⟩

/-- **C101** for a to-do. -/
theorem C101_VTodo (P : OneLinePlatform) (n : Nat) (v w : VTodo) (h : TidyVTodo v) (hs : Repeatedly (Saved VTodo.ofStr) n v w) : After.VTodoProps n v w := by
  refine (repeat_induct (T := TidyVTodo) (A := After.VTodoProps) VTodo.after_zero (fun {n v w x} hA ht hb => ?_) h hs).1
  obtain ⟨t, h1, h2⟩ := hb
  have hb := (C78_VTodo w x ht t h1).1 h2
  exact ⟨VTodo.after_step hA hb, VTodo.tidy_stays P ht hb⟩

theorem all2_after {α : Type} {P Q S : α → α → Prop} {u v w : List α} (h1 : All2 P u v) (h2 : All2 Q v w)
    (h : ∀ a b c, P a b → Q b c → S a c) : All2 S u w := all2_trans (S := S) h h1 h2

theorem all2_nil {α β : Type} {P : α → β → Prop} {u : List α} {v : List β} (h : All2 P u v) : v = [] ↔ u = [] := by
  cases h <;> simp

theorem all2_stays {α : Type} {T : α → Prop} {Q : α → α → Prop} {u v : List α} (h1 : ∀ a ∈ u, T a) (h2 : All2 Q u v)
    (h : ∀ a b, T a → Q a b → T b) : ∀ a ∈ v, T a := by
  intro b hb
  obtain ⟨a, ha, hq⟩ := All2.right h2 b hb
  exact h a b (h1 a ha) hq

theorem extAfter_nil {name : Str} {n : Nat} {v w : SMap ContentLine} (h : ExtAfter name n v w) : w = [] ↔ v = [] := by
  rcases h with ⟨_, rfl⟩ | ⟨rfl, rfl⟩ | ⟨h, k, ts, t, _, _, _, rfl⟩
  · rfl
  · simp
  · simp [h]

/-! ## Events -/

theorem VEvent.saved_zero (v : VEvent) : VEventAfter 0 v v := ⟨fun h => absurd rfl h, rfl, VEvent.after_zero v⟩

theorem VEvent.saved_step {n : Nat} {v w x : VEvent} (h : VEventAfter n v w) (hb : Back.VEventBack w x) : VEventAfter (n + 1) v x :=
  have ha : v.alarms = [] := by rw [← h.same]; exact hb.alarms
  ⟨fun _ => ha, by rw [ha]; exact hb.noAlarms, VEvent.after_step h.props hb.props⟩

theorem VEvent.deep_stays (P : OneLinePlatform) {v w : VEvent} (h : DeepVEvent v) (hb : Back.VEventBack v w) : DeepVEvent w :=
  ⟨VEvent.tidy_stays P h.props hb.props, by rw [hb.noAlarms]; simp⟩

/-- **C101** for an event. -/
theorem C101_VEvent (P : OneLinePlatform) (n : Nat) (v w : VEvent) (h : DeepVEvent v) (hs : Repeatedly (Saved VEvent.ofStr) n v w) : VEventAfter n v w := by
  refine (repeat_induct (T := DeepVEvent) (A := VEventAfter) VEvent.saved_zero (fun {n v w x} hA ht hb => ?_) h hs).1
  obtain ⟨t, h1, h2⟩ := hb
  have hb := (C78_VEvent w x ht t h1).1 h2
  exact ⟨VEvent.saved_step hA hb, VEvent.deep_stays P ht hb⟩

/-! ## Time zones -/

theorem VTimezone.saved_zero (v : VTimezone) : VTimezoneAfter 0 v v :=
  ⟨fun h => absurd rfl h, fun h => absurd rfl h, fun h => absurd rfl h, VTimezone.after_zero v, each_zero Standard.after_zero _, each_zero Daylight.after_zero _⟩

theorem VTimezone.saved_step {n : Nat} {v w x : VTimezone} (h : VTimezoneAfter n v w) (hb : Back.VTimezoneBack w x) : VTimezoneAfter (n + 1) v x where
  oneStandard _ := by rw [all2_length h.standard]; exact hb.oneStandard
  oneDaylight _ := by rw [all2_length h.daylight]; exact hb.oneDaylight
  alone _ hv := by
    rw [← extAfter_nil h.props.xProp, ← extAfter_nil h.props.ianaProp]
    refine hb.alone ?_
    rwa [Ne, Ne, all2_nil h.standard, all2_nil h.daylight]
  props := VTimezone.after_step h.props hb.props
  standard := all2_after h.standard hb.standard (fun _ _ _ p q => Standard.after_step p q)
  daylight := all2_after h.daylight hb.daylight (fun _ _ _ p q => Daylight.after_step p q)

theorem VTimezone.deep_stays (P : OneLinePlatform) {v w : VTimezone} (h : DeepVTimezone v) (hb : Back.VTimezoneBack v w) : DeepVTimezone w :=
  ⟨VTimezone.tidy_stays P h.props hb.props, all2_stays h.standard hb.standard (fun _ _ p q => Standard.tidy_stays P p q),
   all2_stays h.daylight hb.daylight (fun _ _ p q => Daylight.tidy_stays P p q)⟩

/-- **C101** for a time zone. -/
theorem C101_VTimezone (P : OneLinePlatform) (n : Nat) (v w : VTimezone) (h : DeepVTimezone v) (hs : Repeatedly (Saved VTimezone.ofStr) n v w) :
    VTimezoneAfter n v w := by
  refine (repeat_induct (T := DeepVTimezone) (A := VTimezoneAfter) VTimezone.saved_zero (fun {n v w x} hA ht hb => ?_) h hs).1
  obtain ⟨t, h1, h2⟩ := hb
  have hb := (C78_VTimezone w x ht t h1).1 h2
  exact ⟨VTimezone.saved_step hA hb, VTimezone.deep_stays P ht hb⟩

/-! ## Calendars -/

theorem VCalendar.saved_zero (v : VCalendar) : VCalendarAfter 0 v v where
  alarms h := absurd rfl h
  same := rfl
  oneEvent h := absurd rfl h
  oneFreebusy h := absurd rfl h
  oneJournal h := absurd rfl h
  oneTodo h := absurd rfl h
  oneTimezone h := absurd rfl h
  alone h := absurd rfl h
  props := VCalendar.after_zero v
  events := each_zero VEvent.saved_zero _
  freebusy := each_zero VFreebusy.after_zero _
  journals := each_zero VJournal.after_zero _
  todo := each_zero VTodo.after_zero _
  timezones := each_zero VTimezone.saved_zero _

theorem VCalendar.saved_step {n : Nat} {v w x : VCalendar} (h : VCalendarAfter n v w) (hb : Back.VCalendarBack w x) : VCalendarAfter (n + 1) v x where
  alarms _ := by rw [← h.same]; exact hb.alarms
  same := by rw [← h.same, hb.alarms]; exact hb.noAlarms
  oneEvent _ := by rw [all2_length h.events]; exact hb.oneEvent
  oneFreebusy _ := by rw [all2_length h.freebusy]; exact hb.oneFreebusy
  oneJournal _ := by rw [all2_length h.journals]; exact hb.oneJournal
  oneTodo _ := by rw [all2_length h.todo]; exact hb.oneTodo
  oneTimezone _ := by rw [all2_length h.timezones]; exact hb.oneTimezone
  alone _ hv := by
    rw [← extAfter_nil h.props.xProp, ← extAfter_nil h.props.ianaProp]
    refine hb.alone ?_
    rwa [Ne, Ne, Ne, Ne, Ne, all2_nil h.events, all2_nil h.freebusy, all2_nil h.journals, all2_nil h.todo, all2_nil h.timezones]
  props := VCalendar.after_step h.props hb.props
  events := all2_after h.events hb.events (fun _ _ _ p q => VEvent.saved_step p q)
  freebusy := all2_after h.freebusy hb.freebusy (fun _ _ _ p q => VFreebusy.after_step p q)
  journals := all2_after h.journals hb.journals (fun _ _ _ p q => VJournal.after_step p q)
  todo := all2_after h.todo hb.todo (fun _ _ _ p q => VTodo.after_step p q)
  timezones := all2_after h.timezones hb.timezones (fun _ _ _ p q => VTimezone.saved_step p q)

theorem VCalendar.deep_stays (P : OneLinePlatform) {v w : VCalendar} (h : DeepVCalendar v) (hb : Back.VCalendarBack v w) : DeepVCalendar w where
  props := VCalendar.tidy_stays P h.props hb.props
  alarms := by rw [hb.noAlarms]; simp
  events := all2_stays h.events hb.events (fun _ _ p q => VEvent.deep_stays P p q)
  freebusy := all2_stays h.freebusy hb.freebusy (fun _ _ p q => VFreebusy.tidy_stays P p q)
  journals := all2_stays h.journals hb.journals (fun _ _ p q => VJournal.tidy_stays P p q)
  todo := all2_stays h.todo hb.todo (fun _ _ p q => VTodo.tidy_stays P p q)
  timezones := all2_stays h.timezones hb.timezones (fun _ _ p q => VTimezone.deep_stays P p q)

/-- **C101** for a calendar with its components. -/
theorem C101_VCalendar (P : OneLinePlatform) (n : Nat) (v w : VCalendar) (h : DeepVCalendar v) (hs : Repeatedly (Saved VCalendar.ofStr) n v w) :
    VCalendarAfter n v w := by
  refine (repeat_induct (T := DeepVCalendar) (A := VCalendarAfter) VCalendar.saved_zero (fun {n v w x} hA ht hb => ?_) h hs).1
  obtain ⟨t, h1, h2⟩ := hb
  have hb := (C78_VCalendar w x ht t h1).1 h2
  exact ⟨VCalendar.saved_step hA hb, VCalendar.deep_stays P ht hb⟩

/-! ## Alarms -/

theorem VAlarm.tidy_stays (P : OneLinePlatform) {v w : VAlarm} (h : TidyVAlarm v) (hb : Back.SameKind v w) : TidyVAlarm w := by
  cases v <;> cases w <;> first | exact hb.elim | skip
  · exact Audio.tidy_stays P h hb
  · exact Display.tidy_stays P h hb
  · exact Email.tidy_stays P h hb

theorem VAlarm.after_zero (v : VAlarm) : VAlarmAfter 0 v v := by
  cases v
  · exact Audio.after_zero _
  · exact Display.after_zero _
  · exact Email.after_zero _

theorem VAlarm.after_step {n : Nat} {v w x : VAlarm} (h : VAlarmAfter n v w) (hb : Back.SameKind w x) : VAlarmAfter (n + 1) v x := by
  cases v <;> cases w <;> cases x <;> first | exact h.elim | exact hb.elim | skip
  · exact Audio.after_step h hb
  · exact Display.after_step h hb
  · exact Email.after_step h hb

theorem VAlarm.action_stays {v w : VAlarm} (h : (Back.action v).text = Back.kind v) (hb : Back.SameKind v w) : (Back.action w).text = Back.kind w := by
  have key : ∀ {a b : Text} {name k : Str}, Back.One name Back.asText Full.TextLine a b → a.text = k → escape k = k → b.text = k := by
    rintro a b name k ⟨t, ⟨_, _, ht⟩, _, e, _⟩ hk hp
    rw [e, escapedAs_iff.1 ht, hk, hp]
  cases v <;> cases w <;> first | exact hb.elim | skip
  · exact key hb.action h rfl
  · exact key hb.action h rfl
  · exact key hb.action h rfl

/-- **C101** for an alarm whose action names its kind. -/
theorem C101_VAlarm (P : OneLinePlatform) (n : Nat) (v w : VAlarm) (h : TidyVAlarm v) (ha : (Back.action v).text = Back.kind v)
    (hs : Repeatedly (Saved VAlarm.ofStr) n v w) : VAlarmAfter n v w := by
  refine (repeat_induct (T := fun v => TidyVAlarm v ∧ (Back.action v).text = Back.kind v) (A := VAlarmAfter) VAlarm.after_zero
    (fun {n v w x} hA ht hb => ?_) ⟨h, ha⟩ hs).1
  obtain ⟨t, h1, h2⟩ := hb
  have hb := (C78_VAlarm w x ht.1 ht.2 t h1).1 h2
  exact ⟨VAlarm.after_step hA hb, VAlarm.tidy_stays P ht.1 hb, VAlarm.action_stays ht.2 hb⟩

/-- The first of several steps. -/
theorem repeat_head {α : Type} {R : α → α → Prop} {n : Nat} {a c : α} (h : Repeatedly R (n + 1) a c) : ∃ b, R a b ∧ Repeatedly R n b c := by
  induction n generalizing c with
  | zero =>
    cases h with
    | more h1 h2 => cases h1; exact ⟨_, h2, .none⟩
  | succ n ih =>
    cases h with
    | more h1 h2 =>
      obtain ⟨b, hb, hr⟩ := ih h1
      exact ⟨b, hb, .more hr h2⟩

theorem oneLine_cr {α : Type} {T : Words α} {W : Back.Writing α} {R : ContentLine → α → Prop} (L : Linked T W R) {name : Str} {v : α} {l : ContentLine}
    (h : TidyWords T v) (hl : Back.OneLine name W v (some l)) : '\r' ∉ l.value := by
  obtain ⟨t, ht, ⟨_, e⟩ | ⟨_, e⟩⟩ := hl
  · cases e
  · cases e; exact escaped_cr (L.writes ht) h.1

theorem manyLine_cr {α : Type} {T : Words α} {W : Back.Writing α} {R : ContentLine → α → Prop} (L : Linked T W R) {name : Str} {v : List α} {l : ContentLine}
    (h : ∀ a ∈ v, TidyWords T a) (hl : Back.ManyLine name W v (some l)) : '\r' ∉ l.value := by
  match v with
  | [] => cases hl
  | [a] => exact oneLine_cr L (h a (by simp)) hl
  | a :: b :: r =>
    obtain ⟨ts, hts, e⟩ := hl
    cases e
    intro hm
    rcases joinWith_mem hm with hm | ⟨t, ht, hm⟩
    · exact absurd hm (by decide)
    · obtain ⟨x, hx, hw⟩ := All2.right hts t ht
      exact escaped_cr (L.writes hw) (h x hx).1 hm

theorem extLine_cr {name : Str} {v : SMap ContentLine} {l : ContentLine} (hn : '\n' ∉ name ∧ '\r' ∉ name) (h : TidyExt v)
    (hl : Back.ExtLine name v (some l)) : '\r' ∉ l.value := by
  rcases hl with ⟨_, e⟩ | ⟨hv, ts, hts, e⟩
  · cases e
  · cases e
    have := tidy_ext (name := name) (w := [(name, ⟨name, [], joinWith c!";" ts⟩)]) hn h (.inr ⟨hv, ts, hts, rfl⟩)
    exact (this (name, ⟨name, [], joinWith c!";" ts⟩) (by simp)).2.2

/-- Extension properties that are known by their names. -/
theorem tidy_known {m : SMap ContentLine} (hw : m.Wf) (names : List Str) (hn : ∀ k ∈ names, '\n' ∉ k ∧ '\r' ∉ k)
    (ho : ∀ k, k ∉ names → m.get? k = none) (hv : ∀ k l, k ∈ names → m.get? k = some l → '\r' ∉ l.value) : TidyExt m := by
  intro p hp
  have hg := mem_get? hw hp
  have hk : p.1 ∈ names := Classical.byContradiction fun hk => by rw [ho _ hk] at hg; cases hg
  exact ⟨(hn _ hk).1, (hn _ hk).2, hv _ _ hk hg⟩

theorem VAlarm.tidy_any (P : OneLinePlatform) {v w : VAlarm} (h : TidyVAlarm v) (hb : Back.AnyKind v w) : TidyVAlarm w := by
  cases v with
  | audio a =>
    cases w <;> first | exact hb.elim | skip
    exact Audio.tidy_stays P h hb
  | display a =>
    cases w with
    | email b => exact hb.elim
    | display b => exact Display.tidy_stays P h hb
    | audio b =>
      refine ⟨tidy_one linked_text h.action hb.action, by rw [hb.attach]; simp, tidy_ext (by decide) h.xProp hb.xProp,
        tidy_known hb.sorted _ (by decide) hb.others ?_⟩
      intro k l hk hl
      simp only [List.mem_cons, List.not_mem_nil, or_false] at hk
      rcases hk with rfl | rfl
      · exact oneLine_cr linked_text h.description (hl ▸ hb.description)
      · exact extLine_cr (by decide) h.ianaProp (hl ▸ hb.ianaProp)
  | email a =>
    cases w with
    | email b => exact Email.tidy_stays P h hb
    | display b =>
      refine ⟨tidy_one linked_text h.action hb.action, tidy_one linked_text h.description hb.description, tidy_ext (by decide) h.xProp hb.xProp,
        tidy_known hb.sorted _ (by decide) hb.others ?_⟩
      intro k l hk hl
      simp only [List.mem_cons, List.not_mem_nil, or_false] at hk
      rcases hk with rfl | rfl | rfl | rfl
      · exact oneLine_cr linked_text h.summary (hl ▸ hb.summary)
      · exact manyLine_cr linked_uri h.attendee (hl ▸ hb.attendee)
      · exact manyLine_cr linked_text h.attach (hl ▸ hb.attach)
      · exact extLine_cr (by decide) h.ianaProp (hl ▸ hb.ianaProp)
    | audio b =>
      refine ⟨tidy_one linked_text h.action hb.action, tidy_many linked_text h.attach hb.attach, tidy_ext (by decide) h.xProp hb.xProp,
        tidy_known hb.sorted _ (by decide) hb.others ?_⟩
      intro k l hk hl
      simp only [List.mem_cons, List.not_mem_nil, or_false] at hk
      rcases hk with rfl | rfl | rfl | rfl
      · exact oneLine_cr linked_text h.description (hl ▸ hb.description)
      · exact oneLine_cr linked_text h.summary (hl ▸ hb.summary)
      · exact manyLine_cr linked_uri h.attendee (hl ▸ hb.attendee)
      · exact extLine_cr (by decide) h.ianaProp (hl ▸ hb.ianaProp)

theorem VAlarm.any_action {v w : VAlarm} (h : (Back.action v).text = Back.kind w) (hb : Back.AnyKind v w) : (Back.action w).text = Back.kind w := by
  have key : ∀ {a b : Text} {name k : Str}, Back.One name Back.asText Full.TextLine a b → a.text = k → escape k = k → b.text = k := by
    rintro a b name k ⟨t, ⟨_, _, ht⟩, _, e, _⟩ hk hp
    rw [e, escapedAs_iff.1 ht, hk, hp]
  cases v <;> cases w <;> first | exact hb.elim | exact key hb.action h rfl

/-- **C101** for any alarm: the first save makes it one of the kind that its action names, and it stays of that kind. -/
theorem C101_VAlarm_any (P : OneLinePlatform) (n : Nat) (v w : VAlarm) (h : TidyVAlarm v) (hs : Repeatedly (Saved VAlarm.ofStr) (n + 1) v w) :
    ∃ x, (Back.action v).text = Back.kind x ∧ Back.AnyKind v x ∧ VAlarmAfter n x w := by
  obtain ⟨x, ⟨t, h1, h2⟩, hr⟩ := repeat_head hs
  obtain ⟨h3, h4⟩ := (C78_VAlarm_any v x h t h1).1 h2
  exact ⟨x, h3, h4, C101_VAlarm P n x w (VAlarm.tidy_any P h h4) (VAlarm.any_action h3 h4) hr⟩

/-! ## What follows -/

/-- **C101**: a component that is read back as it was stays as it is, however often it is saved. -/
theorem C101_unchanged {α : Type} [Ser α] (read : Str → Res α) (v : α) (h : Saved read v v) (n : Nat) (w : α) :
    Repeatedly (Saved read) n v w ↔ w = v := by
  constructor
  · intro hs
    induction hs with
    | none => rfl
    | more _ hb ih =>
      have := ih h
      subst this
      obtain ⟨t, h1, h2⟩ := hb
      obtain ⟨t', h3, h4⟩ := h
      rw [h1] at h3
      obtain rfl := Res.ok.inj h3
      rw [h2] at h4
      exact Res.ok.inj h4
  · rintro rfl
    induction n with
    | zero => exact .none
    | succ n ih => exact .more ih h

/-- **C101**: a to-do that meets the conditions of C46 and can be written stays as it is. -/
theorem C101_VTodo_good (v : VTodo) (h : GoodVTodo v) (t : Str) (ht : ical v = .ok t) (n : Nat) (w : VTodo) :
    Repeatedly (Saved VTodo.ofStr) n v w ↔ w = v := C101_unchanged _ v ⟨t, ht, C46_VTodo v h t ht⟩ n w

/-- **C101**: a journal entry that meets the conditions of C46 and can be written stays as it is. -/
theorem C101_VJournal_good (v : VJournal) (h : GoodVJournal v) (t : Str) (ht : ical v = .ok t) (n : Nat) (w : VJournal) :
    Repeatedly (Saved VJournal.ofStr) n v w ↔ w = v := C101_unchanged _ v ⟨t, ht, C46_VJournal v h t ht⟩ n w

/-- **C101**: a free/busy component that meets the conditions of C46 and can be written stays as it is. -/
theorem C101_VFreebusy_good (v : VFreebusy) (h : GoodVFreebusy v) (t : Str) (ht : ical v = .ok t) (n : Nat) (w : VFreebusy) :
    Repeatedly (Saved VFreebusy.ofStr) n v w ↔ w = v := C101_unchanged _ v ⟨t, ht, C46_VFreebusy v h t ht⟩ n w

/-- **C101**: the standard part of a time zone that meets the conditions of C46 and can be written stays as it is. -/
theorem C101_Standard_good (v : Standard) (h : GoodStandard v) (t : Str) (ht : ical v = .ok t) (n : Nat) (w : Standard) :
    Repeatedly (Saved Standard.ofStr) n v w ↔ w = v := C101_unchanged _ v ⟨t, ht, C46_Standard v h t ht⟩ n w

/-- **C101**: the daylight part of a time zone that meets the conditions of C46 and can be written stays as it is. -/
theorem C101_Daylight_good (v : Daylight) (h : GoodDaylight v) (t : Str) (ht : ical v = .ok t) (n : Nat) (w : Daylight) :
    Repeatedly (Saved Daylight.ofStr) n v w ↔ w = v := C101_unchanged _ v ⟨t, ht, C46_Daylight v h t ht⟩ n w

/-- **C101**: an event that meets the conditions of C46 and can be written stays as it is. -/
theorem C101_VEvent_good (v : VEvent) (h : GoodVEvent v) (t : Str) (ht : ical v = .ok t) (n : Nat) (w : VEvent) :
    Repeatedly (Saved VEvent.ofStr) n v w ↔ w = v := C101_unchanged _ v ⟨t, ht, C46_VEvent v h t ht⟩ n w

/-- **C101**: a time zone that meets the conditions of C46 and can be written stays as it is. -/
theorem C101_VTimezone_good (v : VTimezone) (h : GoodVTimezone v) (t : Str) (ht : ical v = .ok t) (n : Nat) (w : VTimezone) :
    Repeatedly (Saved VTimezone.ofStr) n v w ↔ w = v := C101_unchanged _ v ⟨t, ht, C46_VTimezone v h t ht⟩ n w

/-- **C101**: a calendar that meets the conditions of C46 and can be written stays as it is. -/
theorem C101_VCalendar_good (v : VCalendar) (h : GoodVCalendar v) (t : Str) (ht : ical v = .ok t) (n : Nat) (w : VCalendar) :
    Repeatedly (Saved VCalendar.ofStr) n v w ↔ w = v := C101_unchanged _ v ⟨t, ht, C46_VCalendar v h t ht⟩ n w

/-- **C101**: an alarm that meets the conditions of C45 and can be written stays as it is. -/
theorem C101_VAlarm_good (v : VAlarm) (h : GoodVAlarm v) (t : Str) (ht : ical v = .ok t) (n : Nat) (w : VAlarm) :
    Repeatedly (Saved VAlarm.ofStr) n v w ↔ w = v := C101_unchanged _ v ⟨t, ht, C45_VAlarm v h t ht⟩ n w

/-- **C101**: what a component becomes after a number of saves is one component. -/
theorem C101_one_result {α : Type} [Ser α] (read : Str → Res α) (v w w' : α) (n : Nat) (h : Repeatedly (Saved read) n v w)
    (h' : Repeatedly (Saved read) n v w') : w = w' := by
  induction h generalizing w' with
  | none => cases h'; rfl
  | more _ hb ih =>
    cases h' with
    | more h2 hb' =>
      obtain rfl := ih _ h2
      obtain ⟨t, h1, h2⟩ := hb
      obtain ⟨t', h3, h4⟩ := hb'
      rw [h1] at h3
      obtain rfl := Res.ok.inj h3
      rw [h2] at h4
      exact Res.ok.inj h4

end

/-- **C101**: a text gets as many characters longer as it has semicolons and commas, each time, and as it has line breaks, the first time. -/
theorem C101_length (n : Nat) (s t : Str) (h : Marked n s t) :
    t.length = s.length + n * (s.count ';' + s.count ',') + if n = 0 then 0 else s.count '\n' := by
  induction h with
  | nil => simp
  | @mark c s t hc _ ih =>
    have h1 : (c :: s).count ';' + (c :: s).count ',' = s.count ';' + s.count ',' + 1 := by
      rcases hc with rfl | rfl <;> simp <;> omega
    have h2 : (c :: s).count '\n' = s.count '\n' := by rcases hc with rfl | rfl <;> simp
    rw [h1, h2, Nat.mul_add]
    simp only [List.length_append, List.length_replicate, List.length_cons, ih, Nat.mul_one]
    omega
  | newline hn _ ih => simp [ih, hn]; omega
  | same hn _ ih => simp [ih, hn]
  | other h1 h2 h3 _ ih =>
    rw [List.count_cons_of_ne h1, List.count_cons_of_ne h2, List.count_cons_of_ne h3, List.length_cons, List.length_cons, ih]
    omega

/-- **C101**: a text is kept exactly if it has no semicolon, comma or line break. -/
theorem C101_kept_iff (n : Nat) (hn : n ≠ 0) (s t : Str) (h : Marked n s t) : t = s ↔ ';' ∉ s ∧ ',' ∉ s ∧ '\n' ∉ s := by
  have hl := C101_length n s t h
  rw [if_neg hn] at hl
  constructor
  · rintro rfl
    have h0 : n * (t.count ';' + t.count ',') = 0 := by omega
    have h1 := (Nat.mul_eq_zero.1 h0).resolve_left hn
    refine ⟨fun hm => ?_, fun hm => ?_, fun hm => ?_⟩
    · have := List.count_pos_iff.2 hm; omega
    · have := List.count_pos_iff.2 hm; omega
    · have := List.count_pos_iff.2 hm; omega
  · rintro ⟨h1, h2, h3⟩
    clear hl
    induction h with
    | nil => rfl
    | mark hc => rcases hc with rfl | rfl <;> simp at h1 h2
    | newline => simp at h3
    | same => simp at h3
    | other _ _ _ _ ih =>
      simp only [List.mem_cons, not_or] at h1 h2 h3
      rw [ih h1.2 h2.2 h3.2]

/-- **C101**: the value of the extension properties gets longer with every save, by the name of the field and an equals sign at least. -/
theorem C101_ext_grows (name : Str) (n : Nat) (v w x : SMap ContentLine) (h : ExtAfter name (n + 1) v w) (h' : ExtAfter name (n + 2) v x) (hv : v ≠ []) :
    ∃ a b, w = [(name, ⟨name, [], a⟩)] ∧ x = [(name, ⟨name, [], b⟩)] ∧ a.length + name.length + 1 ≤ b.length := by
  rcases h with ⟨h, _⟩ | ⟨h, _⟩ | ⟨_, k, ts, t, hk, hts, hm, rfl⟩
  · cases h
  · exact absurd h hv
  rcases h' with ⟨h, _⟩ | ⟨h, _⟩ | ⟨_, k', ts', t', hk', hts', hm', rfl⟩
  · cases h
  · exact absurd h hv
  obtain rfl : k = n := by omega
  obtain rfl : k' = k + 1 := by omega
  refine ⟨_, _, rfl, rfl, ?_⟩
  have : ts' = ts := by
    have u : ∀ us, All2 (fun (p : Str × ContentLine) t => ∃ e, Marked 1 p.2.value e ∧ t = p.1 ++ c!"=" ++ e) v us → us = v.map fun p => p.1 ++ c!"=" ++ mark 1 p.2.value :=
      fun us h => (all2_map fun p t => ⟨fun ⟨e, he, ht⟩ => by rw [ht, marked_iff.1 he], fun ht => ⟨_, marked_iff.2 rfl, ht⟩⟩).1 h
    rw [u _ hts, u _ hts']
  subst this
  have l1 := C101_length _ _ _ hm
  have l2 := C101_length _ _ _ hm'
  rw [if_neg (Nat.succ_ne_zero _), Nat.succ_mul] at l2
  simp only [List.replicate_succ, List.flatten_cons, List.length_append, List.length_cons, List.length_nil]
  split at l1 <;> omega

section
variable [Platform]

/-- **C101**: where the local zone has one offset, an instant is moved by it each time. -/
theorem C101_drift (o : Int) (ho : ∀ t, Platform.tzOffset t = o) (n : Nat) (u u' : NaiveDateTime) (h : Repeatedly Moved n u u') :
    u'.toSecs = u.toSecs + n * o := by
  induction h with
  | none => simp
  | @more n a b c _ hm ih =>
    rw [hm.2.1, ho, ih]
    have : ((n + 1 : Nat) : Int) * o = n * o + o := by rw [Int.natCast_add, Int.add_mul]; simp
    omega

end

/-- **C101**: with the numbers of Rust, the hypothesis about the platform is that no letter outside ASCII has a line break in upper case. -/
theorem C101_platform (P : Platform) (h : ∀ c : Char, 128 ≤ c.toNat → '\n' ∉ P.upperNonAscii c ∧ '\r' ∉ P.upperNonAscii c) : @OneLinePlatform (ieee P) := by
  refine @OneLinePlatform.mk (ieee P) (C94_sane P).2 ?_ ?_
  · intro s x r hp
    obtain ⟨w, hw⟩ := (C94_sane P).1.1 s x r hp
    exact ⟨w, hw.symm⟩
  · intro c h1 h2
    have e : @upperStr (ieee P) [c] = @upperChar (ieee P) c := by simp [upperStr]
    rw [e]
    unfold upperChar
    split
    · next hc =>
      have key : ∀ k : Fin 128, Char.ofNat k.val ≠ '\n' → Char.ofNat k.val ≠ '\r' →
        '\n' ∉ [(Char.ofNat k.val).toUpper] ∧ '\r' ∉ [(Char.ofNat k.val).toUpper] := by decide +kernel
      have := key ⟨c.toNat, hc⟩
      simp only [Char.ofNat_toNat] at this
      exact this h1 h2
    · next hc => exact h c (Nat.le_of_not_lt hc)

/-! ## Examples -/

/-- The component after `n` saves, if it can be saved so often. -/
def saveTimes {α : Type} [Ser α] (read : Str → Res α) : Nat → α → Option α
  | 0, v => some v
  | n + 1, v => (saveTimes read n v).bind fun w => match ical w with
    | .ok t => (match read t with | .ok x => some x | _ => none)
    | _ => none

theorem saveTimes_sound {α : Type} [Ser α] {read : Str → Res α} {n : Nat} {v w : α} (h : saveTimes read n v = some w) : Repeatedly (Saved read) n v w := by
  induction n generalizing w with
  | zero => cases h; exact .none
  | succ n ih =>
    unfold saveTimes at h
    cases hs : saveTimes read n v with
    | none => rw [hs] at h; cases h
    | some x =>
      rw [hs] at h
      simp only [Option.bind_some] at h
      cases h1 : ical x with
      | ok t =>
        rw [h1] at h
        simp only at h
        cases h2 : read t with
        | ok y => rw [h2] at h; cases h; exact .more (ih hs) ⟨t, h1, h2⟩
        | err e => rw [h2] at h; cases h
        | panic => rw [h2] at h; cases h
      | err e => rw [h1] at h; cases h
      | panic => rw [h1] at h; cases h

section Examples

/-- A zone one hour east of Greenwich. -/
@[reducible] def oneEast : Platform := ieee (fixedZone 3600)

attribute [local instance] oneEast

theorem oneEast_lines : OneLinePlatform := C101_platform (fixedZone 3600) (by
  intro c hc
  show '\n' ∉ [c] ∧ '\r' ∉ [c]
  simp only [List.mem_singleton]
  constructor <;> (rintro rfl; revert hc; decide))

def sampleSaved : VTimezone where
  tzid := ⟨[], c!"Here; there"⟩
  lastModified := some (.loc ⟨⟨2020, 1, 2⟩, 3600, 0⟩)
  tzurl := some ⟨[], []⟩
  standard := []
  daylight := []
  xProp := [(c!"X-A", ⟨c!"X-A", [], c!"1"⟩)]
  ianaProp := []

theorem sampleSaved_deep : DeepVTimezone sampleSaved where
  props := ⟨⟨by decide, noParams_tidy⟩, by intro a ha; cases ha; exact ⟨by decide, noParams_tidy⟩, by
    intro p hp
    rw [List.mem_singleton.1 hp]
    decide, by intro p hp; cases hp⟩
  standard := by intro a ha; cases ha
  daylight := by intro a ha; cases ha

/-- A time zone that is saved three times: the name has three backslashes, the time has moved by three hours, the empty URL has gone, and the
extension property has been put into another one, and that into another one. -/
example : ∃ w, Repeatedly (Saved VTimezone.ofStr) 3 sampleSaved w ∧ VTimezoneAfter 3 sampleSaved w ∧
    w.tzid = ⟨[], c!"Here\\\\\\; there"⟩ ∧ w.lastModified = some (.loc ⟨⟨2020, 1, 2⟩, 14400, 0⟩) ∧ w.tzurl = none ∧
    w.xProp = [(c!"X-PROP", ⟨c!"X-PROP", [], c!"X-PROP=X-PROP=X-A=1"⟩)] := by
  have h : ((saveTimes VTimezone.ofStr 3 sampleSaved).map fun w => (w.tzid, w.lastModified)) =
    some (⟨[], c!"Here\\\\\\; there"⟩, some (.loc ⟨⟨2020, 1, 2⟩, 14400, 0⟩)) := by decide +kernel
  have h' : ((saveTimes VTimezone.ofStr 3 sampleSaved).map fun w => (w.tzurl.isNone, w.xProp)) =
    some (true, [(c!"X-PROP", ⟨c!"X-PROP", [], c!"X-PROP=X-PROP=X-A=1"⟩)]) := by decide +kernel
  cases hs : saveTimes VTimezone.ofStr 3 sampleSaved with
  | none => rw [hs] at h; cases h
  | some w =>
    rw [hs] at h h'
    simp only [Option.map_some, Option.some.injEq, Prod.mk.injEq] at h h'
    have := saveTimes_sound hs
    exact ⟨w, this, C101_VTimezone oneEast_lines 3 _ w sampleSaved_deep this, h.1, h.2, Option.isNone_iff_eq_none.1 h'.1, h'.2⟩

theorem saved_some {α : Type} [Ser α] {read : Str → Res α} {n : Nat} {v : α} (h : (saveTimes read n v).isSome = true) : ∃ w, Repeatedly (Saved read) n v w := by
  cases hs : saveTimes read n v with
  | none => rw [hs] at h; cases h
  | some w => exact ⟨w, saveTimes_sound hs⟩

/-! The components of the examples of C44 and C78, in this zone. -/

namespace OneEast

def sampleTidyTodo : VTodo where
  dtstamp := .naive ⟨⟨2020, 1, 2⟩, 3600, 0⟩
  uid := ⟨[], c!"1@example.com"⟩
  attach := [⟨[], c!"a"⟩, ⟨[], c!"b"⟩]
  summary := some ⟨[], []⟩
  xProp := [(c!"X-COLOR", ⟨c!"X-COLOR", [], c!"red"⟩)]
  class_ := none
  completed := none
  created := none
  dtstart := none
  geo := none
  lastModified := none
  location := none
  organizer := none
  percentComplete := none
  priority := none
  recurid := none
  sequence := none
  status := none
  url := none
  rrule := none
  due := none
  duration := none
  attendee := []
  categories := []
  comment := []
  contact := []
  exdate := []
  rstatus := []
  relatedTo := []
  resources := []
  rdate := []
  ianaProp := []

theorem sampleTidyTodo_tidy : TidyVTodo sampleTidyTodo where
  uid := ⟨by decide, tidyParams_nil⟩
  attach := by
    intro a ha
    simp [sampleTidyTodo] at ha
    rcases ha with rfl | rfl <;> exact ⟨by decide, tidyParams_nil⟩
  summary := by intro a ha; cases ha; exact ⟨by decide, tidyParams_nil⟩
  xProp := by
    intro p hp
    simp [sampleTidyTodo] at hp
    subst hp
    decide
  class_ := by intro a ha; cases ha
  geo := by intro a ha; cases ha
  location := by intro a ha; cases ha
  organizer := by intro a ha; cases ha
  url := by intro a ha; cases ha
  attendee := by intro a ha; cases ha
  categories := by intro a ha; cases ha
  comment := by intro a ha; cases ha
  contact := by intro a ha; cases ha
  rstatus := by intro a ha; cases ha
  relatedTo := by intro a ha; cases ha
  resources := by intro a ha; cases ha
  ianaProp := by intro a ha; cases ha

def sampleTodoCalendar (todo : List VTodo) (x : SMap ContentLine) : VCalendar where
  prodid := ⟨[], c!"-//example//ikal//EN"⟩
  version := ⟨[], c!"2.0"⟩
  calscale := none
  method := none
  alarms := []
  events := []
  freebusy := []
  journals := []
  todo := todo
  timezones := []
  xProp := x
  ianaProp := []

theorem sampleTodoCalendar_deep {todo : List VTodo} {x : SMap ContentLine} (ht : ∀ a ∈ todo, TidyVTodo a) (hx : TidyExt x) :
    DeepVCalendar (sampleTodoCalendar todo x) where
  props := {
    prodid := ⟨show '\r' ∉ c!"-//example//ikal//EN" by decide, tidyParams_nil⟩
    version := ⟨show '\r' ∉ c!"2.0" by decide, tidyParams_nil⟩
    calscale := by intro a ha; cases ha
    method := by intro a ha; cases ha
    xProp := hx
    ianaProp := by intro a ha; cases ha }
  alarms := by intro a ha; cases ha
  events := by intro a ha; cases ha
  freebusy := by intro a ha; cases ha
  journals := by intro a ha; cases ha
  todo := ht
  timezones := by intro a ha; cases ha

def sampleAlarmEvent (alarms : List VAlarm) : VEvent where
  dtstamp := .naive ⟨⟨2020, 1, 2⟩, 3600, 0⟩
  uid := ⟨[], c!"1@example.com"⟩
  dtstart := .date ⟨2024, 2, 29⟩
  alarms := alarms
  class_ := none
  created := none
  description := none
  geo := none
  lastModified := none
  location := none
  organizer := none
  priority := none
  sequence := none
  status := none
  summary := none
  transp := none
  url := none
  recurid := none
  rrule := none
  dtend := none
  duration := none
  attach := []
  attendee := []
  categories := []
  comment := []
  contact := []
  exdate := []
  rstatus := []
  relatedTo := []
  resources := []
  rdate := []
  xProp := []
  ianaProp := []

theorem sampleAlarmEvent_deep {alarms : List VAlarm} (h : ∀ a ∈ alarms, TidyVAlarm a) : DeepVEvent (sampleAlarmEvent alarms) where
  props := {
    uid := ⟨show '\r' ∉ c!"1@example.com" by decide, tidyParams_nil⟩
    class_ := by intro a ha; cases ha
    description := by intro a ha; cases ha
    geo := by intro a ha; cases ha
    location := by intro a ha; cases ha
    organizer := by intro a ha; cases ha
    summary := by intro a ha; cases ha
    url := by intro a ha; cases ha
    attach := by intro a ha; cases ha
    attendee := by intro a ha; cases ha
    categories := by intro a ha; cases ha
    comment := by intro a ha; cases ha
    contact := by intro a ha; cases ha
    rstatus := by intro a ha; cases ha
    relatedTo := by intro a ha; cases ha
    resources := by intro a ha; cases ha
    xProp := by intro a ha; cases ha
    ianaProp := by intro a ha; cases ha }
  alarms := h

def sampleTidyAlarm : VAlarm := .display {
  action := ⟨[], c!"DISPLAY"⟩
  trigger := .duration ⟨-900000000000⟩
  description := ⟨[], c!"wake up"⟩
  duration := none
  repeat_ := none
  xProp := []
  ianaProp := [] }

theorem sampleTidyAlarm_tidy : TidyVAlarm sampleTidyAlarm where
  action := ⟨by decide, tidyParams_nil⟩
  description := ⟨by decide, tidyParams_nil⟩
  xProp := by intro a ha; cases ha
  ianaProp := by intro a ha; cases ha

def sampleTidyStandard : Standard where
  dtstart := .dateTime (.naive ⟨⟨1996, 10, 27⟩, 10800, 0⟩)
  tzoffsetto := ⟨3600⟩
  tzoffsetfrom := ⟨7200⟩
  rrule := none
  comment := []
  rdate := []
  tzname := [⟨[], c!"CET"⟩]
  xProp := []
  ianaProp := []

theorem sampleTidyStandard_tidy : TidyStandard sampleTidyStandard where
  comment := by intro a ha; cases ha
  tzname := by intro a ha; simp [sampleTidyStandard] at ha; subst ha; exact ⟨by decide, tidyParams_nil⟩
  xProp := by intro a ha; cases ha
  ianaProp := by intro a ha; cases ha

def sampleTidyZone (standard : List Standard) (x : SMap ContentLine) : VTimezone where
  tzid := ⟨[], c!"Europe/Paris"⟩
  lastModified := none
  tzurl := none
  standard := standard
  daylight := []
  xProp := x
  ianaProp := []

theorem sampleTidyZone_deep {standard : List Standard} {x : SMap ContentLine} (hs : ∀ a ∈ standard, TidyStandard a) (hx : TidyExt x) :
    DeepVTimezone (sampleTidyZone standard x) where
  props := {
    tzid := ⟨show '\r' ∉ c!"Europe/Paris" by decide, tidyParams_nil⟩
    tzurl := by intro a ha; cases ha
    xProp := hx
    ianaProp := by intro a ha; cases ha }
  standard := hs
  daylight := by intro a ha; cases ha

def sampleOddDisplay (action : Str) : Display := {
  action := ⟨[], action⟩
  trigger := .duration ⟨-900000000000⟩
  description := ⟨[], c!"wake up"⟩
  duration := none
  repeat_ := none
  xProp := []
  ianaProp := [] }

theorem sampleOddDisplay_tidy {a : Str} (h : '\r' ∉ a) : TidyVAlarm (.display (sampleOddDisplay a)) where
  action := ⟨h, tidyParams_nil⟩
  description := ⟨(show '\r' ∉ c!"wake up" by decide), tidyParams_nil⟩
  xProp := by intro a ha; cases ha
  ianaProp := by intro a ha; cases ha

/-- A to-do that is saved three times: its two attachments have become one, its empty summary has gone. -/
example : ∃ w, Repeatedly (Saved VTodo.ofStr) 3 sampleTidyTodo w ∧ VTodoProps 3 sampleTidyTodo w ∧ w.summary = none ∧ w.attach ≠ sampleTidyTodo.attach := by
  obtain ⟨w, hw⟩ := saved_some (read := VTodo.ofStr) (n := 3) (v := sampleTidyTodo) (by decide +kernel)
  have h := C101_VTodo oneEast_lines 3 _ w sampleTidyTodo_tidy hw
  refine ⟨w, hw, h, ?_, ?_⟩
  · have h : ((saveTimes VTodo.ofStr 3 sampleTidyTodo).map fun w => w.summary.isNone) = some true := by decide +kernel
    cases hs : saveTimes VTodo.ofStr 3 sampleTidyTodo with
    | none => rw [hs] at h; cases h
    | some x =>
      rw [hs] at h
      rw [C101_one_result _ _ _ _ _ hw (saveTimes_sound hs)]
      exact Option.isNone_iff_eq_none.1 (Option.some.inj h)
  · have h : ((saveTimes VTodo.ofStr 3 sampleTidyTodo).map fun w => w.attach.length) = some 1 := by decide +kernel
    cases hs : saveTimes VTodo.ofStr 3 sampleTidyTodo with
    | none => rw [hs] at h; cases h
    | some x =>
      rw [hs] at h
      rw [C101_one_result _ _ _ _ _ hw (saveTimes_sound hs)]
      intro e
      have : x.attach.length = 1 := Option.some.inj h
      rw [e] at this
      cases this

/-- An event without alarms, a time zone with one part, and a calendar with a to-do, each saved three times. -/
example : ∃ w, VEventAfter 3 (sampleAlarmEvent []) w := by
  obtain ⟨w, hw⟩ := saved_some (read := VEvent.ofStr) (n := 3) (v := sampleAlarmEvent []) (by decide +kernel)
  exact ⟨w, C101_VEvent oneEast_lines 3 _ w (sampleAlarmEvent_deep (by intro a ha; cases ha)) hw⟩
example : ∃ w, VTimezoneAfter 3 (sampleTidyZone [sampleTidyStandard] []) w := by
  obtain ⟨w, hw⟩ := saved_some (read := VTimezone.ofStr) (n := 3) (v := sampleTidyZone [sampleTidyStandard] []) (by decide +kernel)
  exact ⟨w, C101_VTimezone oneEast_lines 3 _ w
    (sampleTidyZone_deep (by intro a ha; simp at ha; subst ha; exact sampleTidyStandard_tidy) (by intro a ha; cases ha)) hw⟩
example : ∃ w, VCalendarAfter 3 (sampleTodoCalendar [sampleTidyTodo] []) w := by
  obtain ⟨w, hw⟩ := saved_some (read := VCalendar.ofStr) (n := 3) (v := sampleTodoCalendar [sampleTidyTodo] []) (by decide +kernel)
  exact ⟨w, C101_VCalendar oneEast_lines 3 _ w
    (sampleTodoCalendar_deep (by intro a ha; simp at ha; subst ha; exact sampleTidyTodo_tidy) (by intro a ha; cases ha)) hw⟩
example : ∃ w, StandardProps 3 sampleTidyStandard w := by
  obtain ⟨w, hw⟩ := saved_some (read := Standard.ofStr) (n := 3) (v := sampleTidyStandard) (by decide +kernel)
  exact ⟨w, C101_Standard oneEast_lines 3 _ w sampleTidyStandard_tidy hw⟩

/-- Two alarms: one of the kind that its action names, and one that is of another kind. -/
example : ∃ w, VAlarmAfter 3 sampleTidyAlarm w := by
  obtain ⟨w, hw⟩ := saved_some (read := VAlarm.ofStr) (n := 3) (v := sampleTidyAlarm) (by decide +kernel)
  exact ⟨w, C101_VAlarm oneEast_lines 3 _ w sampleTidyAlarm_tidy rfl hw⟩
example : ∃ x w, Back.AnyKind (VAlarm.display (sampleOddDisplay c!"AUDIO")) x ∧ VAlarmAfter 2 x w := by
  obtain ⟨w, hw⟩ := saved_some (read := VAlarm.ofStr) (n := 3) (v := VAlarm.display (sampleOddDisplay c!"AUDIO")) (by decide +kernel)
  obtain ⟨x, _, h1, h2⟩ := C101_VAlarm_any oneEast_lines 2 _ w (sampleOddDisplay_tidy (by decide)) hw
  exact ⟨x, w, h1, h2⟩

end OneEast

end Examples

end Ikal
