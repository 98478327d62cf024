import Verif.Components
import Verif.Spec.Parse

/-!
# Specification: each component against its property lines

One structure per component: for every property its name, its parser and its multiplicity, and for the two
extension maps what they hold.
-/

namespace Ikal.Spec

variable [Platform]

/-- What a `Audio` (`src/components/valarm.rs:73-84`) parsed from the lines `ls` holds. -/
structure AudioFrom (ls : List ContentLine) (v : Audio) : Prop where
  action : IsReq ls c!"ACTION" textProp v.action
  trigger : IsReq ls c!"TRIGGER" Ikal.trigger v.trigger
  duration : IsOpt ls c!"DURATION" Ikal.duration v.duration
  repeat_ : IsOpt ls c!"REPEAT" u32Prop v.repeat_
  attach : IsPush ls c!"ATTACH" textProp v.attach
  xProp : IsExt [c!"ACTION", c!"TRIGGER", c!"DURATION", c!"REPEAT", c!"ATTACH"] IsX ls v.xProp
  ianaProp : IsExt [c!"ACTION", c!"TRIGGER", c!"DURATION", c!"REPEAT", c!"ATTACH"] (fun k => ¬ IsX k) ls v.ianaProp

/-- What a `Display` (`src/components/valarm.rs:101-112`) parsed from the lines `ls` holds. -/
structure DisplayFrom (ls : List ContentLine) (v : Display) : Prop where
  action : IsReq ls c!"ACTION" textProp v.action
  trigger : IsReq ls c!"TRIGGER" Ikal.trigger v.trigger
  description : IsReq ls c!"DESCRIPTION" textProp v.description
  duration : IsOpt ls c!"DURATION" Ikal.duration v.duration
  repeat_ : IsOpt ls c!"REPEAT" u32Prop v.repeat_
  xProp : IsExt [c!"ACTION", c!"TRIGGER", c!"DESCRIPTION", c!"DURATION", c!"REPEAT"] IsX ls v.xProp
  ianaProp : IsExt [c!"ACTION", c!"TRIGGER", c!"DESCRIPTION", c!"DURATION", c!"REPEAT"] (fun k => ¬ IsX k) ls v.ianaProp

/-- What a `Email` (`src/components/valarm.rs:129-143`) parsed from the lines `ls` holds. -/
structure EmailFrom (ls : List ContentLine) (v : Email) : Prop where
  action : IsReq ls c!"ACTION" textProp v.action
  trigger : IsReq ls c!"TRIGGER" Ikal.trigger v.trigger
  description : IsReq ls c!"DESCRIPTION" textProp v.description
  summary : IsReq ls c!"SUMMARY" textProp v.summary
  attendee : IsPush ls c!"ATTENDEE" uriProp v.attendee
  duration : IsOpt ls c!"DURATION" Ikal.duration v.duration
  repeat_ : IsOpt ls c!"REPEAT" u32Prop v.repeat_
  attach : IsPush ls c!"ATTACH" textProp v.attach
  xProp : IsExt [c!"ACTION", c!"TRIGGER", c!"DESCRIPTION", c!"SUMMARY", c!"ATTENDEE", c!"DURATION", c!"REPEAT", c!"ATTACH"] IsX ls v.xProp
  ianaProp : IsExt [c!"ACTION", c!"TRIGGER", c!"DESCRIPTION", c!"SUMMARY", c!"ATTENDEE", c!"DURATION", c!"REPEAT", c!"ATTACH"] (fun k => ¬ IsX k) ls v.ianaProp

/-- What a `VEvent` (`src/components/vevent.rs:4-45`) parsed from the lines `ls` holds. -/
structure VEventFrom (ls : List ContentLine) (v : VEvent) : Prop where
  dtstamp : IsReq ls c!"DTSTAMP" dateTimeProp v.dtstamp
  uid : IsReq ls c!"UID" textProp v.uid
  dtstart : IsReq ls c!"DTSTART" dateProp v.dtstart
  class_ : IsOpt ls c!"CLASS" classProp v.class_
  created : IsOpt ls c!"CREATED" dateTimeProp v.created
  description : IsOpt ls c!"DESCRIPTION" textProp v.description
  geo : IsOpt ls c!"GEO" Ikal.geo v.geo
  lastModified : IsOpt ls c!"LAST-MODIFIED" dateTimeProp v.lastModified
  location : IsOpt ls c!"LOCATION" textProp v.location
  organizer : IsOpt ls c!"ORGANIZER" uriProp v.organizer
  priority : IsOpt ls c!"PRIORITY" Ikal.priority v.priority
  sequence : IsOpt ls c!"SEQUENCE" u32Prop v.sequence
  status : IsOpt ls c!"STATUS" Ikal.status v.status
  summary : IsOpt ls c!"SUMMARY" textProp v.summary
  transp : IsOpt ls c!"TRANSP" Ikal.transp v.transp
  url : IsOpt ls c!"URL" uriProp v.url
  recurid : IsOpt ls c!"RECURID" dateProp v.recurid
  rrule : IsOpt ls c!"RRULE" Ikal.rrule v.rrule
  dtend : IsOpt ls c!"DTEND" dateProp v.dtend
  duration : IsOpt ls c!"DURATION" Ikal.duration v.duration
  attach : IsPush ls c!"ATTACH" textProp v.attach
  attendee : IsPush ls c!"ATTENDEE" uriProp v.attendee
  categories : IsAppend ls c!"CATEGORIES" textListProp v.categories
  comment : IsPush ls c!"COMMENT" textProp v.comment
  contact : IsPush ls c!"CONTACT" textProp v.contact
  exdate : IsAppend ls c!"EXDATE" Ikal.exdate v.exdate
  rstatus : IsPush ls c!"RSTATUS" Ikal.rstatus v.rstatus
  relatedTo : IsPush ls c!"RELATED-TO" textProp v.relatedTo
  resources : IsAppend ls c!"RESOURCES" textListProp v.resources
  rdate : IsPush ls c!"RDATE" Ikal.rdate v.rdate
  alarms : v.alarms = []
  xProp : IsExt [c!"DTSTAMP", c!"UID", c!"DTSTART", c!"CLASS", c!"CREATED", c!"DESCRIPTION", c!"GEO", c!"LAST-MODIFIED", c!"LOCATION", c!"ORGANIZER", c!"PRIORITY", c!"SEQUENCE", c!"STATUS", c!"SUMMARY", c!"TRANSP", c!"URL", c!"RECURID", c!"RRULE", c!"DTEND", c!"DURATION", c!"ATTACH", c!"ATTENDEE", c!"CATEGORIES", c!"COMMENT", c!"CONTACT", c!"EXDATE", c!"RSTATUS", c!"RELATED-TO", c!"RESOURCES", c!"RDATE"] IsX ls v.xProp
  ianaProp : IsExt [c!"DTSTAMP", c!"UID", c!"DTSTART", c!"CLASS", c!"CREATED", c!"DESCRIPTION", c!"GEO", c!"LAST-MODIFIED", c!"LOCATION", c!"ORGANIZER", c!"PRIORITY", c!"SEQUENCE", c!"STATUS", c!"SUMMARY", c!"TRANSP", c!"URL", c!"RECURID", c!"RRULE", c!"DTEND", c!"DURATION", c!"ATTACH", c!"ATTENDEE", c!"CATEGORIES", c!"COMMENT", c!"CONTACT", c!"EXDATE", c!"RSTATUS", c!"RELATED-TO", c!"RESOURCES", c!"RDATE"] (fun k => ¬ IsX k) ls v.ianaProp

/-- What a `VFreebusy` (`src/components/vfreebusy.rs:4-22`) parsed from the lines `ls` holds. -/
structure VFreebusyFrom (ls : List ContentLine) (v : VFreebusy) : Prop where
  dtstamp : IsReq ls c!"DTSTAMP" dateTimeProp v.dtstamp
  uid : IsReq ls c!"UID" textProp v.uid
  contact : IsOpt ls c!"CONTACT" textProp v.contact
  dtstart : IsOpt ls c!"DTSTART" dateProp v.dtstart
  dtend : IsOpt ls c!"DTEND" dateProp v.dtend
  organizer : IsOpt ls c!"ORGANIZER" uriProp v.organizer
  url : IsOpt ls c!"URL" uriProp v.url
  attendee : IsPush ls c!"ATTENDEE" uriProp v.attendee
  comment : IsPush ls c!"COMMENT" textProp v.comment
  freebusy : IsAppend ls c!"FREEBUSY" Ikal.freebusy v.freebusy
  rstatus : IsPush ls c!"RSTATUS" Ikal.rstatus v.rstatus
  xProp : IsExt [c!"DTSTAMP", c!"UID", c!"CONTACT", c!"DTSTART", c!"DTEND", c!"ORGANIZER", c!"URL", c!"ATTENDEE", c!"COMMENT", c!"FREEBUSY", c!"RSTATUS"] IsX ls v.xProp
  ianaProp : IsExt [c!"DTSTAMP", c!"UID", c!"CONTACT", c!"DTSTART", c!"DTEND", c!"ORGANIZER", c!"URL", c!"ATTENDEE", c!"COMMENT", c!"FREEBUSY", c!"RSTATUS"] (fun k => ¬ IsX k) ls v.ianaProp

/-- What a `VJournal` (`src/components/vjournal.rs:4-35`) parsed from the lines `ls` holds. -/
structure VJournalFrom (ls : List ContentLine) (v : VJournal) : Prop where
  dtstamp : IsReq ls c!"DTSTAMP" dateTimeProp v.dtstamp
  uid : IsReq ls c!"UID" textProp v.uid
  class_ : IsOpt ls c!"CLASS" classProp v.class_
  created : IsOpt ls c!"CREATED" dateTimeProp v.created
  dtstart : IsReq ls c!"DTSTART" dateProp v.dtstart
  lastModified : IsOpt ls c!"LAST-MODIFIED" dateTimeProp v.lastModified
  organizer : IsOpt ls c!"ORGANIZER" uriProp v.organizer
  recurid : IsOpt ls c!"RECURID" dateProp v.recurid
  sequence : IsOpt ls c!"SEQUENCE" u32Prop v.sequence
  status : IsOpt ls c!"STATUS" Ikal.status v.status
  summary : IsOpt ls c!"SUMMARY" textProp v.summary
  url : IsOpt ls c!"URL" uriProp v.url
  rrule : IsOpt ls c!"RRULE" Ikal.rrule v.rrule
  attach : IsPush ls c!"ATTACH" textProp v.attach
  attendee : IsPush ls c!"ATTENDEE" uriProp v.attendee
  categories : IsAppend ls c!"CATEGORIES" textListProp v.categories
  comment : IsPush ls c!"COMMENT" textProp v.comment
  contact : IsPush ls c!"CONTACT" textProp v.contact
  description : IsPush ls c!"DESCRIPTION" textProp v.description
  exdate : IsAppend ls c!"EXDATE" Ikal.exdate v.exdate
  relatedTo : IsPush ls c!"RELATED-TO" textProp v.relatedTo
  rdate : IsPush ls c!"RDATE" Ikal.rdate v.rdate
  rstatus : IsPush ls c!"RSTATUS" Ikal.rstatus v.rstatus
  xProp : IsExt [c!"DTSTAMP", c!"UID", c!"CLASS", c!"CREATED", c!"DTSTART", c!"LAST-MODIFIED", c!"ORGANIZER", c!"RECURID", c!"SEQUENCE", c!"STATUS", c!"SUMMARY", c!"URL", c!"RRULE", c!"ATTACH", c!"ATTENDEE", c!"CATEGORIES", c!"COMMENT", c!"CONTACT", c!"DESCRIPTION", c!"EXDATE", c!"RELATED-TO", c!"RDATE", c!"RSTATUS"] IsX ls v.xProp
  ianaProp : IsExt [c!"DTSTAMP", c!"UID", c!"CLASS", c!"CREATED", c!"DTSTART", c!"LAST-MODIFIED", c!"ORGANIZER", c!"RECURID", c!"SEQUENCE", c!"STATUS", c!"SUMMARY", c!"URL", c!"RRULE", c!"ATTACH", c!"ATTENDEE", c!"CATEGORIES", c!"COMMENT", c!"CONTACT", c!"DESCRIPTION", c!"EXDATE", c!"RELATED-TO", c!"RDATE", c!"RSTATUS"] (fun k => ¬ IsX k) ls v.ianaProp

/-- What a `Standard` (`src/components/vtimezone.rs:34-49,76`) parsed from the lines `ls` holds. -/
structure StandardFrom (ls : List ContentLine) (v : Standard) : Prop where
  dtstart : IsReq ls c!"DTSTART" dateProp v.dtstart
  tzoffsetto : IsReq ls c!"TZOFFSETTO" offsetProp v.tzoffsetto
  tzoffsetfrom : IsReq ls c!"TZOFFSETFROM" offsetProp v.tzoffsetfrom
  rrule : IsOpt ls c!"RRULE" Ikal.rrule v.rrule
  comment : IsPush ls c!"COMMENT" textProp v.comment
  rdate : IsPush ls c!"RDATE" Ikal.rdate v.rdate
  tzname : IsPush ls c!"TZNAME" textProp v.tzname
  xProp : IsExt [c!"DTSTART", c!"TZOFFSETTO", c!"TZOFFSETFROM", c!"RRULE", c!"COMMENT", c!"RDATE", c!"TZNAME"] IsX ls v.xProp
  ianaProp : IsExt [c!"DTSTART", c!"TZOFFSETTO", c!"TZOFFSETFROM", c!"RRULE", c!"COMMENT", c!"RDATE", c!"TZNAME"] (fun k => ¬ IsX k) ls v.ianaProp

/-- What a `Daylight` (`src/components/vtimezone.rs:34-49,77`) parsed from the lines `ls` holds. -/
structure DaylightFrom (ls : List ContentLine) (v : Daylight) : Prop where
  dtstart : IsReq ls c!"DTSTART" dateProp v.dtstart
  tzoffsetto : IsReq ls c!"TZOFFSETTO" offsetProp v.tzoffsetto
  tzoffsetfrom : IsReq ls c!"TZOFFSETFROM" offsetProp v.tzoffsetfrom
  rrule : IsOpt ls c!"RRULE" Ikal.rrule v.rrule
  comment : IsPush ls c!"COMMENT" textProp v.comment
  rdate : IsPush ls c!"RDATE" Ikal.rdate v.rdate
  tzname : IsPush ls c!"TZNAME" textProp v.tzname
  xProp : IsExt [c!"DTSTART", c!"TZOFFSETTO", c!"TZOFFSETFROM", c!"RRULE", c!"COMMENT", c!"RDATE", c!"TZNAME"] IsX ls v.xProp
  ianaProp : IsExt [c!"DTSTART", c!"TZOFFSETTO", c!"TZOFFSETFROM", c!"RRULE", c!"COMMENT", c!"RDATE", c!"TZNAME"] (fun k => ¬ IsX k) ls v.ianaProp

/-- What a `VTimezone` (`src/components/vtimezone.rs:6-19`) parsed from the lines `ls` holds. -/
structure VTimezoneFrom (ls : List ContentLine) (v : VTimezone) : Prop where
  tzid : IsReq ls c!"TZID" textProp v.tzid
  lastModified : IsOpt ls c!"LAST-MODIFIED" dateTimeProp v.lastModified
  tzurl : IsOpt ls c!"TZURL" uriProp v.tzurl
  standard : v.standard = []
  daylight : v.daylight = []
  xProp : IsExt [c!"TZID", c!"LAST-MODIFIED", c!"TZURL"] IsX ls v.xProp
  ianaProp : IsExt [c!"TZID", c!"LAST-MODIFIED", c!"TZURL"] (fun k => ¬ IsX k) ls v.ianaProp

/-- What a `VTodo` (`src/components/vtodo.rs:4-43`) parsed from the lines `ls` holds. -/
structure VTodoFrom (ls : List ContentLine) (v : VTodo) : Prop where
  dtstamp : IsReq ls c!"DTSTAMP" dateTimeProp v.dtstamp
  uid : IsReq ls c!"UID" textProp v.uid
  class_ : IsOpt ls c!"CLASS" classProp v.class_
  completed : IsOpt ls c!"COMPLETED" dateTimeProp v.completed
  created : IsOpt ls c!"CREATED" dateTimeProp v.created
  dtstart : IsOpt ls c!"DTSTART" dateProp v.dtstart
  geo : IsOpt ls c!"GEO" Ikal.geo v.geo
  lastModified : IsOpt ls c!"LAST-MODIFIED" dateTimeProp v.lastModified
  location : IsOpt ls c!"LOCATION" textProp v.location
  organizer : IsOpt ls c!"ORGANIZER" uriProp v.organizer
  percentComplete : IsOpt ls c!"PERCENT-COMPLETE" Ikal.percentComplete v.percentComplete
  priority : IsOpt ls c!"PRIORITY" Ikal.priority v.priority
  recurid : IsOpt ls c!"RECURID" dateProp v.recurid
  sequence : IsOpt ls c!"SEQUENCE" u32Prop v.sequence
  status : IsOpt ls c!"STATUS" Ikal.status v.status
  summary : IsOpt ls c!"SUMMARY" textProp v.summary
  url : IsOpt ls c!"URL" uriProp v.url
  rrule : IsOpt ls c!"RRULE" Ikal.rrule v.rrule
  due : IsOpt ls c!"DUE" dateProp v.due
  duration : IsOpt ls c!"DURATION" Ikal.duration v.duration
  attach : IsPush ls c!"ATTACH" textProp v.attach
  attendee : IsPush ls c!"ATTENDEE" uriProp v.attendee
  categories : IsAppend ls c!"CATEGORIES" textListProp v.categories
  comment : IsPush ls c!"COMMENT" textProp v.comment
  contact : IsPush ls c!"CONTACT" textProp v.contact
  exdate : IsAppend ls c!"EXDATE" Ikal.exdate v.exdate
  rstatus : IsPush ls c!"RSTATUS" Ikal.rstatus v.rstatus
  relatedTo : IsPush ls c!"RELATED-TO" textProp v.relatedTo
  resources : IsAppend ls c!"RESOURCES" textListProp v.resources
  rdate : IsPush ls c!"RDATE" Ikal.rdate v.rdate
  xProp : IsExt [c!"DTSTAMP", c!"UID", c!"CLASS", c!"COMPLETED", c!"CREATED", c!"DTSTART", c!"GEO", c!"LAST-MODIFIED", c!"LOCATION", c!"ORGANIZER", c!"PERCENT-COMPLETE", c!"PRIORITY", c!"RECURID", c!"SEQUENCE", c!"STATUS", c!"SUMMARY", c!"URL", c!"RRULE", c!"DUE", c!"DURATION", c!"ATTACH", c!"ATTENDEE", c!"CATEGORIES", c!"COMMENT", c!"CONTACT", c!"EXDATE", c!"RSTATUS", c!"RELATED-TO", c!"RESOURCES", c!"RDATE"] IsX ls v.xProp
  ianaProp : IsExt [c!"DTSTAMP", c!"UID", c!"CLASS", c!"COMPLETED", c!"CREATED", c!"DTSTART", c!"GEO", c!"LAST-MODIFIED", c!"LOCATION", c!"ORGANIZER", c!"PERCENT-COMPLETE", c!"PRIORITY", c!"RECURID", c!"SEQUENCE", c!"STATUS", c!"SUMMARY", c!"URL", c!"RRULE", c!"DUE", c!"DURATION", c!"ATTACH", c!"ATTENDEE", c!"CATEGORIES", c!"COMMENT", c!"CONTACT", c!"EXDATE", c!"RSTATUS", c!"RELATED-TO", c!"RESOURCES", c!"RDATE"] (fun k => ¬ IsX k) ls v.ianaProp

/-- What a `VCalendar` (`src/components/vcalendar.rs:4-26`) parsed from the lines `ls` holds. -/
structure VCalendarFrom (ls : List ContentLine) (v : VCalendar) : Prop where
  prodid : IsReq ls c!"PRODID" textProp v.prodid
  version : IsReq ls c!"VERSION" textProp v.version
  calscale : IsOpt ls c!"CALSCALE" textProp v.calscale
  method : IsOpt ls c!"METHOD" textProp v.method
  alarms : v.alarms = []
  events : v.events = []
  freebusy : v.freebusy = []
  journals : v.journals = []
  todo : v.todo = []
  timezones : v.timezones = []
  xProp : IsExt [c!"PRODID", c!"VERSION", c!"CALSCALE", c!"METHOD"] IsX ls v.xProp
  ianaProp : IsExt [c!"PRODID", c!"VERSION", c!"CALSCALE", c!"METHOD"] (fun k => ¬ IsX k) ls v.ianaProp

end Ikal.Spec
