import Verif.Conformance.Debug

/-!
# The golden files of the repository: alarms, free/busy times, journals, time zones and to-dos

Generated from `tests/`: every input file, and the recorded `{:#?}` rendering of what the program makes of
it (depth of indentation and text of every line), or `none` if it must be rejected.
-/

set_option maxRecDepth 100000

namespace Ikal.Conformance

attribute [local instance] cet cetFloat

/-- `tests/alarms/1.ics` and `tests/alarms/1.out`. -/
example : shown VAlarm.ofStr (crlf [c!"BEGIN:VALARM",
    c!"TRIGGER;VALUE=DATE-TIME:19970317T133000Z",
    c!"REPEAT:4",
    c!"DURATION:PT15M",
    c!"ACTION:AUDIO",
    c!"ATTACH;FMTTYPE=audio/basic:ftp://example.com/pub/",
    c!" sounds/bell-01.aud",
    c!"END:VALARM",
    c!""]) =
    some [
    (0, c!"Ok("),
    (1, c!"Audio("),
    (2, c!"Audio {"),
    (3, c!"action: Text {"),
    (4, c!"params: {},"),
    (4, c!"text: \"AUDIO\","),
    (3, c!"},"),
    (3, c!"trigger: DateTime("),
    (4, c!"Local("),
    (5, c!"1997-03-17T14:30:00+01:00,"),
    (4, c!"),"),
    (3, c!"),"),
    (3, c!"duration: Some("),
    (4, c!"TimeDelta {"),
    (5, c!"secs: 900,"),
    (5, c!"nanos: 0,"),
    (4, c!"},"),
    (3, c!"),"),
    (3, c!"repeat: Some("),
    (4, c!"4,"),
    (3, c!"),"),
    (3, c!"attach: ["),
    (4, c!"Text {"),
    (5, c!"params: {"),
    (6, c!"\"FMTTYPE\": \"audio/basic\","),
    (5, c!"},"),
    (5, c!"text: \"ftp://example.com/pub/sounds/bell-01.aud\","),
    (4, c!"},"),
    (3, c!"],"),
    (3, c!"x_prop: {},"),
    (3, c!"iana_prop: {},"),
    (2, c!"},"),
    (1, c!"),"),
    (0, c!")")] := by decide +kernel

/-- `tests/alarms/2.ics` and `tests/alarms/2.out`. -/
example : shown VAlarm.ofStr (crlf [c!"BEGIN:VALARM",
    c!"TRIGGER:-PT30M",
    c!"REPEAT:2",
    c!"DURATION:PT15M",
    c!"ACTION:DISPLAY",
    c!"DESCRIPTION:Breakfast meeting with executive\\n",
    c!" team at 8:30 AM EST.",
    c!"END:VALARM",
    c!""]) =
    some [
    (0, c!"Ok("),
    (1, c!"Display("),
    (2, c!"Display {"),
    (3, c!"action: Text {"),
    (4, c!"params: {},"),
    (4, c!"text: \"DISPLAY\","),
    (3, c!"},"),
    (3, c!"trigger: Duration("),
    (4, c!"TimeDelta {"),
    (5, c!"secs: -1800,"),
    (5, c!"nanos: 0,"),
    (4, c!"},"),
    (3, c!"),"),
    (3, c!"description: Text {"),
    (4, c!"params: {},"),
    (4, c!"text: \"Breakfast meeting with executive\\\\nteam at 8:30 AM EST.\","),
    (3, c!"},"),
    (3, c!"duration: Some("),
    (4, c!"TimeDelta {"),
    (5, c!"secs: 900,"),
    (5, c!"nanos: 0,"),
    (4, c!"},"),
    (3, c!"),"),
    (3, c!"repeat: Some("),
    (4, c!"2,"),
    (3, c!"),"),
    (3, c!"x_prop: {},"),
    (3, c!"iana_prop: {},"),
    (2, c!"},"),
    (1, c!"),"),
    (0, c!")")] := by decide +kernel

/-- `tests/freebusy/1.ics` and `tests/freebusy/1.out`. -/
example : shown VFreebusy.ofStr (crlf [c!"BEGIN:VFREEBUSY",
    c!"UID:19970901T082949Z-FA43EF@example.com",
    c!"ORGANIZER:mailto:jane_doe@example.com",
    c!"ATTENDEE:mailto:john_public@example.com",
    c!"DTSTART:19971015T050000Z",
    c!"DTEND:19971016T050000Z",
    c!"DTSTAMP:19970901T083000Z",
    c!"END:VFREEBUSY",
    c!""]) =
    some [
    (0, c!"Ok("),
    (1, c!"VFreebusy {"),
    (2, c!"dtstamp: Local("),
    (3, c!"1997-09-01T10:30:00+02:00,"),
    (2, c!"),"),
    (2, c!"uid: Text {"),
    (3, c!"params: {},"),
    (3, c!"text: \"19970901T082949Z-FA43EF@example.com\","),
    (2, c!"},"),
    (2, c!"contact: None,"),
    (2, c!"dtstart: Some("),
    (3, c!"DateTime("),
    (4, c!"Local("),
    (5, c!"1997-10-15T07:00:00+02:00,"),
    (4, c!"),"),
    (3, c!"),"),
    (2, c!"),"),
    (2, c!"dtend: Some("),
    (3, c!"DateTime("),
    (4, c!"Local("),
    (5, c!"1997-10-16T07:00:00+02:00,"),
    (4, c!"),"),
    (3, c!"),"),
    (2, c!"),"),
    (2, c!"organizer: Some("),
    (3, c!"Uri {"),
    (4, c!"params: {},"),
    (4, c!"uri: \"mailto:jane_doe@example.com\","),
    (3, c!"},"),
    (2, c!"),"),
    (2, c!"url: None,"),
    (2, c!"attendee: ["),
    (3, c!"Uri {"),
    (4, c!"params: {},"),
    (4, c!"uri: \"mailto:john_public@example.com\","),
    (3, c!"},"),
    (2, c!"],"),
    (2, c!"comment: [],"),
    (2, c!"freebusy: [],"),
    (2, c!"rstatus: [],"),
    (2, c!"x_prop: {},"),
    (2, c!"iana_prop: {},"),
    (1, c!"},"),
    (0, c!")")] := by decide +kernel

/-- `tests/freebusy/2.ics` and `tests/freebusy/2.out`. -/
example : shown VFreebusy.ofStr (crlf [c!"BEGIN:VFREEBUSY",
    c!"UID:19970901T095957Z-76A912@example.com",
    c!"ORGANIZER:mailto:jane_doe@example.com",
    c!"ATTENDEE:mailto:john_public@example.com",
    c!"DTSTAMP:19970901T100000Z",
    c!"FREEBUSY:19971015T050000Z/PT8H30M,",
    c!" 19971015T160000Z/PT5H30M,19971015T223000Z/PT6H30M",
    c!"URL:http://example.com/pub/busy/jpublic-01.ifb",
    c!"COMMENT:This iCalendar file contains busy time information for",
    c!"  the next three months.",
    c!"END:VFREEBUSY",
    c!""]) =
    some [
    (0, c!"Ok("),
    (1, c!"VFreebusy {"),
    (2, c!"dtstamp: Local("),
    (3, c!"1997-09-01T12:00:00+02:00,"),
    (2, c!"),"),
    (2, c!"uid: Text {"),
    (3, c!"params: {},"),
    (3, c!"text: \"19970901T095957Z-76A912@example.com\","),
    (2, c!"},"),
    (2, c!"contact: None,"),
    (2, c!"dtstart: None,"),
    (2, c!"dtend: None,"),
    (2, c!"organizer: Some("),
    (3, c!"Uri {"),
    (4, c!"params: {},"),
    (4, c!"uri: \"mailto:jane_doe@example.com\","),
    (3, c!"},"),
    (2, c!"),"),
    (2, c!"url: Some("),
    (3, c!"Uri {"),
    (4, c!"params: {},"),
    (4, c!"uri: \"http://example.com/pub/busy/jpublic-01.ifb\","),
    (3, c!"},"),
    (2, c!"),"),
    (2, c!"attendee: ["),
    (3, c!"Uri {"),
    (4, c!"params: {},"),
    (4, c!"uri: \"mailto:john_public@example.com\","),
    (3, c!"},"),
    (2, c!"],"),
    (2, c!"comment: ["),
    (3, c!"Text {"),
    (4, c!"params: {},"),
    (4, c!"text: \"This iCalendar file contains busy time information for the next three months.\","),
    (3, c!"},"),
    (2, c!"],"),
    (2, c!"freebusy: ["),
    (3, c!"StartDur("),
    (4, c!"StartDur {"),
    (5, c!"start: Local("),
    (6, c!"1997-10-15T07:00:00+02:00,"),
    (5, c!"),"),
    (5, c!"duration: TimeDelta {"),
    (6, c!"secs: 30600,"),
    (6, c!"nanos: 0,"),
    (5, c!"},"),
    (4, c!"},"),
    (3, c!"),"),
    (3, c!"StartDur("),
    (4, c!"StartDur {"),
    (5, c!"start: Local("),
    (6, c!"1997-10-15T18:00:00+02:00,"),
    (5, c!"),"),
    (5, c!"duration: TimeDelta {"),
    (6, c!"secs: 19800,"),
    (6, c!"nanos: 0,"),
    (5, c!"},"),
    (4, c!"},"),
    (3, c!"),"),
    (3, c!"StartDur("),
    (4, c!"StartDur {"),
    (5, c!"start: Local("),
    (6, c!"1997-10-16T00:30:00+02:00,"),
    (5, c!"),"),
    (5, c!"duration: TimeDelta {"),
    (6, c!"secs: 23400,"),
    (6, c!"nanos: 0,"),
    (5, c!"},"),
    (4, c!"},"),
    (3, c!"),"),
    (2, c!"],"),
    (2, c!"rstatus: [],"),
    (2, c!"x_prop: {},"),
    (2, c!"iana_prop: {},"),
    (1, c!"},"),
    (0, c!")")] := by decide +kernel

/-- `tests/freebusy/3.ics` and `tests/freebusy/3.out`. -/
example : shown VFreebusy.ofStr (crlf [c!"BEGIN:VFREEBUSY",
    c!"UID:19970901T115957Z-76A912@example.com",
    c!"DTSTAMP:19970901T120000Z",
    c!"ORGANIZER:jsmith@example.com",
    c!"DTSTART:19980313T141711Z",
    c!"DTEND:19980410T141711Z",
    c!"FREEBUSY:19980314T233000Z/19980315T003000Z",
    c!"FREEBUSY:19980316T153000Z/19980316T163000Z",
    c!"FREEBUSY:19980318T030000Z/19980318T040000Z",
    c!"URL:http://www.example.com/calendar/busytime/jsmith.ifb",
    c!"END:VFREEBUSY",
    c!""]) =
    some [
    (0, c!"Ok("),
    (1, c!"VFreebusy {"),
    (2, c!"dtstamp: Local("),
    (3, c!"1997-09-01T14:00:00+02:00,"),
    (2, c!"),"),
    (2, c!"uid: Text {"),
    (3, c!"params: {},"),
    (3, c!"text: \"19970901T115957Z-76A912@example.com\","),
    (2, c!"},"),
    (2, c!"contact: None,"),
    (2, c!"dtstart: Some("),
    (3, c!"DateTime("),
    (4, c!"Local("),
    (5, c!"1998-03-13T15:17:11+01:00,"),
    (4, c!"),"),
    (3, c!"),"),
    (2, c!"),"),
    (2, c!"dtend: Some("),
    (3, c!"DateTime("),
    (4, c!"Local("),
    (5, c!"1998-04-10T16:17:11+02:00,"),
    (4, c!"),"),
    (3, c!"),"),
    (2, c!"),"),
    (2, c!"organizer: Some("),
    (3, c!"Uri {"),
    (4, c!"params: {},"),
    (4, c!"uri: \"jsmith@example.com\","),
    (3, c!"},"),
    (2, c!"),"),
    (2, c!"url: Some("),
    (3, c!"Uri {"),
    (4, c!"params: {},"),
    (4, c!"uri: \"http://www.example.com/calendar/busytime/jsmith.ifb\","),
    (3, c!"},"),
    (2, c!"),"),
    (2, c!"attendee: [],"),
    (2, c!"comment: [],"),
    (2, c!"freebusy: ["),
    (3, c!"StartEnd("),
    (4, c!"StartEnd {"),
    (5, c!"start: Local("),
    (6, c!"1998-03-15T00:30:00+01:00,"),
    (5, c!"),"),
    (5, c!"end: Local("),
    (6, c!"1998-03-15T01:30:00+01:00,"),
    (5, c!"),"),
    (4, c!"},"),
    (3, c!"),"),
    (3, c!"StartEnd("),
    (4, c!"StartEnd {"),
    (5, c!"start: Local("),
    (6, c!"1998-03-16T16:30:00+01:00,"),
    (5, c!"),"),
    (5, c!"end: Local("),
    (6, c!"1998-03-16T17:30:00+01:00,"),
    (5, c!"),"),
    (4, c!"},"),
    (3, c!"),"),
    (3, c!"StartEnd("),
    (4, c!"StartEnd {"),
    (5, c!"start: Local("),
    (6, c!"1998-03-18T04:00:00+01:00,"),
    (5, c!"),"),
    (5, c!"end: Local("),
    (6, c!"1998-03-18T05:00:00+01:00,"),
    (5, c!"),"),
    (4, c!"},"),
    (3, c!"),"),
    (2, c!"],"),
    (2, c!"rstatus: [],"),
    (2, c!"x_prop: {},"),
    (2, c!"iana_prop: {},"),
    (1, c!"},"),
    (0, c!")")] := by decide +kernel

/-- `tests/journals/1.ics` and `tests/journals/1.out`. -/
example : shown VJournal.ofStr (crlf [c!"BEGIN:VJOURNAL",
    c!"UID:19970901T130000Z-123405@example.com",
    c!"DTSTAMP:19970901T130000Z",
    c!"DTSTART;VALUE=DATE:19970317",
    c!"SUMMARY:Staff meeting minutes",
    c!"DESCRIPTION:1. Staff meeting: Participants include Joe\\,",
    c!" Lisa\\, and Bob. Aurora project plans were reviewed.",
    c!" There is currently no budget reserves for this project.",
    c!" Lisa will escalate to management. Next meeting on Tuesday.\\n",
    c!" 2. Telephone Conference: ABC Corp. sales representative",
    c!" called to discuss new printer. Promised to get us a demo by",
    c!" Friday.\\n3. Henry Miller (Handsoff Insurance): Car was",
    c!" totaled by tree. Is looking into a loaner car. 555-2323",
    c!" (tel).",
    c!"END:VJOURNAL",
    c!""]) =
    some [
    (0, c!"Ok("),
    (1, c!"VJournal {"),
    (2, c!"dtstamp: Local("),
    (3, c!"1997-09-01T15:00:00+02:00,"),
    (2, c!"),"),
    (2, c!"uid: Text {"),
    (3, c!"params: {},"),
    (3, c!"text: \"19970901T130000Z-123405@example.com\","),
    (2, c!"},"),
    (2, c!"class: None,"),
    (2, c!"created: None,"),
    (2, c!"dtstart: Date("),
    (3, c!"1997-03-17,"),
    (2, c!"),"),
    (2, c!"last_modified: None,"),
    (2, c!"organizer: None,"),
    (2, c!"recurid: None,"),
    (2, c!"sequence: None,"),
    (2, c!"status: None,"),
    (2, c!"summary: Some("),
    (3, c!"Text {"),
    (4, c!"params: {},"),
    (4, c!"text: \"Staff meeting minutes\","),
    (3, c!"},"),
    (2, c!"),"),
    (2, c!"url: None,"),
    (2, c!"rrule: None,"),
    (2, c!"attach: [],"),
    (2, c!"attendee: [],"),
    (2, c!"categories: [],"),
    (2, c!"comment: [],"),
    (2, c!"contact: [],"),
    (2, c!"description: ["),
    (3, c!"Text {"),
    (4, c!"params: {},"),
    (4, c!"text: \"1. Staff meeting: Participants include Joe\\\\,Lisa\\\\, and Bob. Aurora project plans were reviewed.There is currently no budget reserves for this project.Lisa will escalate to management. Next meeting on Tuesday.\\\\n2. Telephone Conference: ABC Corp. sales representativecalled to discuss new printer. Promised to get us a demo byFriday.\\\\n3. Henry Miller (Handsoff Insurance): Car wastotaled by tree. Is looking into a loaner car. 555-2323(tel).\","),
    (3, c!"},"),
    (2, c!"],"),
    (2, c!"exdate: [],"),
    (2, c!"related_to: [],"),
    (2, c!"rdate: [],"),
    (2, c!"rstatus: [],"),
    (2, c!"x_prop: {},"),
    (2, c!"iana_prop: {},"),
    (1, c!"},"),
    (0, c!")")] := by decide +kernel

/-- `tests/timezones/issue_237_brazilia_standard.ics` and `tests/timezones/issue_237_brazilia_standard.out`. -/
example : shown VTimezone.ofStr (crlf [c!"BEGIN:VTIMEZONE",
    c!"TZID:(UTC-03:00) Brasília",
    c!"BEGIN:STANDARD",
    c!"TZNAME:Brasília standard",
    c!"DTSTART:16010101T235959",
    c!"TZOFFSETFROM:-0200",
    c!"TZOFFSETTO:-0300",
    c!"RRULE:FREQ=YEARLY;INTERVAL=1;BYDAY=3SA;BYMONTH=2",
    c!"END:STANDARD",
    c!"BEGIN:DAYLIGHT",
    c!"TZNAME:Brasília daylight",
    c!"DTSTART:16010101T235959",
    c!"TZOFFSETFROM:-0300",
    c!"TZOFFSETTO:-0200",
    c!"RRULE:FREQ=YEARLY;INTERVAL=1;BYDAY=2SA;BYMONTH=10",
    c!"END:DAYLIGHT",
    c!"END:VTIMEZONE",
    c!""]) =
    some [
    (0, c!"Ok("),
    (1, c!"VTimezone {"),
    (2, c!"tzid: Text {"),
    (3, c!"params: {},"),
    (3, c!"text: \"(UTC-03:00) Brasília\","),
    (2, c!"},"),
    (2, c!"last_modified: None,"),
    (2, c!"tzurl: None,"),
    (2, c!"standard: ["),
    (3, c!"Standard {"),
    (4, c!"dtstart: DateTime("),
    (5, c!"Naive("),
    (6, c!"1601-01-01T23:59:59,"),
    (5, c!"),"),
    (4, c!"),"),
    (4, c!"tzoffsetto: -03:00,"),
    (4, c!"tzoffsetfrom: -02:00,"),
    (4, c!"rrule: Some("),
    (5, c!"Recur {"),
    (6, c!"freq: Yearly,"),
    (6, c!"until: None,"),
    (6, c!"count: None,"),
    (6, c!"interval: 1,"),
    (6, c!"by_second: [],"),
    (6, c!"by_minute: [],"),
    (6, c!"by_hour: [],"),
    (6, c!"by_day: ["),
    (7, c!"WeekdayNum {"),
    (8, c!"weekday: Saturday,"),
    (8, c!"ord: Some("),
    (9, c!"3,"),
    (8, c!"),"),
    (7, c!"},"),
    (6, c!"],"),
    (6, c!"by_monthday: [],"),
    (6, c!"by_yearday: [],"),
    (6, c!"by_weekno: [],"),
    (6, c!"by_month: ["),
    (7, c!"2,"),
    (6, c!"],"),
    (6, c!"by_setpos: [],"),
    (6, c!"wkst: None,"),
    (5, c!"},"),
    (4, c!"),"),
    (4, c!"comment: [],"),
    (4, c!"rdate: [],"),
    (4, c!"tzname: ["),
    (5, c!"Text {"),
    (6, c!"params: {},"),
    (6, c!"text: \"Brasília standard\","),
    (5, c!"},"),
    (4, c!"],"),
    (4, c!"x_prop: {},"),
    (4, c!"iana_prop: {},"),
    (3, c!"},"),
    (2, c!"],"),
    (2, c!"daylight: ["),
    (3, c!"Daylight {"),
    (4, c!"dtstart: DateTime("),
    (5, c!"Naive("),
    (6, c!"1601-01-01T23:59:59,"),
    (5, c!"),"),
    (4, c!"),"),
    (4, c!"tzoffsetto: -02:00,"),
    (4, c!"tzoffsetfrom: -03:00,"),
    (4, c!"rrule: Some("),
    (5, c!"Recur {"),
    (6, c!"freq: Yearly,"),
    (6, c!"until: None,"),
    (6, c!"count: None,"),
    (6, c!"interval: 1,"),
    (6, c!"by_second: [],"),
    (6, c!"by_minute: [],"),
    (6, c!"by_hour: [],"),
    (6, c!"by_day: ["),
    (7, c!"WeekdayNum {"),
    (8, c!"weekday: Saturday,"),
    (8, c!"ord: Some("),
    (9, c!"2,"),
    (8, c!"),"),
    (7, c!"},"),
    (6, c!"],"),
    (6, c!"by_monthday: [],"),
    (6, c!"by_yearday: [],"),
    (6, c!"by_weekno: [],"),
    (6, c!"by_month: ["),
    (7, c!"10,"),
    (6, c!"],"),
    (6, c!"by_setpos: [],"),
    (6, c!"wkst: None,"),
    (5, c!"},"),
    (4, c!"),"),
    (4, c!"comment: [],"),
    (4, c!"rdate: [],"),
    (4, c!"tzname: ["),
    (5, c!"Text {"),
    (6, c!"params: {},"),
    (6, c!"text: \"Brasília daylight\","),
    (5, c!"},"),
    (4, c!"],"),
    (4, c!"x_prop: {},"),
    (4, c!"iana_prop: {},"),
    (3, c!"},"),
    (2, c!"],"),
    (2, c!"x_prop: {},"),
    (2, c!"iana_prop: {},"),
    (1, c!"},"),
    (0, c!")")] := by decide +kernel

/-- `tests/timezones/issue_53_tzid_parsed_properly.ics` and `tests/timezones/issue_53_tzid_parsed_properly.out`. -/
example : shown VTimezone.ofStr (crlf [c!"BEGIN:VTIMEZONE",
    c!"TZID:America/New_York",
    c!"TZURL:http://tzurl.org/zoneinfo-outlook/America/New_York",
    c!"X-LIC-LOCATION:America/New_York",
    c!"BEGIN:DAYLIGHT",
    c!"TZOFFSETFROM:-0500",
    c!"TZOFFSETTO:-0400",
    c!"TZNAME:EDT",
    c!"DTSTART:19700308T020000",
    c!"RRULE:FREQ=YEARLY;BYMONTH=3;BYDAY=2SU",
    c!"END:DAYLIGHT",
    c!"BEGIN:STANDARD",
    c!"TZOFFSETFROM:-0400",
    c!"TZOFFSETTO:-0500",
    c!"TZNAME:EST",
    c!"DTSTART:19701101T020000",
    c!"RRULE:FREQ=YEARLY;BYMONTH=11;BYDAY=1SU",
    c!"END:STANDARD",
    c!"END:VTIMEZONE",
    c!""]) =
    some [
    (0, c!"Ok("),
    (1, c!"VTimezone {"),
    (2, c!"tzid: Text {"),
    (3, c!"params: {},"),
    (3, c!"text: \"America/New_York\","),
    (2, c!"},"),
    (2, c!"last_modified: None,"),
    (2, c!"tzurl: Some("),
    (3, c!"Uri {"),
    (4, c!"params: {},"),
    (4, c!"uri: \"http://tzurl.org/zoneinfo-outlook/America/New_York\","),
    (3, c!"},"),
    (2, c!"),"),
    (2, c!"standard: ["),
    (3, c!"Standard {"),
    (4, c!"dtstart: DateTime("),
    (5, c!"Naive("),
    (6, c!"1970-11-01T02:00:00,"),
    (5, c!"),"),
    (4, c!"),"),
    (4, c!"tzoffsetto: -05:00,"),
    (4, c!"tzoffsetfrom: -04:00,"),
    (4, c!"rrule: Some("),
    (5, c!"Recur {"),
    (6, c!"freq: Yearly,"),
    (6, c!"until: None,"),
    (6, c!"count: None,"),
    (6, c!"interval: 1,"),
    (6, c!"by_second: [],"),
    (6, c!"by_minute: [],"),
    (6, c!"by_hour: [],"),
    (6, c!"by_day: ["),
    (7, c!"WeekdayNum {"),
    (8, c!"weekday: Sunday,"),
    (8, c!"ord: Some("),
    (9, c!"1,"),
    (8, c!"),"),
    (7, c!"},"),
    (6, c!"],"),
    (6, c!"by_monthday: [],"),
    (6, c!"by_yearday: [],"),
    (6, c!"by_weekno: [],"),
    (6, c!"by_month: ["),
    (7, c!"11,"),
    (6, c!"],"),
    (6, c!"by_setpos: [],"),
    (6, c!"wkst: None,"),
    (5, c!"},"),
    (4, c!"),"),
    (4, c!"comment: [],"),
    (4, c!"rdate: [],"),
    (4, c!"tzname: ["),
    (5, c!"Text {"),
    (6, c!"params: {},"),
    (6, c!"text: \"EST\","),
    (5, c!"},"),
    (4, c!"],"),
    (4, c!"x_prop: {},"),
    (4, c!"iana_prop: {},"),
    (3, c!"},"),
    (2, c!"],"),
    (2, c!"daylight: ["),
    (3, c!"Daylight {"),
    (4, c!"dtstart: DateTime("),
    (5, c!"Naive("),
    (6, c!"1970-03-08T02:00:00,"),
    (5, c!"),"),
    (4, c!"),"),
    (4, c!"tzoffsetto: -04:00,"),
    (4, c!"tzoffsetfrom: -05:00,"),
    (4, c!"rrule: Some("),
    (5, c!"Recur {"),
    (6, c!"freq: Yearly,"),
    (6, c!"until: None,"),
    (6, c!"count: None,"),
    (6, c!"interval: 1,"),
    (6, c!"by_second: [],"),
    (6, c!"by_minute: [],"),
    (6, c!"by_hour: [],"),
    (6, c!"by_day: ["),
    (7, c!"WeekdayNum {"),
    (8, c!"weekday: Sunday,"),
    (8, c!"ord: Some("),
    (9, c!"2,"),
    (8, c!"),"),
    (7, c!"},"),
    (6, c!"],"),
    (6, c!"by_monthday: [],"),
    (6, c!"by_yearday: [],"),
    (6, c!"by_weekno: [],"),
    (6, c!"by_month: ["),
    (7, c!"3,"),
    (6, c!"],"),
    (6, c!"by_setpos: [],"),
    (6, c!"wkst: None,"),
    (5, c!"},"),
    (4, c!"),"),
    (4, c!"comment: [],"),
    (4, c!"rdate: [],"),
    (4, c!"tzname: ["),
    (5, c!"Text {"),
    (6, c!"params: {},"),
    (6, c!"text: \"EDT\","),
    (5, c!"},"),
    (4, c!"],"),
    (4, c!"x_prop: {},"),
    (4, c!"iana_prop: {},"),
    (3, c!"},"),
    (2, c!"],"),
    (2, c!"x_prop: {"),
    (3, c!"\"X-LIC-LOCATION\": ContentLine {"),
    (4, c!"params: {},"),
    (4, c!"value: \"America/New_York\","),
    (3, c!"},"),
    (2, c!"},"),
    (2, c!"iana_prop: {},"),
    (1, c!"},"),
    (0, c!")")] := by decide +kernel

/-- `tests/timezones/issue_55_parse_error_on_utc_offset_with_seconds.ics` and `tests/timezones/issue_55_parse_error_on_utc_offset_with_seconds.out`. -/
example : shown VTimezone.ofStr (crlf [c!"BEGIN:VTIMEZONE",
    c!"TZID:America/Los Angeles",
    c!"BEGIN:STANDARD",
    c!"DTSTART:18831118T120702",
    c!"RDATE:18831118T120702",
    c!"TZNAME:PST",
    c!"TZOFFSETFROM:-075258",
    c!"TZOFFSETTO:-0800",
    c!"END:STANDARD",
    c!"END:VTIMEZONE",
    c!""]) =
    some [
    (0, c!"Ok("),
    (1, c!"VTimezone {"),
    (2, c!"tzid: Text {"),
    (3, c!"params: {},"),
    (3, c!"text: \"America/Los Angeles\","),
    (2, c!"},"),
    (2, c!"last_modified: None,"),
    (2, c!"tzurl: None,"),
    (2, c!"standard: ["),
    (3, c!"Standard {"),
    (4, c!"dtstart: DateTime("),
    (5, c!"Naive("),
    (6, c!"1883-11-18T12:07:02,"),
    (5, c!"),"),
    (4, c!"),"),
    (4, c!"tzoffsetto: -08:00,"),
    (4, c!"tzoffsetfrom: -07:52,"),
    (4, c!"rrule: None,"),
    (4, c!"comment: [],"),
    (4, c!"rdate: ["),
    (5, c!"Date("),
    (6, c!"["),
    (7, c!"DateTime("),
    (8, c!"Naive("),
    (9, c!"1883-11-18T12:07:02,"),
    (8, c!"),"),
    (7, c!"),"),
    (6, c!"],"),
    (5, c!"),"),
    (4, c!"],"),
    (4, c!"tzname: ["),
    (5, c!"Text {"),
    (6, c!"params: {},"),
    (6, c!"text: \"PST\","),
    (5, c!"},"),
    (4, c!"],"),
    (4, c!"x_prop: {},"),
    (4, c!"iana_prop: {},"),
    (3, c!"},"),
    (2, c!"],"),
    (2, c!"daylight: [],"),
    (2, c!"x_prop: {},"),
    (2, c!"iana_prop: {},"),
    (1, c!"},"),
    (0, c!")")] := by decide +kernel

/-- `tests/todos/1.ics` and `tests/todos/1.out`. -/
example : shown VTodo.ofStr (crlf [c!"BEGIN:VTODO",
    c!"UID:20070313T123432Z-456553@example.com",
    c!"DTSTAMP:20070313T123432Z",
    c!"DUE;VALUE=DATE:20070501",
    c!"SUMMARY:Submit Quebec Income Tax Return for 2006",
    c!"CLASS:CONFIDENTIAL",
    c!"CATEGORIES:FAMILY,FINANCE",
    c!"STATUS:NEEDS-ACTION",
    c!"END:VTODO",
    c!""]) =
    some [
    (0, c!"Ok("),
    (1, c!"VTodo {"),
    (2, c!"dtstamp: Local("),
    (3, c!"2007-03-13T13:34:32+01:00,"),
    (2, c!"),"),
    (2, c!"uid: Text {"),
    (3, c!"params: {},"),
    (3, c!"text: \"20070313T123432Z-456553@example.com\","),
    (2, c!"},"),
    (2, c!"class: Some("),
    (3, c!"Confidential,"),
    (2, c!"),"),
    (2, c!"completed: None,"),
    (2, c!"created: None,"),
    (2, c!"dtstart: None,"),
    (2, c!"geo: None,"),
    (2, c!"last_modified: None,"),
    (2, c!"location: None,"),
    (2, c!"organizer: None,"),
    (2, c!"percent_complete: None,"),
    (2, c!"priority: None,"),
    (2, c!"recurid: None,"),
    (2, c!"sequence: None,"),
    (2, c!"status: Some("),
    (3, c!"NeedsAction,"),
    (2, c!"),"),
    (2, c!"summary: Some("),
    (3, c!"Text {"),
    (4, c!"params: {},"),
    (4, c!"text: \"Submit Quebec Income Tax Return for 2006\","),
    (3, c!"},"),
    (2, c!"),"),
    (2, c!"url: None,"),
    (2, c!"rrule: None,"),
    (2, c!"due: Some("),
    (3, c!"Date("),
    (4, c!"2007-05-01,"),
    (3, c!"),"),
    (2, c!"),"),
    (2, c!"duration: None,"),
    (2, c!"attach: [],"),
    (2, c!"attendee: [],"),
    (2, c!"categories: ["),
    (3, c!"Text {"),
    (4, c!"params: {},"),
    (4, c!"text: \"FAMILY\","),
    (3, c!"},"),
    (3, c!"Text {"),
    (4, c!"params: {},"),
    (4, c!"text: \"FINANCE\","),
    (3, c!"},"),
    (2, c!"],"),
    (2, c!"comment: [],"),
    (2, c!"contact: [],"),
    (2, c!"exdate: [],"),
    (2, c!"rstatus: [],"),
    (2, c!"related_to: [],"),
    (2, c!"resources: [],"),
    (2, c!"rdate: [],"),
    (2, c!"x_prop: {},"),
    (2, c!"iana_prop: {},"),
    (1, c!"},"),
    (0, c!")")] := by decide +kernel

end Ikal.Conformance
