import Verif.Conformance.Debug

/-!
# The golden files of the repository: calendars, second part

Generated from `tests/`: every input file, and the recorded `{:#?}` rendering of what the program makes of
it (depth of indentation and text of every line), or `none` if it must be rejected.
-/

set_option maxRecDepth 100000

namespace Ikal.Conformance

attribute [local instance] cet cetFloat

/-- `tests/calendars/issue_27_multiple_periods_in_freebusy_one_freebusy.ics` and `tests/calendars/issue_27_multiple_periods_in_freebusy_one_freebusy.out`. -/
example : shown VCalendar.ofStr (crlf [c!"BEGIN:VCALENDAR",
    c!"VERSION:2.0",
    c!"PRODID:-//davmail.sf.net/NONSGML DavMail Calendar V1.1//EN",
    c!"METHOD:REPLY",
    c!"BEGIN:VFREEBUSY",
    c!"DTSTAMP:20120131T123000Z",
    c!"ORGANIZER:MAILTO:organizer@domain.tld",
    c!"DTSTART:20120101T000000Z",
    c!"DTEND:20120201T000000Z",
    c!"UID:null",
    c!"ATTENDEE:MAILTO:attendee@domain.tld",
    c!"FREEBUSY;FBTYPE=BUSY:20120103T091500Z/20120103T101500Z,20120113T130000Z/20120113T150000Z,20120116T130000Z/20120116T150000Z,20120117T091500Z/20120117T101500Z,20120118T160000Z/20120118T163000Z,20120124T083000Z/20120124T093000Z,20120124T123000Z/20120124T143000Z,20120131T091500Z/20120131T101500Z",
    c!"END:VFREEBUSY",
    c!"END:VCALENDAR",
    c!""]) =
    some [
    (0, c!"Ok("),
    (1, c!"VCalendar {"),
    (2, c!"prodid: Text {"),
    (3, c!"params: {},"),
    (3, c!"text: \"-//davmail.sf.net/NONSGML DavMail Calendar V1.1//EN\","),
    (2, c!"},"),
    (2, c!"version: Text {"),
    (3, c!"params: {},"),
    (3, c!"text: \"2.0\","),
    (2, c!"},"),
    (2, c!"calscale: None,"),
    (2, c!"method: Some("),
    (3, c!"Text {"),
    (4, c!"params: {},"),
    (4, c!"text: \"REPLY\","),
    (3, c!"},"),
    (2, c!"),"),
    (2, c!"alarms: [],"),
    (2, c!"events: [],"),
    (2, c!"freebusy: ["),
    (3, c!"VFreebusy {"),
    (4, c!"dtstamp: Local("),
    (5, c!"2012-01-31T13:30:00+01:00,"),
    (4, c!"),"),
    (4, c!"uid: Text {"),
    (5, c!"params: {},"),
    (5, c!"text: \"null\","),
    (4, c!"},"),
    (4, c!"contact: None,"),
    (4, c!"dtstart: Some("),
    (5, c!"DateTime("),
    (6, c!"Local("),
    (7, c!"2012-01-01T01:00:00+01:00,"),
    (6, c!"),"),
    (5, c!"),"),
    (4, c!"),"),
    (4, c!"dtend: Some("),
    (5, c!"DateTime("),
    (6, c!"Local("),
    (7, c!"2012-02-01T01:00:00+01:00,"),
    (6, c!"),"),
    (5, c!"),"),
    (4, c!"),"),
    (4, c!"organizer: Some("),
    (5, c!"Uri {"),
    (6, c!"params: {},"),
    (6, c!"uri: \"MAILTO:organizer@domain.tld\","),
    (5, c!"},"),
    (4, c!"),"),
    (4, c!"url: None,"),
    (4, c!"attendee: ["),
    (5, c!"Uri {"),
    (6, c!"params: {},"),
    (6, c!"uri: \"MAILTO:attendee@domain.tld\","),
    (5, c!"},"),
    (4, c!"],"),
    (4, c!"comment: [],"),
    (4, c!"freebusy: ["),
    (5, c!"StartEnd("),
    (6, c!"StartEnd {"),
    (7, c!"start: Local("),
    (8, c!"2012-01-03T10:15:00+01:00,"),
    (7, c!"),"),
    (7, c!"end: Local("),
    (8, c!"2012-01-03T11:15:00+01:00,"),
    (7, c!"),"),
    (6, c!"},"),
    (5, c!"),"),
    (5, c!"StartEnd("),
    (6, c!"StartEnd {"),
    (7, c!"start: Local("),
    (8, c!"2012-01-13T14:00:00+01:00,"),
    (7, c!"),"),
    (7, c!"end: Local("),
    (8, c!"2012-01-13T16:00:00+01:00,"),
    (7, c!"),"),
    (6, c!"},"),
    (5, c!"),"),
    (5, c!"StartEnd("),
    (6, c!"StartEnd {"),
    (7, c!"start: Local("),
    (8, c!"2012-01-16T14:00:00+01:00,"),
    (7, c!"),"),
    (7, c!"end: Local("),
    (8, c!"2012-01-16T16:00:00+01:00,"),
    (7, c!"),"),
    (6, c!"},"),
    (5, c!"),"),
    (5, c!"StartEnd("),
    (6, c!"StartEnd {"),
    (7, c!"start: Local("),
    (8, c!"2012-01-17T10:15:00+01:00,"),
    (7, c!"),"),
    (7, c!"end: Local("),
    (8, c!"2012-01-17T11:15:00+01:00,"),
    (7, c!"),"),
    (6, c!"},"),
    (5, c!"),"),
    (5, c!"StartEnd("),
    (6, c!"StartEnd {"),
    (7, c!"start: Local("),
    (8, c!"2012-01-18T17:00:00+01:00,"),
    (7, c!"),"),
    (7, c!"end: Local("),
    (8, c!"2012-01-18T17:30:00+01:00,"),
    (7, c!"),"),
    (6, c!"},"),
    (5, c!"),"),
    (5, c!"StartEnd("),
    (6, c!"StartEnd {"),
    (7, c!"start: Local("),
    (8, c!"2012-01-24T09:30:00+01:00,"),
    (7, c!"),"),
    (7, c!"end: Local("),
    (8, c!"2012-01-24T10:30:00+01:00,"),
    (7, c!"),"),
    (6, c!"},"),
    (5, c!"),"),
    (5, c!"StartEnd("),
    (6, c!"StartEnd {"),
    (7, c!"start: Local("),
    (8, c!"2012-01-24T13:30:00+01:00,"),
    (7, c!"),"),
    (7, c!"end: Local("),
    (8, c!"2012-01-24T15:30:00+01:00,"),
    (7, c!"),"),
    (6, c!"},"),
    (5, c!"),"),
    (5, c!"StartEnd("),
    (6, c!"StartEnd {"),
    (7, c!"start: Local("),
    (8, c!"2012-01-31T10:15:00+01:00,"),
    (7, c!"),"),
    (7, c!"end: Local("),
    (8, c!"2012-01-31T11:15:00+01:00,"),
    (7, c!"),"),
    (6, c!"},"),
    (5, c!"),"),
    (4, c!"],"),
    (4, c!"rstatus: [],"),
    (4, c!"x_prop: {},"),
    (4, c!"iana_prop: {},"),
    (3, c!"},"),
    (2, c!"],"),
    (2, c!"journals: [],"),
    (2, c!"todo: [],"),
    (2, c!"timezones: [],"),
    (2, c!"x_prop: {},"),
    (2, c!"iana_prop: {},"),
    (1, c!"},"),
    (0, c!")")] := by decide +kernel

/-- `tests/calendars/issue_322_expected_calendar.ics` and `tests/calendars/issue_322_expected_calendar.out`. -/
example : shown VCalendar.ofStr (crlf [c!"BEGIN:VCALENDAR",
    c!"VERSION:2.0",
    c!"PRODID:collective/icalendar",
    c!"BEGIN:VEVENT",
    c!"DTSTAMP:20221108T080105Z",
    c!"DTSTART:20220101",
    c!"UID:636a0cc1dbd5a1667894465@icalendar",
    c!"SUMMARY:Event with bare string as argument for categories",
    c!"CATEGORIES:Lecture",
    c!"END:VEVENT",
    c!"END:VCALENDAR",
    c!""]) =
    some [
    (0, c!"Ok("),
    (1, c!"VCalendar {"),
    (2, c!"prodid: Text {"),
    (3, c!"params: {},"),
    (3, c!"text: \"collective/icalendar\","),
    (2, c!"},"),
    (2, c!"version: Text {"),
    (3, c!"params: {},"),
    (3, c!"text: \"2.0\","),
    (2, c!"},"),
    (2, c!"calscale: None,"),
    (2, c!"method: None,"),
    (2, c!"alarms: [],"),
    (2, c!"events: ["),
    (3, c!"VEvent {"),
    (4, c!"dtstamp: Local("),
    (5, c!"2022-11-08T09:01:05+01:00,"),
    (4, c!"),"),
    (4, c!"uid: Text {"),
    (5, c!"params: {},"),
    (5, c!"text: \"636a0cc1dbd5a1667894465@icalendar\","),
    (4, c!"},"),
    (4, c!"dtstart: Date("),
    (5, c!"2022-01-01,"),
    (4, c!"),"),
    (4, c!"class: None,"),
    (4, c!"created: None,"),
    (4, c!"description: None,"),
    (4, c!"geo: None,"),
    (4, c!"last_modified: None,"),
    (4, c!"location: None,"),
    (4, c!"organizer: None,"),
    (4, c!"priority: None,"),
    (4, c!"sequence: None,"),
    (4, c!"status: None,"),
    (4, c!"summary: Some("),
    (5, c!"Text {"),
    (6, c!"params: {},"),
    (6, c!"text: \"Event with bare string as argument for categories\","),
    (5, c!"},"),
    (4, c!"),"),
    (4, c!"transp: None,"),
    (4, c!"url: None,"),
    (4, c!"recurid: None,"),
    (4, c!"rrule: None,"),
    (4, c!"dtend: None,"),
    (4, c!"duration: None,"),
    (4, c!"attach: [],"),
    (4, c!"attendee: [],"),
    (4, c!"categories: ["),
    (5, c!"Text {"),
    (6, c!"params: {},"),
    (6, c!"text: \"Lecture\","),
    (5, c!"},"),
    (4, c!"],"),
    (4, c!"comment: [],"),
    (4, c!"contact: [],"),
    (4, c!"exdate: [],"),
    (4, c!"rstatus: [],"),
    (4, c!"related_to: [],"),
    (4, c!"resources: [],"),
    (4, c!"rdate: [],"),
    (4, c!"alarms: [],"),
    (4, c!"x_prop: {},"),
    (4, c!"iana_prop: {},"),
    (3, c!"},"),
    (2, c!"],"),
    (2, c!"freebusy: [],"),
    (2, c!"journals: [],"),
    (2, c!"todo: [],"),
    (2, c!"timezones: [],"),
    (2, c!"x_prop: {},"),
    (2, c!"iana_prop: {},"),
    (1, c!"},"),
    (0, c!")")] := by decide +kernel

/-- `tests/calendars/issue_348_exception_parsing_value.ics`, which must be rejected. -/
example : shown VCalendar.ofStr (crlf [c!"BEGIN:VCALENDAR",
    c!"CALSCALE:GREGORIAN",
    c!"METHOD:PUBLISH",
    c!"VERSION:2.0",
    c!"PRODID:-//Sixt//RAC//EN",
    c!"BEGIN:VFREEBUSY",
    c!"FREEBUSY;FBTYPE=FREE:20190624T063000Z/20190624T163000Z",
    c!"ORGANIZER;CN=Sixt SE",
    c!"X-ORGANIZER2;CN=Sixt SE;CN2=Test!",
    c!"UID:SIXT_9879691160",
    c!"DTSTAMP:20190612T104813Z",
    c!"END:VFREEBUSY",
    c!"BEGIN:VEVENT",
    c!"CLASS:PUBLIC",
    c!"DESCRIPTION:\\nVotre véhicule avec le numéro de réservation xxxxxxxxxxx sera à votre disposition le 24.06.2019 à 08:30 heures (heure locale). Retour prévu : Ferney-Voltaire AP de Genève Cointrin Sect(F), le 24.06.2019 à 18:30 heures.\\nVous trouverez des informations relatives à la modification ou à  l'annulation de votre réservation sous http://www.sixt.fr\\n",
    c!"DTSTART:20190624T063000Z",
    c!"DTSTAMP:20190612T104813Z",
    c!"DTEND:20190624T163000Z",
    c!"LOCATION:Sixt Genève Aéroport secteur France, AP de Genève Cointrin Sect(F), 01210 Ferney-Voltaire, FR",
    c!"PRIORITY:5",
    c!"TRANSP:TRANSPARENT",
    c!"SEQUENCE:0",
    c!"STATUS:CONFIRMED",
    c!"SUMMARY:Sixt : détails de votre réservation",
    c!"UID:SIXT_9879691160",
    c!"BEGIN:VALARM",
    c!"TRIGGER:-PT30M",
    c!"ACTION:DISPLAY",
    c!"DESCRIPTION:\\nLe véhicule avec la n° de réservation xxxxxxxxxxx sera à votre disposition entre 24.06.2019 et 08:30 heures (heure locale) à l'agence Genève Aéroport secteur France. Retour prévu : Ferney-Voltaire AP de Genève Cointrin Sect(F), le 24.06.2019 à 18:30 heures.\\nTrouver des informations de localisation et modifier / annuler votre  réservation ici: http://www.sixt.fr\\n",
    c!"END:VALARM",
    c!"END:VEVENT",
    c!"END:VCALENDAR",
    c!""]) =
    none := by decide +kernel

/-- `tests/calendars/issue_466_convert_tzid_with_slash.ics` and `tests/calendars/issue_466_convert_tzid_with_slash.out`. -/
example : shown VCalendar.ofStr (crlf [c!"BEGIN:VCALENDAR",
    c!"VERSION:2.0",
    c!"PRODID:collective/icalendar",
    c!"BEGIN:VEVENT",
    c!"UID:0cab49a0-1167-40f0-bfed-ecb4d117047d",
    c!"DTSTAMP:20221019T102950Z",
    c!"DTSTART;TZID=/Europe/Stockholm:20221021T200000",
    c!"DTEND;TZID=/Europe/Stockholm:20221021T210000",
    c!"SUMMARY:Just chatting",
    c!"DESCRIPTION:Just Chatting.",
    c!"CATEGORIES:Just Chatting",
    c!"RRULE:FREQ=WEEKLY;BYDAY=FR",
    c!"END:VEVENT",
    c!"END:VCALENDAR",
    c!""]) =
    some [
    (0, c!"Ok("),
    (1, c!"VCalendar {"),
    (2, c!"prodid: Text {"),
    (3, c!"params: {},"),
    (3, c!"text: \"collective/icalendar\","),
    (2, c!"},"),
    (2, c!"version: Text {"),
    (3, c!"params: {},"),
    (3, c!"text: \"2.0\","),
    (2, c!"},"),
    (2, c!"calscale: None,"),
    (2, c!"method: None,"),
    (2, c!"alarms: [],"),
    (2, c!"events: ["),
    (3, c!"VEvent {"),
    (4, c!"dtstamp: Local("),
    (5, c!"2022-10-19T12:29:50+02:00,"),
    (4, c!"),"),
    (4, c!"uid: Text {"),
    (5, c!"params: {},"),
    (5, c!"text: \"0cab49a0-1167-40f0-bfed-ecb4d117047d\","),
    (4, c!"},"),
    (4, c!"dtstart: DateTime("),
    (5, c!"Naive("),
    (6, c!"2022-10-21T20:00:00,"),
    (5, c!"),"),
    (4, c!"),"),
    (4, c!"class: None,"),
    (4, c!"created: None,"),
    (4, c!"description: Some("),
    (5, c!"Text {"),
    (6, c!"params: {},"),
    (6, c!"text: \"Just Chatting.\","),
    (5, c!"},"),
    (4, c!"),"),
    (4, c!"geo: None,"),
    (4, c!"last_modified: None,"),
    (4, c!"location: None,"),
    (4, c!"organizer: None,"),
    (4, c!"priority: None,"),
    (4, c!"sequence: None,"),
    (4, c!"status: None,"),
    (4, c!"summary: Some("),
    (5, c!"Text {"),
    (6, c!"params: {},"),
    (6, c!"text: \"Just chatting\","),
    (5, c!"},"),
    (4, c!"),"),
    (4, c!"transp: None,"),
    (4, c!"url: None,"),
    (4, c!"recurid: None,"),
    (4, c!"rrule: Some("),
    (5, c!"Recur {"),
    (6, c!"freq: Weekly,"),
    (6, c!"until: None,"),
    (6, c!"count: None,"),
    (6, c!"interval: 1,"),
    (6, c!"by_second: [],"),
    (6, c!"by_minute: [],"),
    (6, c!"by_hour: [],"),
    (6, c!"by_day: ["),
    (7, c!"WeekdayNum {"),
    (8, c!"weekday: Friday,"),
    (8, c!"ord: None,"),
    (7, c!"},"),
    (6, c!"],"),
    (6, c!"by_monthday: [],"),
    (6, c!"by_yearday: [],"),
    (6, c!"by_weekno: [],"),
    (6, c!"by_month: [],"),
    (6, c!"by_setpos: [],"),
    (6, c!"wkst: None,"),
    (5, c!"},"),
    (4, c!"),"),
    (4, c!"dtend: Some("),
    (5, c!"DateTime("),
    (6, c!"Naive("),
    (7, c!"2022-10-21T21:00:00,"),
    (6, c!"),"),
    (5, c!"),"),
    (4, c!"),"),
    (4, c!"duration: None,"),
    (4, c!"attach: [],"),
    (4, c!"attendee: [],"),
    (4, c!"categories: ["),
    (5, c!"Text {"),
    (6, c!"params: {},"),
    (6, c!"text: \"Just Chatting\","),
    (5, c!"},"),
    (4, c!"],"),
    (4, c!"comment: [],"),
    (4, c!"contact: [],"),
    (4, c!"exdate: [],"),
    (4, c!"rstatus: [],"),
    (4, c!"related_to: [],"),
    (4, c!"resources: [],"),
    (4, c!"rdate: [],"),
    (4, c!"alarms: [],"),
    (4, c!"x_prop: {},"),
    (4, c!"iana_prop: {},"),
    (3, c!"},"),
    (2, c!"],"),
    (2, c!"freebusy: [],"),
    (2, c!"journals: [],"),
    (2, c!"todo: [],"),
    (2, c!"timezones: [],"),
    (2, c!"x_prop: {},"),
    (2, c!"iana_prop: {},"),
    (1, c!"},"),
    (0, c!")")] := by decide +kernel

/-- `tests/calendars/issue_466_respect_unique_timezone.ics` and `tests/calendars/issue_466_respect_unique_timezone.out`. -/
example : shown VCalendar.ofStr (crlf [c!"BEGIN:VCALENDAR",
    c!"VERSION:2.0",
    c!"PRODID:collective/icalendar",
    c!"BEGIN:VTIMEZONE",
    c!"TZID:/Europe/CUSTOM",
    c!"BEGIN:DAYLIGHT",
    c!"TZOFFSETFROM:+0100",
    c!"TZOFFSETTO:+0200",
    c!"TZNAME:CEST",
    c!"DTSTART:19700329T020000",
    c!"RRULE:FREQ=YEARLY;BYMONTH=3;BYDAY=-1SU",
    c!"END:DAYLIGHT",
    c!"BEGIN:STANDARD",
    c!"TZOFFSETFROM:+0200",
    c!"TZOFFSETTO:+0100",
    c!"TZNAME:CET",
    c!"DTSTART:19701025T030000",
    c!"RRULE:FREQ=YEARLY;BYMONTH=10;BYDAY=-1SU",
    c!"END:STANDARD",
    c!"END:VTIMEZONE",
    c!"BEGIN:VEVENT",
    c!"UID:0cab49a0-1167-40f0-bfed-ecb4d117047d",
    c!"DTSTAMP:20221019T102950Z",
    c!"DTSTART;TZID=/Europe/CUSTOM:20221021T200000",
    c!"DTEND;TZID=/Europe/CUSTOM:20221021T210000",
    c!"SUMMARY:Just chatting",
    c!"DESCRIPTION:Just Chatting.",
    c!"CATEGORIES:Just Chatting",
    c!"RRULE:FREQ=WEEKLY;BYDAY=FR",
    c!"END:VEVENT",
    c!"END:VCALENDAR",
    c!""]) =
    some [
    (0, c!"Ok("),
    (1, c!"VCalendar {"),
    (2, c!"prodid: Text {"),
    (3, c!"params: {},"),
    (3, c!"text: \"collective/icalendar\","),
    (2, c!"},"),
    (2, c!"version: Text {"),
    (3, c!"params: {},"),
    (3, c!"text: \"2.0\","),
    (2, c!"},"),
    (2, c!"calscale: None,"),
    (2, c!"method: None,"),
    (2, c!"alarms: [],"),
    (2, c!"events: ["),
    (3, c!"VEvent {"),
    (4, c!"dtstamp: Local("),
    (5, c!"2022-10-19T12:29:50+02:00,"),
    (4, c!"),"),
    (4, c!"uid: Text {"),
    (5, c!"params: {},"),
    (5, c!"text: \"0cab49a0-1167-40f0-bfed-ecb4d117047d\","),
    (4, c!"},"),
    (4, c!"dtstart: DateTime("),
    (5, c!"Naive("),
    (6, c!"2022-10-21T20:00:00,"),
    (5, c!"),"),
    (4, c!"),"),
    (4, c!"class: None,"),
    (4, c!"created: None,"),
    (4, c!"description: Some("),
    (5, c!"Text {"),
    (6, c!"params: {},"),
    (6, c!"text: \"Just Chatting.\","),
    (5, c!"},"),
    (4, c!"),"),
    (4, c!"geo: None,"),
    (4, c!"last_modified: None,"),
    (4, c!"location: None,"),
    (4, c!"organizer: None,"),
    (4, c!"priority: None,"),
    (4, c!"sequence: None,"),
    (4, c!"status: None,"),
    (4, c!"summary: Some("),
    (5, c!"Text {"),
    (6, c!"params: {},"),
    (6, c!"text: \"Just chatting\","),
    (5, c!"},"),
    (4, c!"),"),
    (4, c!"transp: None,"),
    (4, c!"url: None,"),
    (4, c!"recurid: None,"),
    (4, c!"rrule: Some("),
    (5, c!"Recur {"),
    (6, c!"freq: Weekly,"),
    (6, c!"until: None,"),
    (6, c!"count: None,"),
    (6, c!"interval: 1,"),
    (6, c!"by_second: [],"),
    (6, c!"by_minute: [],"),
    (6, c!"by_hour: [],"),
    (6, c!"by_day: ["),
    (7, c!"WeekdayNum {"),
    (8, c!"weekday: Friday,"),
    (8, c!"ord: None,"),
    (7, c!"},"),
    (6, c!"],"),
    (6, c!"by_monthday: [],"),
    (6, c!"by_yearday: [],"),
    (6, c!"by_weekno: [],"),
    (6, c!"by_month: [],"),
    (6, c!"by_setpos: [],"),
    (6, c!"wkst: None,"),
    (5, c!"},"),
    (4, c!"),"),
    (4, c!"dtend: Some("),
    (5, c!"DateTime("),
    (6, c!"Naive("),
    (7, c!"2022-10-21T21:00:00,"),
    (6, c!"),"),
    (5, c!"),"),
    (4, c!"),"),
    (4, c!"duration: None,"),
    (4, c!"attach: [],"),
    (4, c!"attendee: [],"),
    (4, c!"categories: ["),
    (5, c!"Text {"),
    (6, c!"params: {},"),
    (6, c!"text: \"Just Chatting\","),
    (5, c!"},"),
    (4, c!"],"),
    (4, c!"comment: [],"),
    (4, c!"contact: [],"),
    (4, c!"exdate: [],"),
    (4, c!"rstatus: [],"),
    (4, c!"related_to: [],"),
    (4, c!"resources: [],"),
    (4, c!"rdate: [],"),
    (4, c!"alarms: [],"),
    (4, c!"x_prop: {},"),
    (4, c!"iana_prop: {},"),
    (3, c!"},"),
    (2, c!"],"),
    (2, c!"freebusy: [],"),
    (2, c!"journals: [],"),
    (2, c!"todo: [],"),
    (2, c!"timezones: ["),
    (3, c!"VTimezone {"),
    (4, c!"tzid: Text {"),
    (5, c!"params: {},"),
    (5, c!"text: \"/Europe/CUSTOM\","),
    (4, c!"},"),
    (4, c!"last_modified: None,"),
    (4, c!"tzurl: None,"),
    (4, c!"standard: ["),
    (5, c!"Standard {"),
    (6, c!"dtstart: DateTime("),
    (7, c!"Naive("),
    (8, c!"1970-10-25T03:00:00,"),
    (7, c!"),"),
    (6, c!"),"),
    (6, c!"tzoffsetto: +01:00,"),
    (6, c!"tzoffsetfrom: +02:00,"),
    (6, c!"rrule: Some("),
    (7, c!"Recur {"),
    (8, c!"freq: Yearly,"),
    (8, c!"until: None,"),
    (8, c!"count: None,"),
    (8, c!"interval: 1,"),
    (8, c!"by_second: [],"),
    (8, c!"by_minute: [],"),
    (8, c!"by_hour: [],"),
    (8, c!"by_day: ["),
    (9, c!"WeekdayNum {"),
    (10, c!"weekday: Sunday,"),
    (10, c!"ord: Some("),
    (11, c!"-1,"),
    (10, c!"),"),
    (9, c!"},"),
    (8, c!"],"),
    (8, c!"by_monthday: [],"),
    (8, c!"by_yearday: [],"),
    (8, c!"by_weekno: [],"),
    (8, c!"by_month: ["),
    (9, c!"10,"),
    (8, c!"],"),
    (8, c!"by_setpos: [],"),
    (8, c!"wkst: None,"),
    (7, c!"},"),
    (6, c!"),"),
    (6, c!"comment: [],"),
    (6, c!"rdate: [],"),
    (6, c!"tzname: ["),
    (7, c!"Text {"),
    (8, c!"params: {},"),
    (8, c!"text: \"CET\","),
    (7, c!"},"),
    (6, c!"],"),
    (6, c!"x_prop: {},"),
    (6, c!"iana_prop: {},"),
    (5, c!"},"),
    (4, c!"],"),
    (4, c!"daylight: ["),
    (5, c!"Daylight {"),
    (6, c!"dtstart: DateTime("),
    (7, c!"Naive("),
    (8, c!"1970-03-29T02:00:00,"),
    (7, c!"),"),
    (6, c!"),"),
    (6, c!"tzoffsetto: +02:00,"),
    (6, c!"tzoffsetfrom: +01:00,"),
    (6, c!"rrule: Some("),
    (7, c!"Recur {"),
    (8, c!"freq: Yearly,"),
    (8, c!"until: None,"),
    (8, c!"count: None,"),
    (8, c!"interval: 1,"),
    (8, c!"by_second: [],"),
    (8, c!"by_minute: [],"),
    (8, c!"by_hour: [],"),
    (8, c!"by_day: ["),
    (9, c!"WeekdayNum {"),
    (10, c!"weekday: Sunday,"),
    (10, c!"ord: Some("),
    (11, c!"-1,"),
    (10, c!"),"),
    (9, c!"},"),
    (8, c!"],"),
    (8, c!"by_monthday: [],"),
    (8, c!"by_yearday: [],"),
    (8, c!"by_weekno: [],"),
    (8, c!"by_month: ["),
    (9, c!"3,"),
    (8, c!"],"),
    (8, c!"by_setpos: [],"),
    (8, c!"wkst: None,"),
    (7, c!"},"),
    (6, c!"),"),
    (6, c!"comment: [],"),
    (6, c!"rdate: [],"),
    (6, c!"tzname: ["),
    (7, c!"Text {"),
    (8, c!"params: {},"),
    (8, c!"text: \"CEST\","),
    (7, c!"},"),
    (6, c!"],"),
    (6, c!"x_prop: {},"),
    (6, c!"iana_prop: {},"),
    (5, c!"},"),
    (4, c!"],"),
    (4, c!"x_prop: {},"),
    (4, c!"iana_prop: {},"),
    (3, c!"},"),
    (2, c!"],"),
    (2, c!"x_prop: {},"),
    (2, c!"iana_prop: {},"),
    (1, c!"},"),
    (0, c!")")] := by decide +kernel

/-- `tests/calendars/issue_526_calendar_with_different_events.ics` and `tests/calendars/issue_526_calendar_with_different_events.out`. -/
example : shown VCalendar.ofStr (crlf [c!"BEGIN:VCALENDAR",
    c!"VERSION:2.0",
    c!"PRODID:icalendar-2023",
    c!"BEGIN:VEVENT",
    c!"UID:ical-jacadzaca-3",
    c!"SUMMARY: Some very different event ':'",
    c!"DTSTART;TZID=\"Western/Central Europe\";VALUE=DATE-TIME:20211101T160000",
    c!"DTEND;TZID=\"Western/Central Europe\";VALUE=DATE-TIME:20211101T163000",
    c!"DTSTAMP:20211004T150245Z",
    c!"END:VEVENT",
    c!"BEGIN:VEVENT",
    c!"UID:ical-jacadzaca-4",
    c!"SUMMARY: Some very different other event",
    c!"DTSTART;TZID=\"Western/Central Europe\";VALUE=DATE-TIME:20211101T164000",
    c!"DTEND;TZID=\"Western/Central Europe\";VALUE=DATE-TIME:20211101T165000",
    c!"DTSTAMP:20211004T150245Z",
    c!"END:VEVENT",
    c!"END:VCALENDAR",
    c!""]) =
    some [
    (0, c!"Ok("),
    (1, c!"VCalendar {"),
    (2, c!"prodid: Text {"),
    (3, c!"params: {},"),
    (3, c!"text: \"icalendar-2023\","),
    (2, c!"},"),
    (2, c!"version: Text {"),
    (3, c!"params: {},"),
    (3, c!"text: \"2.0\","),
    (2, c!"},"),
    (2, c!"calscale: None,"),
    (2, c!"method: None,"),
    (2, c!"alarms: [],"),
    (2, c!"events: ["),
    (3, c!"VEvent {"),
    (4, c!"dtstamp: Local("),
    (5, c!"2021-10-04T17:02:45+02:00,"),
    (4, c!"),"),
    (4, c!"uid: Text {"),
    (5, c!"params: {},"),
    (5, c!"text: \"ical-jacadzaca-3\","),
    (4, c!"},"),
    (4, c!"dtstart: DateTime("),
    (5, c!"Naive("),
    (6, c!"2021-11-01T16:00:00,"),
    (5, c!"),"),
    (4, c!"),"),
    (4, c!"class: None,"),
    (4, c!"created: None,"),
    (4, c!"description: None,"),
    (4, c!"geo: None,"),
    (4, c!"last_modified: None,"),
    (4, c!"location: None,"),
    (4, c!"organizer: None,"),
    (4, c!"priority: None,"),
    (4, c!"sequence: None,"),
    (4, c!"status: None,"),
    (4, c!"summary: Some("),
    (5, c!"Text {"),
    (6, c!"params: {},"),
    (6, c!"text: \" Some very different event ':'\","),
    (5, c!"},"),
    (4, c!"),"),
    (4, c!"transp: None,"),
    (4, c!"url: None,"),
    (4, c!"recurid: None,"),
    (4, c!"rrule: None,"),
    (4, c!"dtend: Some("),
    (5, c!"DateTime("),
    (6, c!"Naive("),
    (7, c!"2021-11-01T16:30:00,"),
    (6, c!"),"),
    (5, c!"),"),
    (4, c!"),"),
    (4, c!"duration: None,"),
    (4, c!"attach: [],"),
    (4, c!"attendee: [],"),
    (4, c!"categories: [],"),
    (4, c!"comment: [],"),
    (4, c!"contact: [],"),
    (4, c!"exdate: [],"),
    (4, c!"rstatus: [],"),
    (4, c!"related_to: [],"),
    (4, c!"resources: [],"),
    (4, c!"rdate: [],"),
    (4, c!"alarms: [],"),
    (4, c!"x_prop: {},"),
    (4, c!"iana_prop: {},"),
    (3, c!"},"),
    (3, c!"VEvent {"),
    (4, c!"dtstamp: Local("),
    (5, c!"2021-10-04T17:02:45+02:00,"),
    (4, c!"),"),
    (4, c!"uid: Text {"),
    (5, c!"params: {},"),
    (5, c!"text: \"ical-jacadzaca-4\","),
    (4, c!"},"),
    (4, c!"dtstart: DateTime("),
    (5, c!"Naive("),
    (6, c!"2021-11-01T16:40:00,"),
    (5, c!"),"),
    (4, c!"),"),
    (4, c!"class: None,"),
    (4, c!"created: None,"),
    (4, c!"description: None,"),
    (4, c!"geo: None,"),
    (4, c!"last_modified: None,"),
    (4, c!"location: None,"),
    (4, c!"organizer: None,"),
    (4, c!"priority: None,"),
    (4, c!"sequence: None,"),
    (4, c!"status: None,"),
    (4, c!"summary: Some("),
    (5, c!"Text {"),
    (6, c!"params: {},"),
    (6, c!"text: \" Some very different other event\","),
    (5, c!"},"),
    (4, c!"),"),
    (4, c!"transp: None,"),
    (4, c!"url: None,"),
    (4, c!"recurid: None,"),
    (4, c!"rrule: None,"),
    (4, c!"dtend: Some("),
    (5, c!"DateTime("),
    (6, c!"Naive("),
    (7, c!"2021-11-01T16:50:00,"),
    (6, c!"),"),
    (5, c!"),"),
    (4, c!"),"),
    (4, c!"duration: None,"),
    (4, c!"attach: [],"),
    (4, c!"attendee: [],"),
    (4, c!"categories: [],"),
    (4, c!"comment: [],"),
    (4, c!"contact: [],"),
    (4, c!"exdate: [],"),
    (4, c!"rstatus: [],"),
    (4, c!"related_to: [],"),
    (4, c!"resources: [],"),
    (4, c!"rdate: [],"),
    (4, c!"alarms: [],"),
    (4, c!"x_prop: {},"),
    (4, c!"iana_prop: {},"),
    (3, c!"},"),
    (2, c!"],"),
    (2, c!"freebusy: [],"),
    (2, c!"journals: [],"),
    (2, c!"todo: [],"),
    (2, c!"timezones: [],"),
    (2, c!"x_prop: {},"),
    (2, c!"iana_prop: {},"),
    (1, c!"},"),
    (0, c!")")] := by decide +kernel

/-- `tests/calendars/issue_526_calendar_with_event_subset.ics` and `tests/calendars/issue_526_calendar_with_event_subset.out`. -/
example : shown VCalendar.ofStr (crlf [c!"BEGIN:VCALENDAR",
    c!"VERSION:2.0",
    c!"PRODID:icalendar-2023",
    c!"BEGIN:VEVENT",
    c!"UID:1",
    c!"SUMMARY: Some event ':'",
    c!"DTSTART;TZID=\"Western/Central Europe\";VALUE=DATE-TIME:20211101T160000",
    c!"DTEND;TZID=\"Western/Central Europe\";VALUE=DATE-TIME:20211101T163000",
    c!"DTSTAMP:20211004T150245Z",
    c!"END:VEVENT",
    c!"END:VCALENDAR",
    c!""]) =
    some [
    (0, c!"Ok("),
    (1, c!"VCalendar {"),
    (2, c!"prodid: Text {"),
    (3, c!"params: {},"),
    (3, c!"text: \"icalendar-2023\","),
    (2, c!"},"),
    (2, c!"version: Text {"),
    (3, c!"params: {},"),
    (3, c!"text: \"2.0\","),
    (2, c!"},"),
    (2, c!"calscale: None,"),
    (2, c!"method: None,"),
    (2, c!"alarms: [],"),
    (2, c!"events: ["),
    (3, c!"VEvent {"),
    (4, c!"dtstamp: Local("),
    (5, c!"2021-10-04T17:02:45+02:00,"),
    (4, c!"),"),
    (4, c!"uid: Text {"),
    (5, c!"params: {},"),
    (5, c!"text: \"1\","),
    (4, c!"},"),
    (4, c!"dtstart: DateTime("),
    (5, c!"Naive("),
    (6, c!"2021-11-01T16:00:00,"),
    (5, c!"),"),
    (4, c!"),"),
    (4, c!"class: None,"),
    (4, c!"created: None,"),
    (4, c!"description: None,"),
    (4, c!"geo: None,"),
    (4, c!"last_modified: None,"),
    (4, c!"location: None,"),
    (4, c!"organizer: None,"),
    (4, c!"priority: None,"),
    (4, c!"sequence: None,"),
    (4, c!"status: None,"),
    (4, c!"summary: Some("),
    (5, c!"Text {"),
    (6, c!"params: {},"),
    (6, c!"text: \" Some event ':'\","),
    (5, c!"},"),
    (4, c!"),"),
    (4, c!"transp: None,"),
    (4, c!"url: None,"),
    (4, c!"recurid: None,"),
    (4, c!"rrule: None,"),
    (4, c!"dtend: Some("),
    (5, c!"DateTime("),
    (6, c!"Naive("),
    (7, c!"2021-11-01T16:30:00,"),
    (6, c!"),"),
    (5, c!"),"),
    (4, c!"),"),
    (4, c!"duration: None,"),
    (4, c!"attach: [],"),
    (4, c!"attendee: [],"),
    (4, c!"categories: [],"),
    (4, c!"comment: [],"),
    (4, c!"contact: [],"),
    (4, c!"exdate: [],"),
    (4, c!"rstatus: [],"),
    (4, c!"related_to: [],"),
    (4, c!"resources: [],"),
    (4, c!"rdate: [],"),
    (4, c!"alarms: [],"),
    (4, c!"x_prop: {},"),
    (4, c!"iana_prop: {},"),
    (3, c!"},"),
    (2, c!"],"),
    (2, c!"freebusy: [],"),
    (2, c!"journals: [],"),
    (2, c!"todo: [],"),
    (2, c!"timezones: [],"),
    (2, c!"x_prop: {},"),
    (2, c!"iana_prop: {},"),
    (1, c!"},"),
    (0, c!")")] := by decide +kernel

/-- `tests/calendars/issue_526_calendar_with_events.ics` and `tests/calendars/issue_526_calendar_with_events.out`. -/
example : shown VCalendar.ofStr (crlf [c!"BEGIN:VCALENDAR",
    c!"VERSION:2.0",
    c!"PRODID:icalendar-2023",
    c!"BEGIN:VEVENT",
    c!"UID:1",
    c!"SUMMARY: Some event ':'",
    c!"DTSTART;TZID=\"Western/Central Europe\";VALUE=DATE-TIME:20211101T160000",
    c!"DTEND;TZID=\"Western/Central Europe\";VALUE=DATE-TIME:20211101T163000",
    c!"DTSTAMP:20211004T150245Z",
    c!"END:VEVENT",
    c!"BEGIN:VEVENT",
    c!"UID:2",
    c!"SUMMARY: Some other event",
    c!"DTSTART;TZID=\"Western/Central Europe\";VALUE=DATE-TIME:20211101T164000",
    c!"DTEND;TZID=\"Western/Central Europe\";VALUE=DATE-TIME:20211101T165000",
    c!"DTSTAMP:20211004T150245Z",
    c!"END:VEVENT",
    c!"END:VCALENDAR",
    c!""]) =
    some [
    (0, c!"Ok("),
    (1, c!"VCalendar {"),
    (2, c!"prodid: Text {"),
    (3, c!"params: {},"),
    (3, c!"text: \"icalendar-2023\","),
    (2, c!"},"),
    (2, c!"version: Text {"),
    (3, c!"params: {},"),
    (3, c!"text: \"2.0\","),
    (2, c!"},"),
    (2, c!"calscale: None,"),
    (2, c!"method: None,"),
    (2, c!"alarms: [],"),
    (2, c!"events: ["),
    (3, c!"VEvent {"),
    (4, c!"dtstamp: Local("),
    (5, c!"2021-10-04T17:02:45+02:00,"),
    (4, c!"),"),
    (4, c!"uid: Text {"),
    (5, c!"params: {},"),
    (5, c!"text: \"1\","),
    (4, c!"},"),
    (4, c!"dtstart: DateTime("),
    (5, c!"Naive("),
    (6, c!"2021-11-01T16:00:00,"),
    (5, c!"),"),
    (4, c!"),"),
    (4, c!"class: None,"),
    (4, c!"created: None,"),
    (4, c!"description: None,"),
    (4, c!"geo: None,"),
    (4, c!"last_modified: None,"),
    (4, c!"location: None,"),
    (4, c!"organizer: None,"),
    (4, c!"priority: None,"),
    (4, c!"sequence: None,"),
    (4, c!"status: None,"),
    (4, c!"summary: Some("),
    (5, c!"Text {"),
    (6, c!"params: {},"),
    (6, c!"text: \" Some event ':'\","),
    (5, c!"},"),
    (4, c!"),"),
    (4, c!"transp: None,"),
    (4, c!"url: None,"),
    (4, c!"recurid: None,"),
    (4, c!"rrule: None,"),
    (4, c!"dtend: Some("),
    (5, c!"DateTime("),
    (6, c!"Naive("),
    (7, c!"2021-11-01T16:30:00,"),
    (6, c!"),"),
    (5, c!"),"),
    (4, c!"),"),
    (4, c!"duration: None,"),
    (4, c!"attach: [],"),
    (4, c!"attendee: [],"),
    (4, c!"categories: [],"),
    (4, c!"comment: [],"),
    (4, c!"contact: [],"),
    (4, c!"exdate: [],"),
    (4, c!"rstatus: [],"),
    (4, c!"related_to: [],"),
    (4, c!"resources: [],"),
    (4, c!"rdate: [],"),
    (4, c!"alarms: [],"),
    (4, c!"x_prop: {},"),
    (4, c!"iana_prop: {},"),
    (3, c!"},"),
    (3, c!"VEvent {"),
    (4, c!"dtstamp: Local("),
    (5, c!"2021-10-04T17:02:45+02:00,"),
    (4, c!"),"),
    (4, c!"uid: Text {"),
    (5, c!"params: {},"),
    (5, c!"text: \"2\","),
    (4, c!"},"),
    (4, c!"dtstart: DateTime("),
    (5, c!"Naive("),
    (6, c!"2021-11-01T16:40:00,"),
    (5, c!"),"),
    (4, c!"),"),
    (4, c!"class: None,"),
    (4, c!"created: None,"),
    (4, c!"description: None,"),
    (4, c!"geo: None,"),
    (4, c!"last_modified: None,"),
    (4, c!"location: None,"),
    (4, c!"organizer: None,"),
    (4, c!"priority: None,"),
    (4, c!"sequence: None,"),
    (4, c!"status: None,"),
    (4, c!"summary: Some("),
    (5, c!"Text {"),
    (6, c!"params: {},"),
    (6, c!"text: \" Some other event\","),
    (5, c!"},"),
    (4, c!"),"),
    (4, c!"transp: None,"),
    (4, c!"url: None,"),
    (4, c!"recurid: None,"),
    (4, c!"rrule: None,"),
    (4, c!"dtend: Some("),
    (5, c!"DateTime("),
    (6, c!"Naive("),
    (7, c!"2021-11-01T16:50:00,"),
    (6, c!"),"),
    (5, c!"),"),
    (4, c!"),"),
    (4, c!"duration: None,"),
    (4, c!"attach: [],"),
    (4, c!"attendee: [],"),
    (4, c!"categories: [],"),
    (4, c!"comment: [],"),
    (4, c!"contact: [],"),
    (4, c!"exdate: [],"),
    (4, c!"rstatus: [],"),
    (4, c!"related_to: [],"),
    (4, c!"resources: [],"),
    (4, c!"rdate: [],"),
    (4, c!"alarms: [],"),
    (4, c!"x_prop: {},"),
    (4, c!"iana_prop: {},"),
    (3, c!"},"),
    (2, c!"],"),
    (2, c!"freebusy: [],"),
    (2, c!"journals: [],"),
    (2, c!"todo: [],"),
    (2, c!"timezones: [],"),
    (2, c!"x_prop: {},"),
    (2, c!"iana_prop: {},"),
    (1, c!"},"),
    (0, c!")")] := by decide +kernel

/-- `tests/calendars/issue_526_calendar_with_shuffeled_events.ics` and `tests/calendars/issue_526_calendar_with_shuffeled_events.out`. -/
example : shown VCalendar.ofStr (crlf [c!"BEGIN:VCALENDAR",
    c!"VERSION:2.0",
    c!"PRODID:icalendar-2023",
    c!"BEGIN:VEVENT",
    c!"UID:2",
    c!"SUMMARY: Some other event",
    c!"DTSTART;TZID=\"Western/Central Europe\";VALUE=DATE-TIME:20211101T164000",
    c!"DTEND;TZID=\"Western/Central Europe\";VALUE=DATE-TIME:20211101T165000",
    c!"DTSTAMP:20211004T150245Z",
    c!"END:VEVENT",
    c!"BEGIN:VEVENT",
    c!"UID:1",
    c!"SUMMARY: Some event ':'",
    c!"DTSTART;TZID=\"Western/Central Europe\";VALUE=DATE-TIME:20211101T160000",
    c!"DTEND;TZID=\"Western/Central Europe\";VALUE=DATE-TIME:20211101T163000",
    c!"DTSTAMP:20211004T150245Z",
    c!"END:VEVENT",
    c!"END:VCALENDAR",
    c!""]) =
    some [
    (0, c!"Ok("),
    (1, c!"VCalendar {"),
    (2, c!"prodid: Text {"),
    (3, c!"params: {},"),
    (3, c!"text: \"icalendar-2023\","),
    (2, c!"},"),
    (2, c!"version: Text {"),
    (3, c!"params: {},"),
    (3, c!"text: \"2.0\","),
    (2, c!"},"),
    (2, c!"calscale: None,"),
    (2, c!"method: None,"),
    (2, c!"alarms: [],"),
    (2, c!"events: ["),
    (3, c!"VEvent {"),
    (4, c!"dtstamp: Local("),
    (5, c!"2021-10-04T17:02:45+02:00,"),
    (4, c!"),"),
    (4, c!"uid: Text {"),
    (5, c!"params: {},"),
    (5, c!"text: \"2\","),
    (4, c!"},"),
    (4, c!"dtstart: DateTime("),
    (5, c!"Naive("),
    (6, c!"2021-11-01T16:40:00,"),
    (5, c!"),"),
    (4, c!"),"),
    (4, c!"class: None,"),
    (4, c!"created: None,"),
    (4, c!"description: None,"),
    (4, c!"geo: None,"),
    (4, c!"last_modified: None,"),
    (4, c!"location: None,"),
    (4, c!"organizer: None,"),
    (4, c!"priority: None,"),
    (4, c!"sequence: None,"),
    (4, c!"status: None,"),
    (4, c!"summary: Some("),
    (5, c!"Text {"),
    (6, c!"params: {},"),
    (6, c!"text: \" Some other event\","),
    (5, c!"},"),
    (4, c!"),"),
    (4, c!"transp: None,"),
    (4, c!"url: None,"),
    (4, c!"recurid: None,"),
    (4, c!"rrule: None,"),
    (4, c!"dtend: Some("),
    (5, c!"DateTime("),
    (6, c!"Naive("),
    (7, c!"2021-11-01T16:50:00,"),
    (6, c!"),"),
    (5, c!"),"),
    (4, c!"),"),
    (4, c!"duration: None,"),
    (4, c!"attach: [],"),
    (4, c!"attendee: [],"),
    (4, c!"categories: [],"),
    (4, c!"comment: [],"),
    (4, c!"contact: [],"),
    (4, c!"exdate: [],"),
    (4, c!"rstatus: [],"),
    (4, c!"related_to: [],"),
    (4, c!"resources: [],"),
    (4, c!"rdate: [],"),
    (4, c!"alarms: [],"),
    (4, c!"x_prop: {},"),
    (4, c!"iana_prop: {},"),
    (3, c!"},"),
    (3, c!"VEvent {"),
    (4, c!"dtstamp: Local("),
    (5, c!"2021-10-04T17:02:45+02:00,"),
    (4, c!"),"),
    (4, c!"uid: Text {"),
    (5, c!"params: {},"),
    (5, c!"text: \"1\","),
    (4, c!"},"),
    (4, c!"dtstart: DateTime("),
    (5, c!"Naive("),
    (6, c!"2021-11-01T16:00:00,"),
    (5, c!"),"),
    (4, c!"),"),
    (4, c!"class: None,"),
    (4, c!"created: None,"),
    (4, c!"description: None,"),
    (4, c!"geo: None,"),
    (4, c!"last_modified: None,"),
    (4, c!"location: None,"),
    (4, c!"organizer: None,"),
    (4, c!"priority: None,"),
    (4, c!"sequence: None,"),
    (4, c!"status: None,"),
    (4, c!"summary: Some("),
    (5, c!"Text {"),
    (6, c!"params: {},"),
    (6, c!"text: \" Some event ':'\","),
    (5, c!"},"),
    (4, c!"),"),
    (4, c!"transp: None,"),
    (4, c!"url: None,"),
    (4, c!"recurid: None,"),
    (4, c!"rrule: None,"),
    (4, c!"dtend: Some("),
    (5, c!"DateTime("),
    (6, c!"Naive("),
    (7, c!"2021-11-01T16:30:00,"),
    (6, c!"),"),
    (5, c!"),"),
    (4, c!"),"),
    (4, c!"duration: None,"),
    (4, c!"attach: [],"),
    (4, c!"attendee: [],"),
    (4, c!"categories: [],"),
    (4, c!"comment: [],"),
    (4, c!"contact: [],"),
    (4, c!"exdate: [],"),
    (4, c!"rstatus: [],"),
    (4, c!"related_to: [],"),
    (4, c!"resources: [],"),
    (4, c!"rdate: [],"),
    (4, c!"alarms: [],"),
    (4, c!"x_prop: {},"),
    (4, c!"iana_prop: {},"),
    (3, c!"},"),
    (2, c!"],"),
    (2, c!"freebusy: [],"),
    (2, c!"journals: [],"),
    (2, c!"todo: [],"),
    (2, c!"timezones: [],"),
    (2, c!"x_prop: {},"),
    (2, c!"iana_prop: {},"),
    (1, c!"},"),
    (0, c!")")] := by decide +kernel

/-- `tests/calendars/multiple_calendar_components.ics`, which must be rejected. -/
example : shown VCalendar.ofStr (crlf [c!"BEGIN:VCALENDAR",
    c!"VERSION",
    c!"",
    c!" :2.0",
    c!"PRODID",
    c!"",
    c!" :-//Mozilla.org/NONSGML Mozilla Calendar V1.0//EN",
    c!"METHOD",
    c!"",
    c!" :PUBLISH",
    c!"BEGIN:VEVENT",
    c!"UID",
    c!"",
    c!" :956630271",
    c!"SUMMARY",
    c!"",
    c!" :Christmas Day",
    c!"CLASS",
    c!"",
    c!" :PUBLIC",
    c!"X-MOZILLA-ALARM-DEFAULT-UNITS",
    c!"",
    c!" :minutes",
    c!"X-MOZILLA-ALARM-DEFAULT-LENGTH",
    c!"",
    c!" :15",
    c!"X-MOZILLA-RECUR-DEFAULT-UNITS",
    c!"",
    c!" :weeks",
    c!"X-MOZILLA-RECUR-DEFAULT-INTERVAL",
    c!"",
    c!" :1",
    c!"DTSTART",
    c!"",
    c!" ;VALUE=DATE",
    c!" :20031225",
    c!"DTEND",
    c!"",
    c!" ;VALUE=DATE",
    c!" :20031226",
    c!"DTSTAMP",
    c!"",
    c!" :20020430T114937Z",
    c!"END:VEVENT",
    c!"END:VCALENDAR",
    c!"BEGIN:VCALENDAR",
    c!"VERSION",
    c!" :2.0",
    c!"PRODID",
    c!" :-//Mozilla.org/NONSGML Mozilla Calendar V1.0//EN",
    c!"METHOD",
    c!" :PUBLISH",
    c!"BEGIN:VEVENT",
    c!"UID",
    c!" :911737808",
    c!"SUMMARY",
    c!" :Boxing Day",
    c!"CLASS",
    c!" :PUBLIC",
    c!"X-MOZILLA-ALARM-DEFAULT-UNITS",
    c!" :minutes",
    c!"X-MOZILLA-ALARM-DEFAULT-LENGTH",
    c!" :15",
    c!"X-MOZILLA-RECUR-DEFAULT-UNITS",
    c!" :weeks",
    c!"X-MOZILLA-RECUR-DEFAULT-INTERVAL",
    c!" :1",
    c!"DTSTART",
    c!" ;VALUE=DATE",
    c!" :20030501",
    c!"DTSTAMP",
    c!" :20020430T114937Z",
    c!"END:VEVENT",
    c!"BEGIN:VEVENT",
    c!"UID",
    c!" :wh4t3v3r",
    c!"DTSTART;VALUE=DATE:20031225",
    c!"SUMMARY:Christmas again!",
    c!"END:VEVENT",
    c!"END:VCALENDAR",
    c!""]) =
    none := by decide +kernel

/-- `tests/calendars/pacific_fiji.ics` and `tests/calendars/pacific_fiji.out`. -/
example : shown VCalendar.ofStr (crlf [c!"BEGIN:VCALENDAR",
    c!"PRODID:-//tzurl.org//NONSGML Olson 2014g//EN",
    c!"VERSION:2.0",
    c!"BEGIN:VTIMEZONE",
    c!"TZID:custom_Pacific/Fiji",
    c!"TZURL:http://tzurl.org/zoneinfo/Pacific/Fiji",
    c!"X-LIC-LOCATION:Pacific/Fiji",
    c!"BEGIN:DAYLIGHT",
    c!"TZOFFSETFROM:+1200",
    c!"TZOFFSETTO:+1300",
    c!"DTSTART:20101024T020000",
    c!"RRULE:FREQ=YEARLY;BYMONTH=10;BYMONTHDAY=21,22,23,24,25,26,27;BYDAY=SU",
    c!"END:DAYLIGHT",
    c!"BEGIN:STANDARD",
    c!"TZOFFSETFROM:+1300",
    c!"TZOFFSETTO:+1200",
    c!"DTSTART:20140119T020000",
    c!"RRULE:FREQ=YEARLY;BYMONTH=1;BYMONTHDAY=18,19,20,21,22,23,24;BYDAY=SU",
    c!"END:STANDARD",
    c!"BEGIN:STANDARD",
    c!"TZOFFSETFROM:+115544",
    c!"TZOFFSETTO:+1200",
    c!"DTSTART:19151026T000000",
    c!"RDATE:19151026T000000",
    c!"END:STANDARD",
    c!"BEGIN:DAYLIGHT",
    c!"TZOFFSETFROM:+1200",
    c!"TZOFFSETTO:+1300",
    c!"DTSTART:19981101T020000",
    c!"RDATE:19981101T020000",
    c!"RDATE:19991107T020000",
    c!"RDATE:20091129T020000",
    c!"END:DAYLIGHT",
    c!"BEGIN:STANDARD",
    c!"TZOFFSETFROM:+1300",
    c!"TZOFFSETTO:+1200",
    c!"DTSTART:19990228T030000",
    c!"RDATE:19990228T030000",
    c!"RDATE:20000227T030000",
    c!"RDATE:20100328T030000",
    c!"RDATE:20110306T030000",
    c!"RDATE:20120122T030000",
    c!"RDATE:20130120T030000",
    c!"END:STANDARD",
    c!"END:VTIMEZONE",
    c!"BEGIN:VEVENT",
    c!"UID:noend123",
    c!"DTSTART;TZID=custom_Pacific/Fiji;VALUE=DATE-TIME:20140829T080000",
    c!"DTSTAMP;TZID=custom_Pacific/Fiji;VALUE=DATE-TIME:20140829T100000",
    c!"SUMMARY:an event with a custom tz name",
    c!"END:VEVENT",
    c!"END:VCALENDAR",
    c!""]) =
    some [
    (0, c!"Ok("),
    (1, c!"VCalendar {"),
    (2, c!"prodid: Text {"),
    (3, c!"params: {},"),
    (3, c!"text: \"-//tzurl.org//NONSGML Olson 2014g//EN\","),
    (2, c!"},"),
    (2, c!"version: Text {"),
    (3, c!"params: {},"),
    (3, c!"text: \"2.0\","),
    (2, c!"},"),
    (2, c!"calscale: None,"),
    (2, c!"method: None,"),
    (2, c!"alarms: [],"),
    (2, c!"events: ["),
    (3, c!"VEvent {"),
    (4, c!"dtstamp: Naive("),
    (5, c!"2014-08-29T10:00:00,"),
    (4, c!"),"),
    (4, c!"uid: Text {"),
    (5, c!"params: {},"),
    (5, c!"text: \"noend123\","),
    (4, c!"},"),
    (4, c!"dtstart: DateTime("),
    (5, c!"Naive("),
    (6, c!"2014-08-29T08:00:00,"),
    (5, c!"),"),
    (4, c!"),"),
    (4, c!"class: None,"),
    (4, c!"created: None,"),
    (4, c!"description: None,"),
    (4, c!"geo: None,"),
    (4, c!"last_modified: None,"),
    (4, c!"location: None,"),
    (4, c!"organizer: None,"),
    (4, c!"priority: None,"),
    (4, c!"sequence: None,"),
    (4, c!"status: None,"),
    (4, c!"summary: Some("),
    (5, c!"Text {"),
    (6, c!"params: {},"),
    (6, c!"text: \"an event with a custom tz name\","),
    (5, c!"},"),
    (4, c!"),"),
    (4, c!"transp: None,"),
    (4, c!"url: None,"),
    (4, c!"recurid: None,"),
    (4, c!"rrule: None,"),
    (4, c!"dtend: None,"),
    (4, c!"duration: None,"),
    (4, c!"attach: [],"),
    (4, c!"attendee: [],"),
    (4, c!"categories: [],"),
    (4, c!"comment: [],"),
    (4, c!"contact: [],"),
    (4, c!"exdate: [],"),
    (4, c!"rstatus: [],"),
    (4, c!"related_to: [],"),
    (4, c!"resources: [],"),
    (4, c!"rdate: [],"),
    (4, c!"alarms: [],"),
    (4, c!"x_prop: {},"),
    (4, c!"iana_prop: {},"),
    (3, c!"},"),
    (2, c!"],"),
    (2, c!"freebusy: [],"),
    (2, c!"journals: [],"),
    (2, c!"todo: [],"),
    (2, c!"timezones: ["),
    (3, c!"VTimezone {"),
    (4, c!"tzid: Text {"),
    (5, c!"params: {},"),
    (5, c!"text: \"custom_Pacific/Fiji\","),
    (4, c!"},"),
    (4, c!"last_modified: None,"),
    (4, c!"tzurl: Some("),
    (5, c!"Uri {"),
    (6, c!"params: {},"),
    (6, c!"uri: \"http://tzurl.org/zoneinfo/Pacific/Fiji\","),
    (5, c!"},"),
    (4, c!"),"),
    (4, c!"standard: ["),
    (5, c!"Standard {"),
    (6, c!"dtstart: DateTime("),
    (7, c!"Naive("),
    (8, c!"2014-01-19T02:00:00,"),
    (7, c!"),"),
    (6, c!"),"),
    (6, c!"tzoffsetto: +12:00,"),
    (6, c!"tzoffsetfrom: +13:00,"),
    (6, c!"rrule: Some("),
    (7, c!"Recur {"),
    (8, c!"freq: Yearly,"),
    (8, c!"until: None,"),
    (8, c!"count: None,"),
    (8, c!"interval: 1,"),
    (8, c!"by_second: [],"),
    (8, c!"by_minute: [],"),
    (8, c!"by_hour: [],"),
    (8, c!"by_day: ["),
    (9, c!"WeekdayNum {"),
    (10, c!"weekday: Sunday,"),
    (10, c!"ord: None,"),
    (9, c!"},"),
    (8, c!"],"),
    (8, c!"by_monthday: ["),
    (9, c!"18,"),
    (9, c!"19,"),
    (9, c!"20,"),
    (9, c!"21,"),
    (9, c!"22,"),
    (9, c!"23,"),
    (9, c!"24,"),
    (8, c!"],"),
    (8, c!"by_yearday: [],"),
    (8, c!"by_weekno: [],"),
    (8, c!"by_month: ["),
    (9, c!"1,"),
    (8, c!"],"),
    (8, c!"by_setpos: [],"),
    (8, c!"wkst: None,"),
    (7, c!"},"),
    (6, c!"),"),
    (6, c!"comment: [],"),
    (6, c!"rdate: [],"),
    (6, c!"tzname: [],"),
    (6, c!"x_prop: {},"),
    (6, c!"iana_prop: {},"),
    (5, c!"},"),
    (5, c!"Standard {"),
    (6, c!"dtstart: DateTime("),
    (7, c!"Naive("),
    (8, c!"1915-10-26T00:00:00,"),
    (7, c!"),"),
    (6, c!"),"),
    (6, c!"tzoffsetto: +12:00,"),
    (6, c!"tzoffsetfrom: +11:55,"),
    (6, c!"rrule: None,"),
    (6, c!"comment: [],"),
    (6, c!"rdate: ["),
    (7, c!"Date("),
    (8, c!"["),
    (9, c!"DateTime("),
    (10, c!"Naive("),
    (11, c!"1915-10-26T00:00:00,"),
    (10, c!"),"),
    (9, c!"),"),
    (8, c!"],"),
    (7, c!"),"),
    (6, c!"],"),
    (6, c!"tzname: [],"),
    (6, c!"x_prop: {},"),
    (6, c!"iana_prop: {},"),
    (5, c!"},"),
    (5, c!"Standard {"),
    (6, c!"dtstart: DateTime("),
    (7, c!"Naive("),
    (8, c!"1999-02-28T03:00:00,"),
    (7, c!"),"),
    (6, c!"),"),
    (6, c!"tzoffsetto: +12:00,"),
    (6, c!"tzoffsetfrom: +13:00,"),
    (6, c!"rrule: None,"),
    (6, c!"comment: [],"),
    (6, c!"rdate: ["),
    (7, c!"Date("),
    (8, c!"["),
    (9, c!"DateTime("),
    (10, c!"Naive("),
    (11, c!"1999-02-28T03:00:00,"),
    (10, c!"),"),
    (9, c!"),"),
    (8, c!"],"),
    (7, c!"),"),
    (7, c!"Date("),
    (8, c!"["),
    (9, c!"DateTime("),
    (10, c!"Naive("),
    (11, c!"2000-02-27T03:00:00,"),
    (10, c!"),"),
    (9, c!"),"),
    (8, c!"],"),
    (7, c!"),"),
    (7, c!"Date("),
    (8, c!"["),
    (9, c!"DateTime("),
    (10, c!"Naive("),
    (11, c!"2010-03-28T03:00:00,"),
    (10, c!"),"),
    (9, c!"),"),
    (8, c!"],"),
    (7, c!"),"),
    (7, c!"Date("),
    (8, c!"["),
    (9, c!"DateTime("),
    (10, c!"Naive("),
    (11, c!"2011-03-06T03:00:00,"),
    (10, c!"),"),
    (9, c!"),"),
    (8, c!"],"),
    (7, c!"),"),
    (7, c!"Date("),
    (8, c!"["),
    (9, c!"DateTime("),
    (10, c!"Naive("),
    (11, c!"2012-01-22T03:00:00,"),
    (10, c!"),"),
    (9, c!"),"),
    (8, c!"],"),
    (7, c!"),"),
    (7, c!"Date("),
    (8, c!"["),
    (9, c!"DateTime("),
    (10, c!"Naive("),
    (11, c!"2013-01-20T03:00:00,"),
    (10, c!"),"),
    (9, c!"),"),
    (8, c!"],"),
    (7, c!"),"),
    (6, c!"],"),
    (6, c!"tzname: [],"),
    (6, c!"x_prop: {},"),
    (6, c!"iana_prop: {},"),
    (5, c!"},"),
    (4, c!"],"),
    (4, c!"daylight: ["),
    (5, c!"Daylight {"),
    (6, c!"dtstart: DateTime("),
    (7, c!"Naive("),
    (8, c!"2010-10-24T02:00:00,"),
    (7, c!"),"),
    (6, c!"),"),
    (6, c!"tzoffsetto: +13:00,"),
    (6, c!"tzoffsetfrom: +12:00,"),
    (6, c!"rrule: Some("),
    (7, c!"Recur {"),
    (8, c!"freq: Yearly,"),
    (8, c!"until: None,"),
    (8, c!"count: None,"),
    (8, c!"interval: 1,"),
    (8, c!"by_second: [],"),
    (8, c!"by_minute: [],"),
    (8, c!"by_hour: [],"),
    (8, c!"by_day: ["),
    (9, c!"WeekdayNum {"),
    (10, c!"weekday: Sunday,"),
    (10, c!"ord: None,"),
    (9, c!"},"),
    (8, c!"],"),
    (8, c!"by_monthday: ["),
    (9, c!"21,"),
    (9, c!"22,"),
    (9, c!"23,"),
    (9, c!"24,"),
    (9, c!"25,"),
    (9, c!"26,"),
    (9, c!"27,"),
    (8, c!"],"),
    (8, c!"by_yearday: [],"),
    (8, c!"by_weekno: [],"),
    (8, c!"by_month: ["),
    (9, c!"10,"),
    (8, c!"],"),
    (8, c!"by_setpos: [],"),
    (8, c!"wkst: None,"),
    (7, c!"},"),
    (6, c!"),"),
    (6, c!"comment: [],"),
    (6, c!"rdate: [],"),
    (6, c!"tzname: [],"),
    (6, c!"x_prop: {},"),
    (6, c!"iana_prop: {},"),
    (5, c!"},"),
    (5, c!"Daylight {"),
    (6, c!"dtstart: DateTime("),
    (7, c!"Naive("),
    (8, c!"1998-11-01T02:00:00,"),
    (7, c!"),"),
    (6, c!"),"),
    (6, c!"tzoffsetto: +13:00,"),
    (6, c!"tzoffsetfrom: +12:00,"),
    (6, c!"rrule: None,"),
    (6, c!"comment: [],"),
    (6, c!"rdate: ["),
    (7, c!"Date("),
    (8, c!"["),
    (9, c!"DateTime("),
    (10, c!"Naive("),
    (11, c!"1998-11-01T02:00:00,"),
    (10, c!"),"),
    (9, c!"),"),
    (8, c!"],"),
    (7, c!"),"),
    (7, c!"Date("),
    (8, c!"["),
    (9, c!"DateTime("),
    (10, c!"Naive("),
    (11, c!"1999-11-07T02:00:00,"),
    (10, c!"),"),
    (9, c!"),"),
    (8, c!"],"),
    (7, c!"),"),
    (7, c!"Date("),
    (8, c!"["),
    (9, c!"DateTime("),
    (10, c!"Naive("),
    (11, c!"2009-11-29T02:00:00,"),
    (10, c!"),"),
    (9, c!"),"),
    (8, c!"],"),
    (7, c!"),"),
    (6, c!"],"),
    (6, c!"tzname: [],"),
    (6, c!"x_prop: {},"),
    (6, c!"iana_prop: {},"),
    (5, c!"},"),
    (4, c!"],"),
    (4, c!"x_prop: {"),
    (5, c!"\"X-LIC-LOCATION\": ContentLine {"),
    (6, c!"params: {},"),
    (6, c!"value: \"Pacific/Fiji\","),
    (5, c!"},"),
    (4, c!"},"),
    (4, c!"iana_prop: {},"),
    (3, c!"},"),
    (2, c!"],"),
    (2, c!"x_prop: {},"),
    (2, c!"iana_prop: {},"),
    (1, c!"},"),
    (0, c!")")] := by decide +kernel

/-- `tests/calendars/period_with_timezone.ics` and `tests/calendars/period_with_timezone.out`. -/
example : shown VCalendar.ofStr (crlf [c!"BEGIN:VCALENDAR",
    c!"VERSION:2.0",
    c!"PRODID:collective/icalendar",
    c!"X-WR-CALNAME;VALUE=TEXT:Test RDATE",
    c!"BEGIN:VTIMEZONE",
    c!"TZID:America/Vancouver",
    c!"BEGIN:STANDARD",
    c!"DTSTART:20221106T020000",
    c!"TZOFFSETFROM:-0700",
    c!"TZOFFSETTO:-0800",
    c!"RDATE:20231105T020000",
    c!"TZNAME:PST",
    c!"END:STANDARD",
    c!"BEGIN:DAYLIGHT",
    c!"DTSTART:20230312T020000",
    c!"TZOFFSETFROM:-0800",
    c!"TZOFFSETTO:-0700",
    c!"RDATE:20240310T020000",
    c!"TZNAME:PDT",
    c!"END:DAYLIGHT",
    c!"END:VTIMEZONE",
    c!"BEGIN:VEVENT",
    c!"UID:1",
    c!"DESCRIPTION:Test RDATE",
    c!"DTSTAMP;TZID=America/Vancouver:20230920T120000",
    c!"DTSTART;TZID=America/Vancouver:20230920T120000",
    c!"DTEND;TZID=America/Vancouver:20230920T140000",
    c!"EXDATE;TZID=America/Vancouver:20231220T120000",
    c!"RDATE;VALUE=PERIOD;TZID=America/Vancouver:20231213T120000/20231213T150000",
    c!"RRULE:FREQ=MONTHLY;COUNT=9;INTERVAL=1;BYDAY=+3WE;BYMONTH=1,2,3,4,5,9,10,11,",
    c!" 12;WKST=MO",
    c!"SUMMARY:Test RDATE",
    c!"END:VEVENT",
    c!"END:VCALENDAR",
    c!""]) =
    some [
    (0, c!"Ok("),
    (1, c!"VCalendar {"),
    (2, c!"prodid: Text {"),
    (3, c!"params: {},"),
    (3, c!"text: \"collective/icalendar\","),
    (2, c!"},"),
    (2, c!"version: Text {"),
    (3, c!"params: {},"),
    (3, c!"text: \"2.0\","),
    (2, c!"},"),
    (2, c!"calscale: None,"),
    (2, c!"method: None,"),
    (2, c!"alarms: [],"),
    (2, c!"events: ["),
    (3, c!"VEvent {"),
    (4, c!"dtstamp: Naive("),
    (5, c!"2023-09-20T12:00:00,"),
    (4, c!"),"),
    (4, c!"uid: Text {"),
    (5, c!"params: {},"),
    (5, c!"text: \"1\","),
    (4, c!"},"),
    (4, c!"dtstart: DateTime("),
    (5, c!"Naive("),
    (6, c!"2023-09-20T12:00:00,"),
    (5, c!"),"),
    (4, c!"),"),
    (4, c!"class: None,"),
    (4, c!"created: None,"),
    (4, c!"description: Some("),
    (5, c!"Text {"),
    (6, c!"params: {},"),
    (6, c!"text: \"Test RDATE\","),
    (5, c!"},"),
    (4, c!"),"),
    (4, c!"geo: None,"),
    (4, c!"last_modified: None,"),
    (4, c!"location: None,"),
    (4, c!"organizer: None,"),
    (4, c!"priority: None,"),
    (4, c!"sequence: None,"),
    (4, c!"status: None,"),
    (4, c!"summary: Some("),
    (5, c!"Text {"),
    (6, c!"params: {},"),
    (6, c!"text: \"Test RDATE\","),
    (5, c!"},"),
    (4, c!"),"),
    (4, c!"transp: None,"),
    (4, c!"url: None,"),
    (4, c!"recurid: None,"),
    (4, c!"rrule: Some("),
    (5, c!"Recur {"),
    (6, c!"freq: Monthly,"),
    (6, c!"until: None,"),
    (6, c!"count: Some("),
    (7, c!"9,"),
    (6, c!"),"),
    (6, c!"interval: 1,"),
    (6, c!"by_second: [],"),
    (6, c!"by_minute: [],"),
    (6, c!"by_hour: [],"),
    (6, c!"by_day: ["),
    (7, c!"WeekdayNum {"),
    (8, c!"weekday: Wenesday,"),
    (8, c!"ord: Some("),
    (9, c!"3,"),
    (8, c!"),"),
    (7, c!"},"),
    (6, c!"],"),
    (6, c!"by_monthday: [],"),
    (6, c!"by_yearday: [],"),
    (6, c!"by_weekno: [],"),
    (6, c!"by_month: ["),
    (7, c!"1,"),
    (7, c!"2,"),
    (7, c!"3,"),
    (7, c!"4,"),
    (7, c!"5,"),
    (7, c!"9,"),
    (7, c!"10,"),
    (7, c!"11,"),
    (7, c!"12,"),
    (6, c!"],"),
    (6, c!"by_setpos: [],"),
    (6, c!"wkst: Some("),
    (7, c!"Monday,"),
    (6, c!"),"),
    (5, c!"},"),
    (4, c!"),"),
    (4, c!"dtend: Some("),
    (5, c!"DateTime("),
    (6, c!"Naive("),
    (7, c!"2023-09-20T14:00:00,"),
    (6, c!"),"),
    (5, c!"),"),
    (4, c!"),"),
    (4, c!"duration: None,"),
    (4, c!"attach: [],"),
    (4, c!"attendee: [],"),
    (4, c!"categories: [],"),
    (4, c!"comment: [],"),
    (4, c!"contact: [],"),
    (4, c!"exdate: ["),
    (5, c!"DateTime("),
    (6, c!"Naive("),
    (7, c!"2023-12-20T12:00:00,"),
    (6, c!"),"),
    (5, c!"),"),
    (4, c!"],"),
    (4, c!"rstatus: [],"),
    (4, c!"related_to: [],"),
    (4, c!"resources: [],"),
    (4, c!"rdate: ["),
    (5, c!"Period("),
    (6, c!"["),
    (7, c!"StartEnd("),
    (8, c!"StartEnd {"),
    (9, c!"start: Naive("),
    (10, c!"2023-12-13T12:00:00,"),
    (9, c!"),"),
    (9, c!"end: Naive("),
    (10, c!"2023-12-13T15:00:00,"),
    (9, c!"),"),
    (8, c!"},"),
    (7, c!"),"),
    (6, c!"],"),
    (5, c!"),"),
    (4, c!"],"),
    (4, c!"alarms: [],"),
    (4, c!"x_prop: {},"),
    (4, c!"iana_prop: {},"),
    (3, c!"},"),
    (2, c!"],"),
    (2, c!"freebusy: [],"),
    (2, c!"journals: [],"),
    (2, c!"todo: [],"),
    (2, c!"timezones: ["),
    (3, c!"VTimezone {"),
    (4, c!"tzid: Text {"),
    (5, c!"params: {},"),
    (5, c!"text: \"America/Vancouver\","),
    (4, c!"},"),
    (4, c!"last_modified: None,"),
    (4, c!"tzurl: None,"),
    (4, c!"standard: ["),
    (5, c!"Standard {"),
    (6, c!"dtstart: DateTime("),
    (7, c!"Naive("),
    (8, c!"2022-11-06T02:00:00,"),
    (7, c!"),"),
    (6, c!"),"),
    (6, c!"tzoffsetto: -08:00,"),
    (6, c!"tzoffsetfrom: -07:00,"),
    (6, c!"rrule: None,"),
    (6, c!"comment: [],"),
    (6, c!"rdate: ["),
    (7, c!"Date("),
    (8, c!"["),
    (9, c!"DateTime("),
    (10, c!"Naive("),
    (11, c!"2023-11-05T02:00:00,"),
    (10, c!"),"),
    (9, c!"),"),
    (8, c!"],"),
    (7, c!"),"),
    (6, c!"],"),
    (6, c!"tzname: ["),
    (7, c!"Text {"),
    (8, c!"params: {},"),
    (8, c!"text: \"PST\","),
    (7, c!"},"),
    (6, c!"],"),
    (6, c!"x_prop: {},"),
    (6, c!"iana_prop: {},"),
    (5, c!"},"),
    (4, c!"],"),
    (4, c!"daylight: ["),
    (5, c!"Daylight {"),
    (6, c!"dtstart: DateTime("),
    (7, c!"Naive("),
    (8, c!"2023-03-12T02:00:00,"),
    (7, c!"),"),
    (6, c!"),"),
    (6, c!"tzoffsetto: -07:00,"),
    (6, c!"tzoffsetfrom: -08:00,"),
    (6, c!"rrule: None,"),
    (6, c!"comment: [],"),
    (6, c!"rdate: ["),
    (7, c!"Date("),
    (8, c!"["),
    (9, c!"DateTime("),
    (10, c!"Naive("),
    (11, c!"2024-03-10T02:00:00,"),
    (10, c!"),"),
    (9, c!"),"),
    (8, c!"],"),
    (7, c!"),"),
    (6, c!"],"),
    (6, c!"tzname: ["),
    (7, c!"Text {"),
    (8, c!"params: {},"),
    (8, c!"text: \"PDT\","),
    (7, c!"},"),
    (6, c!"],"),
    (6, c!"x_prop: {},"),
    (6, c!"iana_prop: {},"),
    (5, c!"},"),
    (4, c!"],"),
    (4, c!"x_prop: {},"),
    (4, c!"iana_prop: {},"),
    (3, c!"},"),
    (2, c!"],"),
    (2, c!"x_prop: {"),
    (3, c!"\"X-WR-CALNAME\": ContentLine {"),
    (4, c!"params: {"),
    (5, c!"\"VALUE\": \"TEXT\","),
    (4, c!"},"),
    (4, c!"value: \"Test RDATE\","),
    (3, c!"},"),
    (2, c!"},"),
    (2, c!"iana_prop: {},"),
    (1, c!"},"),
    (0, c!")")] := by decide +kernel

/-- `tests/calendars/pr_480_summary_with_colon.ics`, which must be rejected. -/
example : shown VCalendar.ofStr (crlf [c!"BEGIN:VCALENDAR",
    c!"VERSION:2.0",
    c!"PRODID:collective/icalendar",
    c!"BEGIN:VEVENT",
    c!"UID:1",
    c!"SUMMARY:Example calendar with a ': ' in the summary",
    c!"DTSTAMP;TZID=America/Vancouver:20230920T120000",
    c!"DTSTART;TZID=America/Vancouver:20230920T120000",
    c!"END:VEVENT",
    c!"BEGIN:VEVENT",
    c!"UID:2",
    c!"SUMMARY:Another event with a ': ' in the summary",
    c!"DTSTAMP;TZID=America/Vancouver:20230920T120000",
    c!"DTSTART;TZID=America/Vancouver:20230920T120000",
    c!"END:VEVENT",
    c!""]) =
    none := by decide +kernel

/-- `tests/calendars/small_bad_calendar.ics`, which must be rejected. -/
example : shown VCalendar.ofStr (crlf [c!"BEGIN:VCALENDAR",
    c!"BEGIN:VEVENT",
    c!"END:VEVENT",
    c!""]) =
    none := by decide +kernel

/-- `tests/calendars/time.ics` and `tests/calendars/time.out`. -/
example : shown VCalendar.ofStr (crlf [c!"BEGIN:VCALENDAR",
    c!"VERSION:2.0",
    c!"PRODID:collective/icalendar",
    c!"X-SOMETIME;VALUE=TIME:172010",
    c!"END:VCALENDAR",
    c!""]) =
    some [
    (0, c!"Ok("),
    (1, c!"VCalendar {"),
    (2, c!"prodid: Text {"),
    (3, c!"params: {},"),
    (3, c!"text: \"collective/icalendar\","),
    (2, c!"},"),
    (2, c!"version: Text {"),
    (3, c!"params: {},"),
    (3, c!"text: \"2.0\","),
    (2, c!"},"),
    (2, c!"calscale: None,"),
    (2, c!"method: None,"),
    (2, c!"alarms: [],"),
    (2, c!"events: [],"),
    (2, c!"freebusy: [],"),
    (2, c!"journals: [],"),
    (2, c!"todo: [],"),
    (2, c!"timezones: [],"),
    (2, c!"x_prop: {"),
    (3, c!"\"X-SOMETIME\": ContentLine {"),
    (4, c!"params: {"),
    (5, c!"\"VALUE\": \"TIME\","),
    (4, c!"},"),
    (4, c!"value: \"172010\","),
    (3, c!"},"),
    (2, c!"},"),
    (2, c!"iana_prop: {},"),
    (1, c!"},"),
    (0, c!")")] := by decide +kernel

/-- `tests/calendars/timezone_rdate.ics` and `tests/calendars/timezone_rdate.out`. -/
example : shown VCalendar.ofStr (crlf [c!"BEGIN:VCALENDAR",
    c!"VERSION:2.0",
    c!"PRODID:collective/icalendar",
    c!"BEGIN:VTIMEZONE",
    c!"TZID:posix/Europe/Vaduz",
    c!"BEGIN:STANDARD",
    c!"TZNAME:CET",
    c!"TZOFFSETFROM:+002946",
    c!"TZOFFSETTO:+0100",
    c!"DTSTART:19011213T211538",
    c!"RDATE;VALUE=DATE-TIME:19011213T211538",
    c!"END:STANDARD",
    c!"BEGIN:DAYLIGHT",
    c!"TZNAME:CEST",
    c!"TZOFFSETFROM:+0100",
    c!"TZOFFSETTO:+0200",
    c!"DTSTART:19810329T020000",
    c!"RRULE:FREQ=YEARLY;BYDAY=-1SU;BYMONTH=3",
    c!"END:DAYLIGHT",
    c!"BEGIN:DAYLIGHT",
    c!"TZNAME:CEST",
    c!"TZOFFSETFROM:+0100",
    c!"TZOFFSETTO:+0200",
    c!"DTSTART:19410505T010000",
    c!"RDATE;VALUE=DATE-TIME:19410505T010000",
    c!"RDATE;VALUE=DATE-TIME:19420504T010000",
    c!"END:DAYLIGHT",
    c!"BEGIN:STANDARD",
    c!"TZNAME:CET",
    c!"TZOFFSETFROM:+0200",
    c!"TZOFFSETTO:+0100",
    c!"DTSTART:19810927T030000",
    c!"RRULE:FREQ=YEARLY;COUNT=15;BYDAY=-1SU;BYMONTH=9",
    c!"END:STANDARD",
    c!"BEGIN:STANDARD",
    c!"TZNAME:CET",
    c!"TZOFFSETFROM:+0200",
    c!"TZOFFSETTO:+0100",
    c!"DTSTART:19961027T030000",
    c!"RRULE:FREQ=YEARLY;BYDAY=-1SU;BYMONTH=10",
    c!"END:STANDARD",
    c!"BEGIN:STANDARD",
    c!"TZNAME:CET",
    c!"TZOFFSETFROM:+0200",
    c!"TZOFFSETTO:+0100",
    c!"DTSTART:19411006T020000",
    c!"RDATE;VALUE=DATE-TIME:19411006T020000",
    c!"RDATE;VALUE=DATE-TIME:19421005T020000",
    c!"END:STANDARD",
    c!"END:VTIMEZONE",
    c!"BEGIN:VEVENT",
    c!"UID:123",
    c!"DTSTART;TZID=posix/Europe/Vaduz:20120213T100000",
    c!"DTSTAMP;TZID=posix/Europe/Vaduz:20120213T100000",
    c!"SUMMARY:testevent",
    c!"END:VEVENT",
    c!"END:VCALENDAR",
    c!""]) =
    some [
    (0, c!"Ok("),
    (1, c!"VCalendar {"),
    (2, c!"prodid: Text {"),
    (3, c!"params: {},"),
    (3, c!"text: \"collective/icalendar\","),
    (2, c!"},"),
    (2, c!"version: Text {"),
    (3, c!"params: {},"),
    (3, c!"text: \"2.0\","),
    (2, c!"},"),
    (2, c!"calscale: None,"),
    (2, c!"method: None,"),
    (2, c!"alarms: [],"),
    (2, c!"events: ["),
    (3, c!"VEvent {"),
    (4, c!"dtstamp: Naive("),
    (5, c!"2012-02-13T10:00:00,"),
    (4, c!"),"),
    (4, c!"uid: Text {"),
    (5, c!"params: {},"),
    (5, c!"text: \"123\","),
    (4, c!"},"),
    (4, c!"dtstart: DateTime("),
    (5, c!"Naive("),
    (6, c!"2012-02-13T10:00:00,"),
    (5, c!"),"),
    (4, c!"),"),
    (4, c!"class: None,"),
    (4, c!"created: None,"),
    (4, c!"description: None,"),
    (4, c!"geo: None,"),
    (4, c!"last_modified: None,"),
    (4, c!"location: None,"),
    (4, c!"organizer: None,"),
    (4, c!"priority: None,"),
    (4, c!"sequence: None,"),
    (4, c!"status: None,"),
    (4, c!"summary: Some("),
    (5, c!"Text {"),
    (6, c!"params: {},"),
    (6, c!"text: \"testevent\","),
    (5, c!"},"),
    (4, c!"),"),
    (4, c!"transp: None,"),
    (4, c!"url: None,"),
    (4, c!"recurid: None,"),
    (4, c!"rrule: None,"),
    (4, c!"dtend: None,"),
    (4, c!"duration: None,"),
    (4, c!"attach: [],"),
    (4, c!"attendee: [],"),
    (4, c!"categories: [],"),
    (4, c!"comment: [],"),
    (4, c!"contact: [],"),
    (4, c!"exdate: [],"),
    (4, c!"rstatus: [],"),
    (4, c!"related_to: [],"),
    (4, c!"resources: [],"),
    (4, c!"rdate: [],"),
    (4, c!"alarms: [],"),
    (4, c!"x_prop: {},"),
    (4, c!"iana_prop: {},"),
    (3, c!"},"),
    (2, c!"],"),
    (2, c!"freebusy: [],"),
    (2, c!"journals: [],"),
    (2, c!"todo: [],"),
    (2, c!"timezones: ["),
    (3, c!"VTimezone {"),
    (4, c!"tzid: Text {"),
    (5, c!"params: {},"),
    (5, c!"text: \"posix/Europe/Vaduz\","),
    (4, c!"},"),
    (4, c!"last_modified: None,"),
    (4, c!"tzurl: None,"),
    (4, c!"standard: ["),
    (5, c!"Standard {"),
    (6, c!"dtstart: DateTime("),
    (7, c!"Naive("),
    (8, c!"1901-12-13T21:15:38,"),
    (7, c!"),"),
    (6, c!"),"),
    (6, c!"tzoffsetto: +01:00,"),
    (6, c!"tzoffsetfrom: +00:29,"),
    (6, c!"rrule: None,"),
    (6, c!"comment: [],"),
    (6, c!"rdate: ["),
    (7, c!"Date("),
    (8, c!"["),
    (9, c!"DateTime("),
    (10, c!"Naive("),
    (11, c!"1901-12-13T21:15:38,"),
    (10, c!"),"),
    (9, c!"),"),
    (8, c!"],"),
    (7, c!"),"),
    (6, c!"],"),
    (6, c!"tzname: ["),
    (7, c!"Text {"),
    (8, c!"params: {},"),
    (8, c!"text: \"CET\","),
    (7, c!"},"),
    (6, c!"],"),
    (6, c!"x_prop: {},"),
    (6, c!"iana_prop: {},"),
    (5, c!"},"),
    (5, c!"Standard {"),
    (6, c!"dtstart: DateTime("),
    (7, c!"Naive("),
    (8, c!"1981-09-27T03:00:00,"),
    (7, c!"),"),
    (6, c!"),"),
    (6, c!"tzoffsetto: +01:00,"),
    (6, c!"tzoffsetfrom: +02:00,"),
    (6, c!"rrule: Some("),
    (7, c!"Recur {"),
    (8, c!"freq: Yearly,"),
    (8, c!"until: None,"),
    (8, c!"count: Some("),
    (9, c!"15,"),
    (8, c!"),"),
    (8, c!"interval: 1,"),
    (8, c!"by_second: [],"),
    (8, c!"by_minute: [],"),
    (8, c!"by_hour: [],"),
    (8, c!"by_day: ["),
    (9, c!"WeekdayNum {"),
    (10, c!"weekday: Sunday,"),
    (10, c!"ord: Some("),
    (11, c!"-1,"),
    (10, c!"),"),
    (9, c!"},"),
    (8, c!"],"),
    (8, c!"by_monthday: [],"),
    (8, c!"by_yearday: [],"),
    (8, c!"by_weekno: [],"),
    (8, c!"by_month: ["),
    (9, c!"9,"),
    (8, c!"],"),
    (8, c!"by_setpos: [],"),
    (8, c!"wkst: None,"),
    (7, c!"},"),
    (6, c!"),"),
    (6, c!"comment: [],"),
    (6, c!"rdate: [],"),
    (6, c!"tzname: ["),
    (7, c!"Text {"),
    (8, c!"params: {},"),
    (8, c!"text: \"CET\","),
    (7, c!"},"),
    (6, c!"],"),
    (6, c!"x_prop: {},"),
    (6, c!"iana_prop: {},"),
    (5, c!"},"),
    (5, c!"Standard {"),
    (6, c!"dtstart: DateTime("),
    (7, c!"Naive("),
    (8, c!"1996-10-27T03:00:00,"),
    (7, c!"),"),
    (6, c!"),"),
    (6, c!"tzoffsetto: +01:00,"),
    (6, c!"tzoffsetfrom: +02:00,"),
    (6, c!"rrule: Some("),
    (7, c!"Recur {"),
    (8, c!"freq: Yearly,"),
    (8, c!"until: None,"),
    (8, c!"count: None,"),
    (8, c!"interval: 1,"),
    (8, c!"by_second: [],"),
    (8, c!"by_minute: [],"),
    (8, c!"by_hour: [],"),
    (8, c!"by_day: ["),
    (9, c!"WeekdayNum {"),
    (10, c!"weekday: Sunday,"),
    (10, c!"ord: Some("),
    (11, c!"-1,"),
    (10, c!"),"),
    (9, c!"},"),
    (8, c!"],"),
    (8, c!"by_monthday: [],"),
    (8, c!"by_yearday: [],"),
    (8, c!"by_weekno: [],"),
    (8, c!"by_month: ["),
    (9, c!"10,"),
    (8, c!"],"),
    (8, c!"by_setpos: [],"),
    (8, c!"wkst: None,"),
    (7, c!"},"),
    (6, c!"),"),
    (6, c!"comment: [],"),
    (6, c!"rdate: [],"),
    (6, c!"tzname: ["),
    (7, c!"Text {"),
    (8, c!"params: {},"),
    (8, c!"text: \"CET\","),
    (7, c!"},"),
    (6, c!"],"),
    (6, c!"x_prop: {},"),
    (6, c!"iana_prop: {},"),
    (5, c!"},"),
    (5, c!"Standard {"),
    (6, c!"dtstart: DateTime("),
    (7, c!"Naive("),
    (8, c!"1941-10-06T02:00:00,"),
    (7, c!"),"),
    (6, c!"),"),
    (6, c!"tzoffsetto: +01:00,"),
    (6, c!"tzoffsetfrom: +02:00,"),
    (6, c!"rrule: None,"),
    (6, c!"comment: [],"),
    (6, c!"rdate: ["),
    (7, c!"Date("),
    (8, c!"["),
    (9, c!"DateTime("),
    (10, c!"Naive("),
    (11, c!"1941-10-06T02:00:00,"),
    (10, c!"),"),
    (9, c!"),"),
    (8, c!"],"),
    (7, c!"),"),
    (7, c!"Date("),
    (8, c!"["),
    (9, c!"DateTime("),
    (10, c!"Naive("),
    (11, c!"1942-10-05T02:00:00,"),
    (10, c!"),"),
    (9, c!"),"),
    (8, c!"],"),
    (7, c!"),"),
    (6, c!"],"),
    (6, c!"tzname: ["),
    (7, c!"Text {"),
    (8, c!"params: {},"),
    (8, c!"text: \"CET\","),
    (7, c!"},"),
    (6, c!"],"),
    (6, c!"x_prop: {},"),
    (6, c!"iana_prop: {},"),
    (5, c!"},"),
    (4, c!"],"),
    (4, c!"daylight: ["),
    (5, c!"Daylight {"),
    (6, c!"dtstart: DateTime("),
    (7, c!"Naive("),
    (8, c!"1981-03-29T02:00:00,"),
    (7, c!"),"),
    (6, c!"),"),
    (6, c!"tzoffsetto: +02:00,"),
    (6, c!"tzoffsetfrom: +01:00,"),
    (6, c!"rrule: Some("),
    (7, c!"Recur {"),
    (8, c!"freq: Yearly,"),
    (8, c!"until: None,"),
    (8, c!"count: None,"),
    (8, c!"interval: 1,"),
    (8, c!"by_second: [],"),
    (8, c!"by_minute: [],"),
    (8, c!"by_hour: [],"),
    (8, c!"by_day: ["),
    (9, c!"WeekdayNum {"),
    (10, c!"weekday: Sunday,"),
    (10, c!"ord: Some("),
    (11, c!"-1,"),
    (10, c!"),"),
    (9, c!"},"),
    (8, c!"],"),
    (8, c!"by_monthday: [],"),
    (8, c!"by_yearday: [],"),
    (8, c!"by_weekno: [],"),
    (8, c!"by_month: ["),
    (9, c!"3,"),
    (8, c!"],"),
    (8, c!"by_setpos: [],"),
    (8, c!"wkst: None,"),
    (7, c!"},"),
    (6, c!"),"),
    (6, c!"comment: [],"),
    (6, c!"rdate: [],"),
    (6, c!"tzname: ["),
    (7, c!"Text {"),
    (8, c!"params: {},"),
    (8, c!"text: \"CEST\","),
    (7, c!"},"),
    (6, c!"],"),
    (6, c!"x_prop: {},"),
    (6, c!"iana_prop: {},"),
    (5, c!"},"),
    (5, c!"Daylight {"),
    (6, c!"dtstart: DateTime("),
    (7, c!"Naive("),
    (8, c!"1941-05-05T01:00:00,"),
    (7, c!"),"),
    (6, c!"),"),
    (6, c!"tzoffsetto: +02:00,"),
    (6, c!"tzoffsetfrom: +01:00,"),
    (6, c!"rrule: None,"),
    (6, c!"comment: [],"),
    (6, c!"rdate: ["),
    (7, c!"Date("),
    (8, c!"["),
    (9, c!"DateTime("),
    (10, c!"Naive("),
    (11, c!"1941-05-05T01:00:00,"),
    (10, c!"),"),
    (9, c!"),"),
    (8, c!"],"),
    (7, c!"),"),
    (7, c!"Date("),
    (8, c!"["),
    (9, c!"DateTime("),
    (10, c!"Naive("),
    (11, c!"1942-05-04T01:00:00,"),
    (10, c!"),"),
    (9, c!"),"),
    (8, c!"],"),
    (7, c!"),"),
    (6, c!"],"),
    (6, c!"tzname: ["),
    (7, c!"Text {"),
    (8, c!"params: {},"),
    (8, c!"text: \"CEST\","),
    (7, c!"},"),
    (6, c!"],"),
    (6, c!"x_prop: {},"),
    (6, c!"iana_prop: {},"),
    (5, c!"},"),
    (4, c!"],"),
    (4, c!"x_prop: {},"),
    (4, c!"iana_prop: {},"),
    (3, c!"},"),
    (2, c!"],"),
    (2, c!"x_prop: {},"),
    (2, c!"iana_prop: {},"),
    (1, c!"},"),
    (0, c!")")] := by decide +kernel

/-- `tests/calendars/timezone_same_start.ics` and `tests/calendars/timezone_same_start.out`. -/
example : shown VCalendar.ofStr (crlf [c!"BEGIN:VCALENDAR",
    c!"VERSION:2.0",
    c!"PRODID:Microsoft Exchange Server 2010",
    c!"METHOD:REQUEST",
    c!"BEGIN:VTIMEZONE",
    c!"TZID:Pacific Standard Time",
    c!"BEGIN:STANDARD",
    c!"DTSTART:16010101T020000",
    c!"RRULE:FREQ=YEARLY;INTERVAL=1;BYDAY=1SU;BYMONTH=11",
    c!"TZOFFSETFROM:-0700",
    c!"TZOFFSETTO:-0800",
    c!"END:STANDARD",
    c!"BEGIN:DAYLIGHT",
    c!"DTSTART:16010101T020000",
    c!"RRULE:FREQ=YEARLY;INTERVAL=1;BYDAY=2SU;BYMONTH=3",
    c!"TZOFFSETFROM:-0800",
    c!"TZOFFSETTO:-0700",
    c!"END:DAYLIGHT",
    c!"END:VTIMEZONE",
    c!"BEGIN:VEVENT",
    c!"SUMMARY;LANGUAGE=en-US:Test 4",
    c!"DTSTART;TZID=\"Pacific Standard Time\":20170224T120000",
    c!"DTEND;TZID=\"Pacific Standard Time\":20170224T123000",
    c!"DTSTAMP:20170224T180431Z",
    c!"UID:040000008200E00074C5B7101A82E0080000000090E19664858ED20100000000000000",
    c!"END:VEVENT",
    c!"END:VCALENDAR",
    c!""]) =
    some [
    (0, c!"Ok("),
    (1, c!"VCalendar {"),
    (2, c!"prodid: Text {"),
    (3, c!"params: {},"),
    (3, c!"text: \"Microsoft Exchange Server 2010\","),
    (2, c!"},"),
    (2, c!"version: Text {"),
    (3, c!"params: {},"),
    (3, c!"text: \"2.0\","),
    (2, c!"},"),
    (2, c!"calscale: None,"),
    (2, c!"method: Some("),
    (3, c!"Text {"),
    (4, c!"params: {},"),
    (4, c!"text: \"REQUEST\","),
    (3, c!"},"),
    (2, c!"),"),
    (2, c!"alarms: [],"),
    (2, c!"events: ["),
    (3, c!"VEvent {"),
    (4, c!"dtstamp: Local("),
    (5, c!"2017-02-24T19:04:31+01:00,"),
    (4, c!"),"),
    (4, c!"uid: Text {"),
    (5, c!"params: {},"),
    (5, c!"text: \"040000008200E00074C5B7101A82E0080000000090E19664858ED20100000000000000\","),
    (4, c!"},"),
    (4, c!"dtstart: DateTime("),
    (5, c!"Naive("),
    (6, c!"2017-02-24T12:00:00,"),
    (5, c!"),"),
    (4, c!"),"),
    (4, c!"class: None,"),
    (4, c!"created: None,"),
    (4, c!"description: None,"),
    (4, c!"geo: None,"),
    (4, c!"last_modified: None,"),
    (4, c!"location: None,"),
    (4, c!"organizer: None,"),
    (4, c!"priority: None,"),
    (4, c!"sequence: None,"),
    (4, c!"status: None,"),
    (4, c!"summary: Some("),
    (5, c!"Text {"),
    (6, c!"params: {"),
    (7, c!"\"LANGUAGE\": \"en-US\","),
    (6, c!"},"),
    (6, c!"text: \"Test 4\","),
    (5, c!"},"),
    (4, c!"),"),
    (4, c!"transp: None,"),
    (4, c!"url: None,"),
    (4, c!"recurid: None,"),
    (4, c!"rrule: None,"),
    (4, c!"dtend: Some("),
    (5, c!"DateTime("),
    (6, c!"Naive("),
    (7, c!"2017-02-24T12:30:00,"),
    (6, c!"),"),
    (5, c!"),"),
    (4, c!"),"),
    (4, c!"duration: None,"),
    (4, c!"attach: [],"),
    (4, c!"attendee: [],"),
    (4, c!"categories: [],"),
    (4, c!"comment: [],"),
    (4, c!"contact: [],"),
    (4, c!"exdate: [],"),
    (4, c!"rstatus: [],"),
    (4, c!"related_to: [],"),
    (4, c!"resources: [],"),
    (4, c!"rdate: [],"),
    (4, c!"alarms: [],"),
    (4, c!"x_prop: {},"),
    (4, c!"iana_prop: {},"),
    (3, c!"},"),
    (2, c!"],"),
    (2, c!"freebusy: [],"),
    (2, c!"journals: [],"),
    (2, c!"todo: [],"),
    (2, c!"timezones: ["),
    (3, c!"VTimezone {"),
    (4, c!"tzid: Text {"),
    (5, c!"params: {},"),
    (5, c!"text: \"Pacific Standard Time\","),
    (4, c!"},"),
    (4, c!"last_modified: None,"),
    (4, c!"tzurl: None,"),
    (4, c!"standard: ["),
    (5, c!"Standard {"),
    (6, c!"dtstart: DateTime("),
    (7, c!"Naive("),
    (8, c!"1601-01-01T02:00:00,"),
    (7, c!"),"),
    (6, c!"),"),
    (6, c!"tzoffsetto: -08:00,"),
    (6, c!"tzoffsetfrom: -07:00,"),
    (6, c!"rrule: Some("),
    (7, c!"Recur {"),
    (8, c!"freq: Yearly,"),
    (8, c!"until: None,"),
    (8, c!"count: None,"),
    (8, c!"interval: 1,"),
    (8, c!"by_second: [],"),
    (8, c!"by_minute: [],"),
    (8, c!"by_hour: [],"),
    (8, c!"by_day: ["),
    (9, c!"WeekdayNum {"),
    (10, c!"weekday: Sunday,"),
    (10, c!"ord: Some("),
    (11, c!"1,"),
    (10, c!"),"),
    (9, c!"},"),
    (8, c!"],"),
    (8, c!"by_monthday: [],"),
    (8, c!"by_yearday: [],"),
    (8, c!"by_weekno: [],"),
    (8, c!"by_month: ["),
    (9, c!"11,"),
    (8, c!"],"),
    (8, c!"by_setpos: [],"),
    (8, c!"wkst: None,"),
    (7, c!"},"),
    (6, c!"),"),
    (6, c!"comment: [],"),
    (6, c!"rdate: [],"),
    (6, c!"tzname: [],"),
    (6, c!"x_prop: {},"),
    (6, c!"iana_prop: {},"),
    (5, c!"},"),
    (4, c!"],"),
    (4, c!"daylight: ["),
    (5, c!"Daylight {"),
    (6, c!"dtstart: DateTime("),
    (7, c!"Naive("),
    (8, c!"1601-01-01T02:00:00,"),
    (7, c!"),"),
    (6, c!"),"),
    (6, c!"tzoffsetto: -07:00,"),
    (6, c!"tzoffsetfrom: -08:00,"),
    (6, c!"rrule: Some("),
    (7, c!"Recur {"),
    (8, c!"freq: Yearly,"),
    (8, c!"until: None,"),
    (8, c!"count: None,"),
    (8, c!"interval: 1,"),
    (8, c!"by_second: [],"),
    (8, c!"by_minute: [],"),
    (8, c!"by_hour: [],"),
    (8, c!"by_day: ["),
    (9, c!"WeekdayNum {"),
    (10, c!"weekday: Sunday,"),
    (10, c!"ord: Some("),
    (11, c!"2,"),
    (10, c!"),"),
    (9, c!"},"),
    (8, c!"],"),
    (8, c!"by_monthday: [],"),
    (8, c!"by_yearday: [],"),
    (8, c!"by_weekno: [],"),
    (8, c!"by_month: ["),
    (9, c!"3,"),
    (8, c!"],"),
    (8, c!"by_setpos: [],"),
    (8, c!"wkst: None,"),
    (7, c!"},"),
    (6, c!"),"),
    (6, c!"comment: [],"),
    (6, c!"rdate: [],"),
    (6, c!"tzname: [],"),
    (6, c!"x_prop: {},"),
    (6, c!"iana_prop: {},"),
    (5, c!"},"),
    (4, c!"],"),
    (4, c!"x_prop: {},"),
    (4, c!"iana_prop: {},"),
    (3, c!"},"),
    (2, c!"],"),
    (2, c!"x_prop: {},"),
    (2, c!"iana_prop: {},"),
    (1, c!"},"),
    (0, c!")")] := by decide +kernel

/-- `tests/calendars/timezone_same_start_and_offset.ics` and `tests/calendars/timezone_same_start_and_offset.out`. -/
example : shown VCalendar.ofStr (crlf [c!"BEGIN:VCALENDAR",
    c!"VERSION:2.0",
    c!"PRODID:Microsoft Exchange Server 2010",
    c!"BEGIN:VTIMEZONE",
    c!"TZID:Tokyo Standard Time",
    c!"BEGIN:STANDARD",
    c!"DTSTART:16010101T000000",
    c!"TZOFFSETFROM:+0900",
    c!"TZOFFSETTO:+0900",
    c!"END:STANDARD",
    c!"BEGIN:DAYLIGHT",
    c!"DTSTART:16010101T000000",
    c!"TZOFFSETFROM:+0900",
    c!"TZOFFSETTO:+0900",
    c!"END:DAYLIGHT",
    c!"END:VTIMEZONE",
    c!"BEGIN:VEVENT",
    c!"DTSTAMP;TZID=\"Tokyo Standard Time\":20170224T120000",
    c!"DTSTART;TZID=\"Tokyo Standard Time\":20170224T120000",
    c!"DTEND;TZID=\"Tokyo Standard Time\":20170224T123000",
    c!"UID:blafoobar",
    c!"SUMMARY:this is an event",
    c!"END:VEVENT",
    c!"END:VCALENDARD",
    c!""]) =
    some [
    (0, c!"Ok("),
    (1, c!"VCalendar {"),
    (2, c!"prodid: Text {"),
    (3, c!"params: {},"),
    (3, c!"text: \"Microsoft Exchange Server 2010\","),
    (2, c!"},"),
    (2, c!"version: Text {"),
    (3, c!"params: {},"),
    (3, c!"text: \"2.0\","),
    (2, c!"},"),
    (2, c!"calscale: None,"),
    (2, c!"method: None,"),
    (2, c!"alarms: [],"),
    (2, c!"events: ["),
    (3, c!"VEvent {"),
    (4, c!"dtstamp: Naive("),
    (5, c!"2017-02-24T12:00:00,"),
    (4, c!"),"),
    (4, c!"uid: Text {"),
    (5, c!"params: {},"),
    (5, c!"text: \"blafoobar\","),
    (4, c!"},"),
    (4, c!"dtstart: DateTime("),
    (5, c!"Naive("),
    (6, c!"2017-02-24T12:00:00,"),
    (5, c!"),"),
    (4, c!"),"),
    (4, c!"class: None,"),
    (4, c!"created: None,"),
    (4, c!"description: None,"),
    (4, c!"geo: None,"),
    (4, c!"last_modified: None,"),
    (4, c!"location: None,"),
    (4, c!"organizer: None,"),
    (4, c!"priority: None,"),
    (4, c!"sequence: None,"),
    (4, c!"status: None,"),
    (4, c!"summary: Some("),
    (5, c!"Text {"),
    (6, c!"params: {},"),
    (6, c!"text: \"this is an event\","),
    (5, c!"},"),
    (4, c!"),"),
    (4, c!"transp: None,"),
    (4, c!"url: None,"),
    (4, c!"recurid: None,"),
    (4, c!"rrule: None,"),
    (4, c!"dtend: Some("),
    (5, c!"DateTime("),
    (6, c!"Naive("),
    (7, c!"2017-02-24T12:30:00,"),
    (6, c!"),"),
    (5, c!"),"),
    (4, c!"),"),
    (4, c!"duration: None,"),
    (4, c!"attach: [],"),
    (4, c!"attendee: [],"),
    (4, c!"categories: [],"),
    (4, c!"comment: [],"),
    (4, c!"contact: [],"),
    (4, c!"exdate: [],"),
    (4, c!"rstatus: [],"),
    (4, c!"related_to: [],"),
    (4, c!"resources: [],"),
    (4, c!"rdate: [],"),
    (4, c!"alarms: [],"),
    (4, c!"x_prop: {},"),
    (4, c!"iana_prop: {},"),
    (3, c!"},"),
    (2, c!"],"),
    (2, c!"freebusy: [],"),
    (2, c!"journals: [],"),
    (2, c!"todo: [],"),
    (2, c!"timezones: ["),
    (3, c!"VTimezone {"),
    (4, c!"tzid: Text {"),
    (5, c!"params: {},"),
    (5, c!"text: \"Tokyo Standard Time\","),
    (4, c!"},"),
    (4, c!"last_modified: None,"),
    (4, c!"tzurl: None,"),
    (4, c!"standard: ["),
    (5, c!"Standard {"),
    (6, c!"dtstart: DateTime("),
    (7, c!"Naive("),
    (8, c!"1601-01-01T00:00:00,"),
    (7, c!"),"),
    (6, c!"),"),
    (6, c!"tzoffsetto: +09:00,"),
    (6, c!"tzoffsetfrom: +09:00,"),
    (6, c!"rrule: None,"),
    (6, c!"comment: [],"),
    (6, c!"rdate: [],"),
    (6, c!"tzname: [],"),
    (6, c!"x_prop: {},"),
    (6, c!"iana_prop: {},"),
    (5, c!"},"),
    (4, c!"],"),
    (4, c!"daylight: ["),
    (5, c!"Daylight {"),
    (6, c!"dtstart: DateTime("),
    (7, c!"Naive("),
    (8, c!"1601-01-01T00:00:00,"),
    (7, c!"),"),
    (6, c!"),"),
    (6, c!"tzoffsetto: +09:00,"),
    (6, c!"tzoffsetfrom: +09:00,"),
    (6, c!"rrule: None,"),
    (6, c!"comment: [],"),
    (6, c!"rdate: [],"),
    (6, c!"tzname: [],"),
    (6, c!"x_prop: {},"),
    (6, c!"iana_prop: {},"),
    (5, c!"},"),
    (4, c!"],"),
    (4, c!"x_prop: {},"),
    (4, c!"iana_prop: {},"),
    (3, c!"},"),
    (2, c!"],"),
    (2, c!"x_prop: {},"),
    (2, c!"iana_prop: {},"),
    (1, c!"},"),
    (0, c!")")] := by decide +kernel

/-- `tests/calendars/timezoned.ics` and `tests/calendars/timezoned.out`. -/
example : shown VCalendar.ofStr (crlf [c!"BEGIN:VCALENDAR",
    c!"PRODID:-//Plone.org//NONSGML plone.app.event//EN",
    c!"VERSION:2.0",
    c!"X-WR-CALNAME:test create calendar",
    c!"X-WR-CALDESC:icalendar test",
    c!"X-WR-RELCALID:12345",
    c!"X-WR-TIMEZONE:Europe/Vienna",
    c!"BEGIN:VTIMEZONE",
    c!"TZID:Europe/Vienna",
    c!"X-LIC-LOCATION:Europe/Vienna",
    c!"BEGIN:DAYLIGHT",
    c!"TZOFFSETFROM:+0100",
    c!"TZOFFSETTO:+0200",
    c!"TZNAME:CEST",
    c!"DTSTART:19700329T020000",
    c!"RRULE:FREQ=YEARLY;BYMONTH=3;BYDAY=-1SU",
    c!"END:DAYLIGHT",
    c!"BEGIN:STANDARD",
    c!"TZOFFSETFROM:+0200",
    c!"TZOFFSETTO:+0100",
    c!"TZNAME:CET",
    c!"DTSTART:19701025T030000",
    c!"RRULE:FREQ=YEARLY;BYMONTH=10;BYDAY=-1SU",
    c!"END:STANDARD",
    c!"END:VTIMEZONE",
    c!"BEGIN:VEVENT",
    c!"DTSTART;TZID=Europe/Vienna:20120213T100000",
    c!"DTEND;TZID=Europe/Vienna:20120217T180000",
    c!"DTSTAMP:20101010T091010Z",
    c!"CREATED:20101010T091010Z",
    c!"UID:123456",
    c!"SUMMARY:artsprint 2012",
    c!"DESCRIPTION:sprinting at the artsprint",
    c!"LOCATION:aka bild, wien",
    c!"END:VEVENT",
    c!"END:VCALENDAR",
    c!""]) =
    some [
    (0, c!"Ok("),
    (1, c!"VCalendar {"),
    (2, c!"prodid: Text {"),
    (3, c!"params: {},"),
    (3, c!"text: \"-//Plone.org//NONSGML plone.app.event//EN\","),
    (2, c!"},"),
    (2, c!"version: Text {"),
    (3, c!"params: {},"),
    (3, c!"text: \"2.0\","),
    (2, c!"},"),
    (2, c!"calscale: None,"),
    (2, c!"method: None,"),
    (2, c!"alarms: [],"),
    (2, c!"events: ["),
    (3, c!"VEvent {"),
    (4, c!"dtstamp: Local("),
    (5, c!"2010-10-10T11:10:10+02:00,"),
    (4, c!"),"),
    (4, c!"uid: Text {"),
    (5, c!"params: {},"),
    (5, c!"text: \"123456\","),
    (4, c!"},"),
    (4, c!"dtstart: DateTime("),
    (5, c!"Naive("),
    (6, c!"2012-02-13T10:00:00,"),
    (5, c!"),"),
    (4, c!"),"),
    (4, c!"class: None,"),
    (4, c!"created: Some("),
    (5, c!"Local("),
    (6, c!"2010-10-10T11:10:10+02:00,"),
    (5, c!"),"),
    (4, c!"),"),
    (4, c!"description: Some("),
    (5, c!"Text {"),
    (6, c!"params: {},"),
    (6, c!"text: \"sprinting at the artsprint\","),
    (5, c!"},"),
    (4, c!"),"),
    (4, c!"geo: None,"),
    (4, c!"last_modified: None,"),
    (4, c!"location: Some("),
    (5, c!"Text {"),
    (6, c!"params: {},"),
    (6, c!"text: \"aka bild, wien\","),
    (5, c!"},"),
    (4, c!"),"),
    (4, c!"organizer: None,"),
    (4, c!"priority: None,"),
    (4, c!"sequence: None,"),
    (4, c!"status: None,"),
    (4, c!"summary: Some("),
    (5, c!"Text {"),
    (6, c!"params: {},"),
    (6, c!"text: \"artsprint 2012\","),
    (5, c!"},"),
    (4, c!"),"),
    (4, c!"transp: None,"),
    (4, c!"url: None,"),
    (4, c!"recurid: None,"),
    (4, c!"rrule: None,"),
    (4, c!"dtend: Some("),
    (5, c!"DateTime("),
    (6, c!"Naive("),
    (7, c!"2012-02-17T18:00:00,"),
    (6, c!"),"),
    (5, c!"),"),
    (4, c!"),"),
    (4, c!"duration: None,"),
    (4, c!"attach: [],"),
    (4, c!"attendee: [],"),
    (4, c!"categories: [],"),
    (4, c!"comment: [],"),
    (4, c!"contact: [],"),
    (4, c!"exdate: [],"),
    (4, c!"rstatus: [],"),
    (4, c!"related_to: [],"),
    (4, c!"resources: [],"),
    (4, c!"rdate: [],"),
    (4, c!"alarms: [],"),
    (4, c!"x_prop: {},"),
    (4, c!"iana_prop: {},"),
    (3, c!"},"),
    (2, c!"],"),
    (2, c!"freebusy: [],"),
    (2, c!"journals: [],"),
    (2, c!"todo: [],"),
    (2, c!"timezones: ["),
    (3, c!"VTimezone {"),
    (4, c!"tzid: Text {"),
    (5, c!"params: {},"),
    (5, c!"text: \"Europe/Vienna\","),
    (4, c!"},"),
    (4, c!"last_modified: None,"),
    (4, c!"tzurl: None,"),
    (4, c!"standard: ["),
    (5, c!"Standard {"),
    (6, c!"dtstart: DateTime("),
    (7, c!"Naive("),
    (8, c!"1970-10-25T03:00:00,"),
    (7, c!"),"),
    (6, c!"),"),
    (6, c!"tzoffsetto: +01:00,"),
    (6, c!"tzoffsetfrom: +02:00,"),
    (6, c!"rrule: Some("),
    (7, c!"Recur {"),
    (8, c!"freq: Yearly,"),
    (8, c!"until: None,"),
    (8, c!"count: None,"),
    (8, c!"interval: 1,"),
    (8, c!"by_second: [],"),
    (8, c!"by_minute: [],"),
    (8, c!"by_hour: [],"),
    (8, c!"by_day: ["),
    (9, c!"WeekdayNum {"),
    (10, c!"weekday: Sunday,"),
    (10, c!"ord: Some("),
    (11, c!"-1,"),
    (10, c!"),"),
    (9, c!"},"),
    (8, c!"],"),
    (8, c!"by_monthday: [],"),
    (8, c!"by_yearday: [],"),
    (8, c!"by_weekno: [],"),
    (8, c!"by_month: ["),
    (9, c!"10,"),
    (8, c!"],"),
    (8, c!"by_setpos: [],"),
    (8, c!"wkst: None,"),
    (7, c!"},"),
    (6, c!"),"),
    (6, c!"comment: [],"),
    (6, c!"rdate: [],"),
    (6, c!"tzname: ["),
    (7, c!"Text {"),
    (8, c!"params: {},"),
    (8, c!"text: \"CET\","),
    (7, c!"},"),
    (6, c!"],"),
    (6, c!"x_prop: {},"),
    (6, c!"iana_prop: {},"),
    (5, c!"},"),
    (4, c!"],"),
    (4, c!"daylight: ["),
    (5, c!"Daylight {"),
    (6, c!"dtstart: DateTime("),
    (7, c!"Naive("),
    (8, c!"1970-03-29T02:00:00,"),
    (7, c!"),"),
    (6, c!"),"),
    (6, c!"tzoffsetto: +02:00,"),
    (6, c!"tzoffsetfrom: +01:00,"),
    (6, c!"rrule: Some("),
    (7, c!"Recur {"),
    (8, c!"freq: Yearly,"),
    (8, c!"until: None,"),
    (8, c!"count: None,"),
    (8, c!"interval: 1,"),
    (8, c!"by_second: [],"),
    (8, c!"by_minute: [],"),
    (8, c!"by_hour: [],"),
    (8, c!"by_day: ["),
    (9, c!"WeekdayNum {"),
    (10, c!"weekday: Sunday,"),
    (10, c!"ord: Some("),
    (11, c!"-1,"),
    (10, c!"),"),
    (9, c!"},"),
    (8, c!"],"),
    (8, c!"by_monthday: [],"),
    (8, c!"by_yearday: [],"),
    (8, c!"by_weekno: [],"),
    (8, c!"by_month: ["),
    (9, c!"3,"),
    (8, c!"],"),
    (8, c!"by_setpos: [],"),
    (8, c!"wkst: None,"),
    (7, c!"},"),
    (6, c!"),"),
    (6, c!"comment: [],"),
    (6, c!"rdate: [],"),
    (6, c!"tzname: ["),
    (7, c!"Text {"),
    (8, c!"params: {},"),
    (8, c!"text: \"CEST\","),
    (7, c!"},"),
    (6, c!"],"),
    (6, c!"x_prop: {},"),
    (6, c!"iana_prop: {},"),
    (5, c!"},"),
    (4, c!"],"),
    (4, c!"x_prop: {"),
    (5, c!"\"X-LIC-LOCATION\": ContentLine {"),
    (6, c!"params: {},"),
    (6, c!"value: \"Europe/Vienna\","),
    (5, c!"},"),
    (4, c!"},"),
    (4, c!"iana_prop: {},"),
    (3, c!"},"),
    (2, c!"],"),
    (2, c!"x_prop: {"),
    (3, c!"\"X-WR-CALDESC\": ContentLine {"),
    (4, c!"params: {},"),
    (4, c!"value: \"icalendar test\","),
    (3, c!"},"),
    (3, c!"\"X-WR-CALNAME\": ContentLine {"),
    (4, c!"params: {},"),
    (4, c!"value: \"test create calendar\","),
    (3, c!"},"),
    (3, c!"\"X-WR-RELCALID\": ContentLine {"),
    (4, c!"params: {},"),
    (4, c!"value: \"12345\","),
    (3, c!"},"),
    (3, c!"\"X-WR-TIMEZONE\": ContentLine {"),
    (4, c!"params: {},"),
    (4, c!"value: \"Europe/Vienna\","),
    (3, c!"},"),
    (2, c!"},"),
    (2, c!"iana_prop: {},"),
    (1, c!"},"),
    (0, c!")")] := by decide +kernel

/-- `tests/calendars/x_location.ics` and `tests/calendars/x_location.out`. -/
example : shown VCalendar.ofStr (crlf [c!"BEGIN:VCALENDAR",
    c!"PRODID:-//Google Inc//Google Calendar 70.9054//EN",
    c!"VERSION:2.0",
    c!"CALSCALE:GREGORIAN",
    c!"METHOD:PUBLISH",
    c!"X-WR-CALNAME:ITC",
    c!"X-WR-TIMEZONE:Europe/Zurich",
    c!"X-WR-CALDESC:ITC Bookings",
    c!"BEGIN:VTIMEZONE",
    c!"TZID:Europe/Zurich",
    c!"X-LIC-LOCATION:Europe/Zurich",
    c!"BEGIN:DAYLIGHT",
    c!"TZOFFSETFROM:+0100",
    c!"TZOFFSETTO:+0200",
    c!"TZNAME:CEST",
    c!"DTSTART:19700329T020000",
    c!"RRULE:FREQ=YEARLY;BYMONTH=3;BYDAY=-1SU",
    c!"END:DAYLIGHT",
    c!"BEGIN:STANDARD",
    c!"TZOFFSETFROM:+0200",
    c!"TZOFFSETTO:+0100",
    c!"TZNAME:CET",
    c!"DTSTART:19701025T030000",
    c!"RRULE:FREQ=YEARLY;BYMONTH=10;BYDAY=-1SU",
    c!"END:STANDARD",
    c!"END:VTIMEZONE",
    c!"BEGIN:VEVENT",
    c!"DTSTART;TZID=Europe/Zurich:20161028T140000",
    c!"DTEND;TZID=Europe/Zurich:20161028T143000",
    c!"RRULE:FREQ=WEEKLY;BYDAY=MO,TU,WE,TH,FR",
    c!"DTSTAMP:20161031T192828Z",
    c!"UID:BFE33ADD-5553-48B5-B5A5-F9DA5CA4C393",
    c!"CREATED:20161029T121229Z",
    c!"DESCRIPTION:Some Description",
    c!"LAST-MODIFIED:20161029T121229Z",
    c!"LOCATION:Roadstar 16\\n12764 Happyville\\nDenmark",
    c!"SEQUENCE:0",
    c!"STATUS:CONFIRMED",
    c!"SUMMARY:Daily Sync",
    c!"TRANSP:OPAQUE",
    c!"X-APPLE-STRUCTURED-LOCATION;VALUE=URI;X-ADDRESS=\"Röadstar 16\\n12764 Happyvi",
    c!" lle\\nDenmark\";X-APPLE-MAPKIT-HANDLE=CAESARoSCWYTYFhHQBEGfw4hQCIBDQoHRGVubW",
    c!" FyaxJES0hhcHB5dmlsbGUqSGFwcHl2aWxsZTIHSGFwcHl2aWxsZToEMTI3NjRCDQpSb2Fkc3Rh",
    c!" cloCMTZiUm9hZHN0YXIgMTYBEU1vcmRvcgENCk1vcmRvcioSUm9hZHN0YXIgMTYyUm9hZHN0YX",
    c!" IgMTYxMjc2NCBIYXBweXZpbGxlMgdEZW5tYXJrOThA=;X-APPLE-RADIUS=49.913058665846",
    c!" 98;X-APPLE-REFERENCEFRAME=1;X-TITLE=:geo:52.382762,7.528319",
    c!"END:VEVENT",
    c!"END:VCALENDAR",
    c!""]) =
    some [
    (0, c!"Ok("),
    (1, c!"VCalendar {"),
    (2, c!"prodid: Text {"),
    (3, c!"params: {},"),
    (3, c!"text: \"-//Google Inc//Google Calendar 70.9054//EN\","),
    (2, c!"},"),
    (2, c!"version: Text {"),
    (3, c!"params: {},"),
    (3, c!"text: \"2.0\","),
    (2, c!"},"),
    (2, c!"calscale: Some("),
    (3, c!"Text {"),
    (4, c!"params: {},"),
    (4, c!"text: \"GREGORIAN\","),
    (3, c!"},"),
    (2, c!"),"),
    (2, c!"method: Some("),
    (3, c!"Text {"),
    (4, c!"params: {},"),
    (4, c!"text: \"PUBLISH\","),
    (3, c!"},"),
    (2, c!"),"),
    (2, c!"alarms: [],"),
    (2, c!"events: ["),
    (3, c!"VEvent {"),
    (4, c!"dtstamp: Local("),
    (5, c!"2016-10-31T20:28:28+01:00,"),
    (4, c!"),"),
    (4, c!"uid: Text {"),
    (5, c!"params: {},"),
    (5, c!"text: \"BFE33ADD-5553-48B5-B5A5-F9DA5CA4C393\","),
    (4, c!"},"),
    (4, c!"dtstart: DateTime("),
    (5, c!"Naive("),
    (6, c!"2016-10-28T14:00:00,"),
    (5, c!"),"),
    (4, c!"),"),
    (4, c!"class: None,"),
    (4, c!"created: Some("),
    (5, c!"Local("),
    (6, c!"2016-10-29T14:12:29+02:00,"),
    (5, c!"),"),
    (4, c!"),"),
    (4, c!"description: Some("),
    (5, c!"Text {"),
    (6, c!"params: {},"),
    (6, c!"text: \"Some Description\","),
    (5, c!"},"),
    (4, c!"),"),
    (4, c!"geo: None,"),
    (4, c!"last_modified: Some("),
    (5, c!"Local("),
    (6, c!"2016-10-29T14:12:29+02:00,"),
    (5, c!"),"),
    (4, c!"),"),
    (4, c!"location: Some("),
    (5, c!"Text {"),
    (6, c!"params: {},"),
    (6, c!"text: \"Roadstar 16\\\\n12764 Happyville\\\\nDenmark\","),
    (5, c!"},"),
    (4, c!"),"),
    (4, c!"organizer: None,"),
    (4, c!"priority: None,"),
    (4, c!"sequence: Some("),
    (5, c!"0,"),
    (4, c!"),"),
    (4, c!"status: Some("),
    (5, c!"Confirmed,"),
    (4, c!"),"),
    (4, c!"summary: Some("),
    (5, c!"Text {"),
    (6, c!"params: {},"),
    (6, c!"text: \"Daily Sync\","),
    (5, c!"},"),
    (4, c!"),"),
    (4, c!"transp: Some("),
    (5, c!"Opaque,"),
    (4, c!"),"),
    (4, c!"url: None,"),
    (4, c!"recurid: None,"),
    (4, c!"rrule: Some("),
    (5, c!"Recur {"),
    (6, c!"freq: Weekly,"),
    (6, c!"until: None,"),
    (6, c!"count: None,"),
    (6, c!"interval: 1,"),
    (6, c!"by_second: [],"),
    (6, c!"by_minute: [],"),
    (6, c!"by_hour: [],"),
    (6, c!"by_day: ["),
    (7, c!"WeekdayNum {"),
    (8, c!"weekday: Monday,"),
    (8, c!"ord: None,"),
    (7, c!"},"),
    (7, c!"WeekdayNum {"),
    (8, c!"weekday: Tuesday,"),
    (8, c!"ord: None,"),
    (7, c!"},"),
    (7, c!"WeekdayNum {"),
    (8, c!"weekday: Wenesday,"),
    (8, c!"ord: None,"),
    (7, c!"},"),
    (7, c!"WeekdayNum {"),
    (8, c!"weekday: Thurday,"),
    (8, c!"ord: None,"),
    (7, c!"},"),
    (7, c!"WeekdayNum {"),
    (8, c!"weekday: Friday,"),
    (8, c!"ord: None,"),
    (7, c!"},"),
    (6, c!"],"),
    (6, c!"by_monthday: [],"),
    (6, c!"by_yearday: [],"),
    (6, c!"by_weekno: [],"),
    (6, c!"by_month: [],"),
    (6, c!"by_setpos: [],"),
    (6, c!"wkst: None,"),
    (5, c!"},"),
    (4, c!"),"),
    (4, c!"dtend: Some("),
    (5, c!"DateTime("),
    (6, c!"Naive("),
    (7, c!"2016-10-28T14:30:00,"),
    (6, c!"),"),
    (5, c!"),"),
    (4, c!"),"),
    (4, c!"duration: None,"),
    (4, c!"attach: [],"),
    (4, c!"attendee: [],"),
    (4, c!"categories: [],"),
    (4, c!"comment: [],"),
    (4, c!"contact: [],"),
    (4, c!"exdate: [],"),
    (4, c!"rstatus: [],"),
    (4, c!"related_to: [],"),
    (4, c!"resources: [],"),
    (4, c!"rdate: [],"),
    (4, c!"alarms: [],"),
    (4, c!"x_prop: {"),
    (5, c!"\"X-APPLE-STRUCTURED-LOCATION\": ContentLine {"),
    (6, c!"params: {"),
    (7, c!"\"VALUE\": \"URI\","),
    (7, c!"\"X-ADDRESS\": \"Röadstar 16\\\\n12764 Happyville\\\\nDenmark\","),
    (7, c!"\"X-APPLE-MAPKIT-HANDLE\": \"CAESARoSCWYTYFhHQBEGfw4hQCIBDQoHRGVubWFyaxJES0hhcHB5dmlsbGUqSGFwcHl2aWxsZTIHSGFwcHl2aWxsZToEMTI3NjRCDQpSb2Fkc3RhcloCMTZiUm9hZHN0YXIgMTYBEU1vcmRvcgENCk1vcmRvcioSUm9hZHN0YXIgMTYyUm9hZHN0YXIgMTYxMjc2NCBIYXBweXZpbGxlMgdEZW5tYXJrOThA=\","),
    (7, c!"\"X-APPLE-RADIUS\": \"49.91305866584698\","),
    (7, c!"\"X-APPLE-REFERENCEFRAME\": \"1\","),
    (7, c!"\"X-TITLE\": \"\","),
    (6, c!"},"),
    (6, c!"value: \"geo:52.382762,7.528319\","),
    (5, c!"},"),
    (4, c!"},"),
    (4, c!"iana_prop: {},"),
    (3, c!"},"),
    (2, c!"],"),
    (2, c!"freebusy: [],"),
    (2, c!"journals: [],"),
    (2, c!"todo: [],"),
    (2, c!"timezones: ["),
    (3, c!"VTimezone {"),
    (4, c!"tzid: Text {"),
    (5, c!"params: {},"),
    (5, c!"text: \"Europe/Zurich\","),
    (4, c!"},"),
    (4, c!"last_modified: None,"),
    (4, c!"tzurl: None,"),
    (4, c!"standard: ["),
    (5, c!"Standard {"),
    (6, c!"dtstart: DateTime("),
    (7, c!"Naive("),
    (8, c!"1970-10-25T03:00:00,"),
    (7, c!"),"),
    (6, c!"),"),
    (6, c!"tzoffsetto: +01:00,"),
    (6, c!"tzoffsetfrom: +02:00,"),
    (6, c!"rrule: Some("),
    (7, c!"Recur {"),
    (8, c!"freq: Yearly,"),
    (8, c!"until: None,"),
    (8, c!"count: None,"),
    (8, c!"interval: 1,"),
    (8, c!"by_second: [],"),
    (8, c!"by_minute: [],"),
    (8, c!"by_hour: [],"),
    (8, c!"by_day: ["),
    (9, c!"WeekdayNum {"),
    (10, c!"weekday: Sunday,"),
    (10, c!"ord: Some("),
    (11, c!"-1,"),
    (10, c!"),"),
    (9, c!"},"),
    (8, c!"],"),
    (8, c!"by_monthday: [],"),
    (8, c!"by_yearday: [],"),
    (8, c!"by_weekno: [],"),
    (8, c!"by_month: ["),
    (9, c!"10,"),
    (8, c!"],"),
    (8, c!"by_setpos: [],"),
    (8, c!"wkst: None,"),
    (7, c!"},"),
    (6, c!"),"),
    (6, c!"comment: [],"),
    (6, c!"rdate: [],"),
    (6, c!"tzname: ["),
    (7, c!"Text {"),
    (8, c!"params: {},"),
    (8, c!"text: \"CET\","),
    (7, c!"},"),
    (6, c!"],"),
    (6, c!"x_prop: {},"),
    (6, c!"iana_prop: {},"),
    (5, c!"},"),
    (4, c!"],"),
    (4, c!"daylight: ["),
    (5, c!"Daylight {"),
    (6, c!"dtstart: DateTime("),
    (7, c!"Naive("),
    (8, c!"1970-03-29T02:00:00,"),
    (7, c!"),"),
    (6, c!"),"),
    (6, c!"tzoffsetto: +02:00,"),
    (6, c!"tzoffsetfrom: +01:00,"),
    (6, c!"rrule: Some("),
    (7, c!"Recur {"),
    (8, c!"freq: Yearly,"),
    (8, c!"until: None,"),
    (8, c!"count: None,"),
    (8, c!"interval: 1,"),
    (8, c!"by_second: [],"),
    (8, c!"by_minute: [],"),
    (8, c!"by_hour: [],"),
    (8, c!"by_day: ["),
    (9, c!"WeekdayNum {"),
    (10, c!"weekday: Sunday,"),
    (10, c!"ord: Some("),
    (11, c!"-1,"),
    (10, c!"),"),
    (9, c!"},"),
    (8, c!"],"),
    (8, c!"by_monthday: [],"),
    (8, c!"by_yearday: [],"),
    (8, c!"by_weekno: [],"),
    (8, c!"by_month: ["),
    (9, c!"3,"),
    (8, c!"],"),
    (8, c!"by_setpos: [],"),
    (8, c!"wkst: None,"),
    (7, c!"},"),
    (6, c!"),"),
    (6, c!"comment: [],"),
    (6, c!"rdate: [],"),
    (6, c!"tzname: ["),
    (7, c!"Text {"),
    (8, c!"params: {},"),
    (8, c!"text: \"CEST\","),
    (7, c!"},"),
    (6, c!"],"),
    (6, c!"x_prop: {},"),
    (6, c!"iana_prop: {},"),
    (5, c!"},"),
    (4, c!"],"),
    (4, c!"x_prop: {"),
    (5, c!"\"X-LIC-LOCATION\": ContentLine {"),
    (6, c!"params: {},"),
    (6, c!"value: \"Europe/Zurich\","),
    (5, c!"},"),
    (4, c!"},"),
    (4, c!"iana_prop: {},"),
    (3, c!"},"),
    (2, c!"],"),
    (2, c!"x_prop: {"),
    (3, c!"\"X-WR-CALDESC\": ContentLine {"),
    (4, c!"params: {},"),
    (4, c!"value: \"ITC Bookings\","),
    (3, c!"},"),
    (3, c!"\"X-WR-CALNAME\": ContentLine {"),
    (4, c!"params: {},"),
    (4, c!"value: \"ITC\","),
    (3, c!"},"),
    (3, c!"\"X-WR-TIMEZONE\": ContentLine {"),
    (4, c!"params: {},"),
    (4, c!"value: \"Europe/Zurich\","),
    (3, c!"},"),
    (2, c!"},"),
    (2, c!"iana_prop: {},"),
    (1, c!"},"),
    (0, c!")")] := by decide +kernel

end Ikal.Conformance
