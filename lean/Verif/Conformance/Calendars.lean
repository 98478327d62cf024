import Verif.Conformance.Debug

/-!
# The golden files of the repository: calendars, first part

Generated from `tests/`: every input file, and the recorded `{:#?}` rendering of what the program makes of
it (depth of indentation and text of every line), or `none` if it must be rejected.
-/

set_option maxRecDepth 100000

namespace Ikal.Conformance

attribute [local instance] cet cetFloat

/-- `tests/calendars/1.ics` and `tests/calendars/1.out`. -/
example : shown VCalendar.ofStr (crlf [c!"BEGIN:VCALENDAR",
    c!"PRODID:-//Nextcloud calendar v1.5.0",
    c!"VERSION:2.0",
    c!"CALSCALE:GREGORIAN",
    c!"BEGIN:VEVENT",
    c!"CREATED:20170209T192358",
    c!"DTSTAMP:20170209T192358",
    c!"LAST-MODIFIED:20170209T192358",
    c!"UID:5UILHLI7RI6K2IDRAQX7O",
    c!"SUMMARY:Vers",
    c!"CLASS:PUBLIC",
    c!"STATUS:CONFIRMED",
    c!"DTSTART;VALUE=DATE-TIME;TZID=Europe/Paris:20150219T190000",
    c!"DTEND;VALUE=DATE:20170210",
    c!"END:VEVENT",
    c!"BEGIN:VTIMEZONE",
    c!"TZID:Europe/Berlin",
    c!"X-LIC-LOCATION:Europe/Berlin",
    c!"BEGIN:DAYLIGHT",
    c!"TZOFFSETFROM:+0100",
    c!"TZOFFSETTO:+0200",
    c!"TZNAME:CEST",
    c!"DTSTART:19700329T020000",
    c!"RRULE:FREQ=YEARLY;BYDAY=-1SU;BYMONTH=3",
    c!"END:DAYLIGHT",
    c!"BEGIN:STANDARD",
    c!"TZOFFSETFROM:+0200",
    c!"TZOFFSETTO:+0100",
    c!"TZNAME:CET",
    c!"DTSTART:19701025T030000",
    c!"RRULE:FREQ=YEARLY;BYDAY=-1SU;BYMONTH=10",
    c!"END:STANDARD",
    c!"END:VTIMEZONE",
    c!"END:VCALENDAR",
    c!""]) =
    some [
    (0, c!"Ok("),
    (1, c!"VCalendar {"),
    (2, c!"prodid: Text {"),
    (3, c!"params: {},"),
    (3, c!"text: \"-//Nextcloud calendar v1.5.0\","),
    (2, c!"},"),
    (2, c!"version: Text {"),
    (3, c!"params: {},"),
    (3, c!"text: \"2.0\","),
    (2, c!"},"),
    (2, c!"calscale: Some("),
    (3, c!"Text {"),
    (4, c!"params: {},"),
    (4, c!"text: \"GREGORIAN\","),
    (3, c!"},"),
    (2, c!"),"),
    (2, c!"method: None,"),
    (2, c!"alarms: [],"),
    (2, c!"events: ["),
    (3, c!"VEvent {"),
    (4, c!"dtstamp: Naive("),
    (5, c!"2017-02-09T19:23:58,"),
    (4, c!"),"),
    (4, c!"uid: Text {"),
    (5, c!"params: {},"),
    (5, c!"text: \"5UILHLI7RI6K2IDRAQX7O\","),
    (4, c!"},"),
    (4, c!"dtstart: DateTime("),
    (5, c!"Naive("),
    (6, c!"2015-02-19T19:00:00,"),
    (5, c!"),"),
    (4, c!"),"),
    (4, c!"class: Some("),
    (5, c!"Public,"),
    (4, c!"),"),
    (4, c!"created: Some("),
    (5, c!"Naive("),
    (6, c!"2017-02-09T19:23:58,"),
    (5, c!"),"),
    (4, c!"),"),
    (4, c!"description: None,"),
    (4, c!"geo: None,"),
    (4, c!"last_modified: Some("),
    (5, c!"Naive("),
    (6, c!"2017-02-09T19:23:58,"),
    (5, c!"),"),
    (4, c!"),"),
    (4, c!"location: None,"),
    (4, c!"organizer: None,"),
    (4, c!"priority: None,"),
    (4, c!"sequence: None,"),
    (4, c!"status: Some("),
    (5, c!"Confirmed,"),
    (4, c!"),"),
    (4, c!"summary: Some("),
    (5, c!"Text {"),
    (6, c!"params: {},"),
    (6, c!"text: \"Vers\","),
    (5, c!"},"),
    (4, c!"),"),
    (4, c!"transp: None,"),
    (4, c!"url: None,"),
    (4, c!"recurid: None,"),
    (4, c!"rrule: None,"),
    (4, c!"dtend: Some("),
    (5, c!"Date("),
    (6, c!"2017-02-10,"),
    (5, c!"),"),
    (4, c!"),"),
    (4, c!"duration: None,"),
    (4, c!"attach: [],"),
    (4, c!"attendee: [],"),
    (4, c!"categories: [],"),
    (4, c!"comment: [],"),
    (4, c!"contact: [],"),
    (4, c!"exdate: [],"),
    (4, c!"rstatus: [],"),
    (4, c!"related_to: [],"),
    (4, c!"resources: [],"),
    (4, c!"rdate: [],"),
    (4, c!"alarms: [],"),
    (4, c!"x_prop: {},"),
    (4, c!"iana_prop: {},"),
    (3, c!"},"),
    (2, c!"],"),
    (2, c!"freebusy: [],"),
    (2, c!"journals: [],"),
    (2, c!"todo: [],"),
    (2, c!"timezones: ["),
    (3, c!"VTimezone {"),
    (4, c!"tzid: Text {"),
    (5, c!"params: {},"),
    (5, c!"text: \"Europe/Berlin\","),
    (4, c!"},"),
    (4, c!"last_modified: None,"),
    (4, c!"tzurl: None,"),
    (4, c!"standard: ["),
    (5, c!"Standard {"),
    (6, c!"dtstart: DateTime("),
    (7, c!"Naive("),
    (8, c!"1970-10-25T03:00:00,"),
    (7, c!"),"),
    (6, c!"),"),
    (6, c!"tzoffsetto: +01:00,"),
    (6, c!"tzoffsetfrom: +02:00,"),
    (6, c!"rrule: Some("),
    (7, c!"Recur {"),
    (8, c!"freq: Yearly,"),
    (8, c!"until: None,"),
    (8, c!"count: None,"),
    (8, c!"interval: 1,"),
    (8, c!"by_second: [],"),
    (8, c!"by_minute: [],"),
    (8, c!"by_hour: [],"),
    (8, c!"by_day: ["),
    (9, c!"WeekdayNum {"),
    (10, c!"weekday: Sunday,"),
    (10, c!"ord: Some("),
    (11, c!"-1,"),
    (10, c!"),"),
    (9, c!"},"),
    (8, c!"],"),
    (8, c!"by_monthday: [],"),
    (8, c!"by_yearday: [],"),
    (8, c!"by_weekno: [],"),
    (8, c!"by_month: ["),
    (9, c!"10,"),
    (8, c!"],"),
    (8, c!"by_setpos: [],"),
    (8, c!"wkst: None,"),
    (7, c!"},"),
    (6, c!"),"),
    (6, c!"comment: [],"),
    (6, c!"rdate: [],"),
    (6, c!"tzname: ["),
    (7, c!"Text {"),
    (8, c!"params: {},"),
    (8, c!"text: \"CET\","),
    (7, c!"},"),
    (6, c!"],"),
    (6, c!"x_prop: {},"),
    (6, c!"iana_prop: {},"),
    (5, c!"},"),
    (4, c!"],"),
    (4, c!"daylight: ["),
    (5, c!"Daylight {"),
    (6, c!"dtstart: DateTime("),
    (7, c!"Naive("),
    (8, c!"1970-03-29T02:00:00,"),
    (7, c!"),"),
    (6, c!"),"),
    (6, c!"tzoffsetto: +02:00,"),
    (6, c!"tzoffsetfrom: +01:00,"),
    (6, c!"rrule: Some("),
    (7, c!"Recur {"),
    (8, c!"freq: Yearly,"),
    (8, c!"until: None,"),
    (8, c!"count: None,"),
    (8, c!"interval: 1,"),
    (8, c!"by_second: [],"),
    (8, c!"by_minute: [],"),
    (8, c!"by_hour: [],"),
    (8, c!"by_day: ["),
    (9, c!"WeekdayNum {"),
    (10, c!"weekday: Sunday,"),
    (10, c!"ord: Some("),
    (11, c!"-1,"),
    (10, c!"),"),
    (9, c!"},"),
    (8, c!"],"),
    (8, c!"by_monthday: [],"),
    (8, c!"by_yearday: [],"),
    (8, c!"by_weekno: [],"),
    (8, c!"by_month: ["),
    (9, c!"3,"),
    (8, c!"],"),
    (8, c!"by_setpos: [],"),
    (8, c!"wkst: None,"),
    (7, c!"},"),
    (6, c!"),"),
    (6, c!"comment: [],"),
    (6, c!"rdate: [],"),
    (6, c!"tzname: ["),
    (7, c!"Text {"),
    (8, c!"params: {},"),
    (8, c!"text: \"CEST\","),
    (7, c!"},"),
    (6, c!"],"),
    (6, c!"x_prop: {},"),
    (6, c!"iana_prop: {},"),
    (5, c!"},"),
    (4, c!"],"),
    (4, c!"x_prop: {"),
    (5, c!"\"X-LIC-LOCATION\": ContentLine {"),
    (6, c!"params: {},"),
    (6, c!"value: \"Europe/Berlin\","),
    (5, c!"},"),
    (4, c!"},"),
    (4, c!"iana_prop: {},"),
    (3, c!"},"),
    (2, c!"],"),
    (2, c!"x_prop: {},"),
    (2, c!"iana_prop: {},"),
    (1, c!"},"),
    (0, c!")")] := by decide +kernel

/-- `tests/calendars/2.ics` and `tests/calendars/2.out`. -/
example : shown VCalendar.ofStr (crlf [c!"BEGIN:VCALENDAR",
    c!"VERSION:2.0",
    c!"PRODID:ownCloud Calendar",
    c!"CALSCALE:GREGORIAN",
    c!"BEGIN:VEVENT",
    c!"UID:7e27d9fc69",
    c!"DTSTAMP:20150717T101959Z",
    c!"CREATED:20150717T101959Z",
    c!"LAST-MODIFIED:20150717T101959Z",
    c!"SUMMARY:Garage",
    c!"DTSTART;VALUE=DATE:20150722",
    c!"DTEND;VALUE=DATE:20150723",
    c!"LOCATION:",
    c!"DESCRIPTION:",
    c!"CATEGORIES:",
    c!"END:VEVENT",
    c!"END:VCALENDAR",
    c!""]) =
    some [
    (0, c!"Ok("),
    (1, c!"VCalendar {"),
    (2, c!"prodid: Text {"),
    (3, c!"params: {},"),
    (3, c!"text: \"ownCloud Calendar\","),
    (2, c!"},"),
    (2, c!"version: Text {"),
    (3, c!"params: {},"),
    (3, c!"text: \"2.0\","),
    (2, c!"},"),
    (2, c!"calscale: Some("),
    (3, c!"Text {"),
    (4, c!"params: {},"),
    (4, c!"text: \"GREGORIAN\","),
    (3, c!"},"),
    (2, c!"),"),
    (2, c!"method: None,"),
    (2, c!"alarms: [],"),
    (2, c!"events: ["),
    (3, c!"VEvent {"),
    (4, c!"dtstamp: Local("),
    (5, c!"2015-07-17T12:19:59+02:00,"),
    (4, c!"),"),
    (4, c!"uid: Text {"),
    (5, c!"params: {},"),
    (5, c!"text: \"7e27d9fc69\","),
    (4, c!"},"),
    (4, c!"dtstart: Date("),
    (5, c!"2015-07-22,"),
    (4, c!"),"),
    (4, c!"class: None,"),
    (4, c!"created: Some("),
    (5, c!"Local("),
    (6, c!"2015-07-17T12:19:59+02:00,"),
    (5, c!"),"),
    (4, c!"),"),
    (4, c!"description: Some("),
    (5, c!"Text {"),
    (6, c!"params: {},"),
    (6, c!"text: \"\","),
    (5, c!"},"),
    (4, c!"),"),
    (4, c!"geo: None,"),
    (4, c!"last_modified: Some("),
    (5, c!"Local("),
    (6, c!"2015-07-17T12:19:59+02:00,"),
    (5, c!"),"),
    (4, c!"),"),
    (4, c!"location: Some("),
    (5, c!"Text {"),
    (6, c!"params: {},"),
    (6, c!"text: \"\","),
    (5, c!"},"),
    (4, c!"),"),
    (4, c!"organizer: None,"),
    (4, c!"priority: None,"),
    (4, c!"sequence: None,"),
    (4, c!"status: None,"),
    (4, c!"summary: Some("),
    (5, c!"Text {"),
    (6, c!"params: {},"),
    (6, c!"text: \"Garage\","),
    (5, c!"},"),
    (4, c!"),"),
    (4, c!"transp: None,"),
    (4, c!"url: None,"),
    (4, c!"recurid: None,"),
    (4, c!"rrule: None,"),
    (4, c!"dtend: Some("),
    (5, c!"Date("),
    (6, c!"2015-07-23,"),
    (5, c!"),"),
    (4, c!"),"),
    (4, c!"duration: None,"),
    (4, c!"attach: [],"),
    (4, c!"attendee: [],"),
    (4, c!"categories: ["),
    (5, c!"Text {"),
    (6, c!"params: {},"),
    (6, c!"text: \"\","),
    (5, c!"},"),
    (4, c!"],"),
    (4, c!"comment: [],"),
    (4, c!"contact: [],"),
    (4, c!"exdate: [],"),
    (4, c!"rstatus: [],"),
    (4, c!"related_to: [],"),
    (4, c!"resources: [],"),
    (4, c!"rdate: [],"),
    (4, c!"alarms: [],"),
    (4, c!"x_prop: {},"),
    (4, c!"iana_prop: {},"),
    (3, c!"},"),
    (2, c!"],"),
    (2, c!"freebusy: [],"),
    (2, c!"journals: [],"),
    (2, c!"todo: [],"),
    (2, c!"timezones: [],"),
    (2, c!"x_prop: {},"),
    (2, c!"iana_prop: {},"),
    (1, c!"},"),
    (0, c!")")] := by decide +kernel

/-- `tests/calendars/3.ics` and `tests/calendars/3.out`. -/
example : shown VCalendar.ofStr (crlf [c!"BEGIN:VCALENDAR",
    c!"VERSION:2.0",
    c!"PRODID:+//IDN bitfire.at//DAVdroid/1.0.8 ical4android ical4j/2.x",
    c!"BEGIN:VTODO",
    c!"DTSTAMP:20160515T164310Z",
    c!"UID:10442264-14b1-47cf-9263-69447c0e0d7f",
    c!"CREATED:20160515T094801Z",
    c!"LAST-MODIFIED:20160515T094801Z",
    c!"SUMMARY:the science of good cooking +book",
    c!"LOCATION:",
    c!"STATUS:COMPLETED",
    c!"PERCENT-COMPLETE:100",
    c!"COMPLETED:20160515T192354",
    c!"END:VTODO",
    c!"END:VCALENDAR",
    c!""]) =
    some [
    (0, c!"Ok("),
    (1, c!"VCalendar {"),
    (2, c!"prodid: Text {"),
    (3, c!"params: {},"),
    (3, c!"text: \"+//IDN bitfire.at//DAVdroid/1.0.8 ical4android ical4j/2.x\","),
    (2, c!"},"),
    (2, c!"version: Text {"),
    (3, c!"params: {},"),
    (3, c!"text: \"2.0\","),
    (2, c!"},"),
    (2, c!"calscale: None,"),
    (2, c!"method: None,"),
    (2, c!"alarms: [],"),
    (2, c!"events: [],"),
    (2, c!"freebusy: [],"),
    (2, c!"journals: [],"),
    (2, c!"todo: ["),
    (3, c!"VTodo {"),
    (4, c!"dtstamp: Local("),
    (5, c!"2016-05-15T18:43:10+02:00,"),
    (4, c!"),"),
    (4, c!"uid: Text {"),
    (5, c!"params: {},"),
    (5, c!"text: \"10442264-14b1-47cf-9263-69447c0e0d7f\","),
    (4, c!"},"),
    (4, c!"class: None,"),
    (4, c!"completed: Some("),
    (5, c!"Naive("),
    (6, c!"2016-05-15T19:23:54,"),
    (5, c!"),"),
    (4, c!"),"),
    (4, c!"created: Some("),
    (5, c!"Local("),
    (6, c!"2016-05-15T11:48:01+02:00,"),
    (5, c!"),"),
    (4, c!"),"),
    (4, c!"dtstart: None,"),
    (4, c!"geo: None,"),
    (4, c!"last_modified: Some("),
    (5, c!"Local("),
    (6, c!"2016-05-15T11:48:01+02:00,"),
    (5, c!"),"),
    (4, c!"),"),
    (4, c!"location: Some("),
    (5, c!"Text {"),
    (6, c!"params: {},"),
    (6, c!"text: \"\","),
    (5, c!"},"),
    (4, c!"),"),
    (4, c!"organizer: None,"),
    (4, c!"percent_complete: Some("),
    (5, c!"100,"),
    (4, c!"),"),
    (4, c!"priority: None,"),
    (4, c!"recurid: None,"),
    (4, c!"sequence: None,"),
    (4, c!"status: Some("),
    (5, c!"Completed,"),
    (4, c!"),"),
    (4, c!"summary: Some("),
    (5, c!"Text {"),
    (6, c!"params: {},"),
    (6, c!"text: \"the science of good cooking +book\","),
    (5, c!"},"),
    (4, c!"),"),
    (4, c!"url: None,"),
    (4, c!"rrule: None,"),
    (4, c!"due: None,"),
    (4, c!"duration: None,"),
    (4, c!"attach: [],"),
    (4, c!"attendee: [],"),
    (4, c!"categories: [],"),
    (4, c!"comment: [],"),
    (4, c!"contact: [],"),
    (4, c!"exdate: [],"),
    (4, c!"rstatus: [],"),
    (4, c!"related_to: [],"),
    (4, c!"resources: [],"),
    (4, c!"rdate: [],"),
    (4, c!"x_prop: {},"),
    (4, c!"iana_prop: {},"),
    (3, c!"},"),
    (2, c!"],"),
    (2, c!"timezones: [],"),
    (2, c!"x_prop: {},"),
    (2, c!"iana_prop: {},"),
    (1, c!"},"),
    (0, c!")")] := by decide +kernel

/-- `tests/calendars/4.ics` and `tests/calendars/4.out`. -/
example : shown VCalendar.ofStr (crlf [c!"BEGIN:VCALENDAR",
    c!"PRODID:-//Nextcloud calendar v1.5.0",
    c!"VERSION:2.0",
    c!"BEGIN:VTIMEZONE",
    c!"TZID:Europe/Paris",
    c!"X-LIC-LOCATION:Europe/Paris",
    c!"BEGIN:DAYLIGHT",
    c!"TZOFFSETFROM:+0100",
    c!"TZOFFSETTO:+0200",
    c!"TZNAME:CEST",
    c!"DTSTART:19700329T020000",
    c!"RRULE:FREQ=YEARLY;BYDAY=-1SU;BYMONTH=3",
    c!"END:DAYLIGHT",
    c!"BEGIN:STANDARD",
    c!"TZOFFSETFROM:+0200",
    c!"TZOFFSETTO:+0100",
    c!"TZNAME:CET",
    c!"DTSTART:19701025T030000",
    c!"RRULE:FREQ=YEARLY;BYDAY=-1SU;BYMONTH=10",
    c!"END:STANDARD",
    c!"END:VTIMEZONE",
    c!"BEGIN:VEVENT",
    c!"CREATED:20130503T053745Z",
    c!"LAST-MODIFIED:20140709T182046Z",
    c!"DTSTAMP:20140709T182046Z",
    c!"UID:1686cebb-a816-4657-8d5e-3b2ce0c0589c",
    c!"SUMMARY:Assemblée Générale Ordinaire 2013",
    c!"DTSTART;TZID=Europe/Paris:20130516T193000",
    c!"DTEND;TZID=Europe/Paris:20130516T203000",
    c!"DESCRIPTION:Bonjour\\,\\n\\nAprès un peu de retard\\, nous sommes prêts pour",
    c!"  organiser l\\'Assemblée\\nGénérale Ordinaire.\\n\\nEn tant que membre de l\\'",
    c!" association Faimaison\\, vous êtes convoqué à\\nl\\'assemblée Générale O",
    c!" rdinaire.\\n\\nCelle-ci aura lieu le 16 Mai à B17 (17\\, rue Paul Bellamy)",
    c!" à 19h30.\\n\\nComme expliqué dans les derniers échanges\\, il y aura un re",
    c!" nouvellement\\nde bureau avec changement de président.\\n\\nL\\'ordre du jour",
    c!" sera donc le suivant :\\n\\n- Bilan Moral\\n- Bilan Financier\\n- Renouvelleme",
    c!" nt du bureau.\\n- Projets en cours\\n\\nSi vous ne pouvez pas participer vous",
    c!"  pouvez donner procuration à un\\nmembre de votre choix.\\nPour cela\\, envo",
    c!" yez un mail à bureau@faimaison.net en indiquant la personne\\nmandatée.\\n",
    c!" \\nÀ très bientot ! \\n\\n-- \\nGuillaume Douté",
    c!"CLASS:PUBLIC",
    c!"TRANSP:OPAQUE",
    c!"END:VEVENT",
    c!"END:VCALENDAR",
    c!""]) =
    some [
    (0, c!"Ok("),
    (1, c!"VCalendar {"),
    (2, c!"prodid: Text {"),
    (3, c!"params: {},"),
    (3, c!"text: \"-//Nextcloud calendar v1.5.0\","),
    (2, c!"},"),
    (2, c!"version: Text {"),
    (3, c!"params: {},"),
    (3, c!"text: \"2.0\","),
    (2, c!"},"),
    (2, c!"calscale: None,"),
    (2, c!"method: None,"),
    (2, c!"alarms: [],"),
    (2, c!"events: ["),
    (3, c!"VEvent {"),
    (4, c!"dtstamp: Local("),
    (5, c!"2014-07-09T20:20:46+02:00,"),
    (4, c!"),"),
    (4, c!"uid: Text {"),
    (5, c!"params: {},"),
    (5, c!"text: \"1686cebb-a816-4657-8d5e-3b2ce0c0589c\","),
    (4, c!"},"),
    (4, c!"dtstart: DateTime("),
    (5, c!"Naive("),
    (6, c!"2013-05-16T19:30:00,"),
    (5, c!"),"),
    (4, c!"),"),
    (4, c!"class: Some("),
    (5, c!"Public,"),
    (4, c!"),"),
    (4, c!"created: Some("),
    (5, c!"Local("),
    (6, c!"2013-05-03T07:37:45+02:00,"),
    (5, c!"),"),
    (4, c!"),"),
    (4, c!"description: Some("),
    (5, c!"Text {"),
    (6, c!"params: {},"),
    (6, c!"text: \"Bonjour\\\\,\\\\n\\\\nAprès un peu de retard\\\\, nous sommes prêts pour organiser l\\\\'Assemblée\\\\nGénérale Ordinaire.\\\\n\\\\nEn tant que membre de l\\\\'association Faimaison\\\\, vous êtes convoqué à\\\\nl\\\\'assemblée Générale Ordinaire.\\\\n\\\\nCelle-ci aura lieu le 16 Mai à B17 (17\\\\, rue Paul Bellamy)à 19h30.\\\\n\\\\nComme expliqué dans les derniers échanges\\\\, il y aura un renouvellement\\\\nde bureau avec changement de président.\\\\n\\\\nL\\\\'ordre du joursera donc le suivant :\\\\n\\\\n- Bilan Moral\\\\n- Bilan Financier\\\\n- Renouvellement du bureau.\\\\n- Projets en cours\\\\n\\\\nSi vous ne pouvez pas participer vous pouvez donner procuration à un\\\\nmembre de votre choix.\\\\nPour cela\\\\, envoyez un mail à bureau@faimaison.net en indiquant la personne\\\\nmandatée.\\\\n\\\\nÀ très bientot ! \\\\n\\\\n-- \\\\nGuillaume Douté\","),
    (5, c!"},"),
    (4, c!"),"),
    (4, c!"geo: None,"),
    (4, c!"last_modified: Some("),
    (5, c!"Local("),
    (6, c!"2014-07-09T20:20:46+02:00,"),
    (5, c!"),"),
    (4, c!"),"),
    (4, c!"location: None,"),
    (4, c!"organizer: None,"),
    (4, c!"priority: None,"),
    (4, c!"sequence: None,"),
    (4, c!"status: None,"),
    (4, c!"summary: Some("),
    (5, c!"Text {"),
    (6, c!"params: {},"),
    (6, c!"text: \"Assemblée Générale Ordinaire 2013\","),
    (5, c!"},"),
    (4, c!"),"),
    (4, c!"transp: Some("),
    (5, c!"Opaque,"),
    (4, c!"),"),
    (4, c!"url: None,"),
    (4, c!"recurid: None,"),
    (4, c!"rrule: None,"),
    (4, c!"dtend: Some("),
    (5, c!"DateTime("),
    (6, c!"Naive("),
    (7, c!"2013-05-16T20:30:00,"),
    (6, c!"),"),
    (5, c!"),"),
    (4, c!"),"),
    (4, c!"duration: None,"),
    (4, c!"attach: [],"),
    (4, c!"attendee: [],"),
    (4, c!"categories: [],"),
    (4, c!"comment: [],"),
    (4, c!"contact: [],"),
    (4, c!"exdate: [],"),
    (4, c!"rstatus: [],"),
    (4, c!"related_to: [],"),
    (4, c!"resources: [],"),
    (4, c!"rdate: [],"),
    (4, c!"alarms: [],"),
    (4, c!"x_prop: {},"),
    (4, c!"iana_prop: {},"),
    (3, c!"},"),
    (2, c!"],"),
    (2, c!"freebusy: [],"),
    (2, c!"journals: [],"),
    (2, c!"todo: [],"),
    (2, c!"timezones: ["),
    (3, c!"VTimezone {"),
    (4, c!"tzid: Text {"),
    (5, c!"params: {},"),
    (5, c!"text: \"Europe/Paris\","),
    (4, c!"},"),
    (4, c!"last_modified: None,"),
    (4, c!"tzurl: None,"),
    (4, c!"standard: ["),
    (5, c!"Standard {"),
    (6, c!"dtstart: DateTime("),
    (7, c!"Naive("),
    (8, c!"1970-10-25T03:00:00,"),
    (7, c!"),"),
    (6, c!"),"),
    (6, c!"tzoffsetto: +01:00,"),
    (6, c!"tzoffsetfrom: +02:00,"),
    (6, c!"rrule: Some("),
    (7, c!"Recur {"),
    (8, c!"freq: Yearly,"),
    (8, c!"until: None,"),
    (8, c!"count: None,"),
    (8, c!"interval: 1,"),
    (8, c!"by_second: [],"),
    (8, c!"by_minute: [],"),
    (8, c!"by_hour: [],"),
    (8, c!"by_day: ["),
    (9, c!"WeekdayNum {"),
    (10, c!"weekday: Sunday,"),
    (10, c!"ord: Some("),
    (11, c!"-1,"),
    (10, c!"),"),
    (9, c!"},"),
    (8, c!"],"),
    (8, c!"by_monthday: [],"),
    (8, c!"by_yearday: [],"),
    (8, c!"by_weekno: [],"),
    (8, c!"by_month: ["),
    (9, c!"10,"),
    (8, c!"],"),
    (8, c!"by_setpos: [],"),
    (8, c!"wkst: None,"),
    (7, c!"},"),
    (6, c!"),"),
    (6, c!"comment: [],"),
    (6, c!"rdate: [],"),
    (6, c!"tzname: ["),
    (7, c!"Text {"),
    (8, c!"params: {},"),
    (8, c!"text: \"CET\","),
    (7, c!"},"),
    (6, c!"],"),
    (6, c!"x_prop: {},"),
    (6, c!"iana_prop: {},"),
    (5, c!"},"),
    (4, c!"],"),
    (4, c!"daylight: ["),
    (5, c!"Daylight {"),
    (6, c!"dtstart: DateTime("),
    (7, c!"Naive("),
    (8, c!"1970-03-29T02:00:00,"),
    (7, c!"),"),
    (6, c!"),"),
    (6, c!"tzoffsetto: +02:00,"),
    (6, c!"tzoffsetfrom: +01:00,"),
    (6, c!"rrule: Some("),
    (7, c!"Recur {"),
    (8, c!"freq: Yearly,"),
    (8, c!"until: None,"),
    (8, c!"count: None,"),
    (8, c!"interval: 1,"),
    (8, c!"by_second: [],"),
    (8, c!"by_minute: [],"),
    (8, c!"by_hour: [],"),
    (8, c!"by_day: ["),
    (9, c!"WeekdayNum {"),
    (10, c!"weekday: Sunday,"),
    (10, c!"ord: Some("),
    (11, c!"-1,"),
    (10, c!"),"),
    (9, c!"},"),
    (8, c!"],"),
    (8, c!"by_monthday: [],"),
    (8, c!"by_yearday: [],"),
    (8, c!"by_weekno: [],"),
    (8, c!"by_month: ["),
    (9, c!"3,"),
    (8, c!"],"),
    (8, c!"by_setpos: [],"),
    (8, c!"wkst: None,"),
    (7, c!"},"),
    (6, c!"),"),
    (6, c!"comment: [],"),
    (6, c!"rdate: [],"),
    (6, c!"tzname: ["),
    (7, c!"Text {"),
    (8, c!"params: {},"),
    (8, c!"text: \"CEST\","),
    (7, c!"},"),
    (6, c!"],"),
    (6, c!"x_prop: {},"),
    (6, c!"iana_prop: {},"),
    (5, c!"},"),
    (4, c!"],"),
    (4, c!"x_prop: {"),
    (5, c!"\"X-LIC-LOCATION\": ContentLine {"),
    (6, c!"params: {},"),
    (6, c!"value: \"Europe/Paris\","),
    (5, c!"},"),
    (4, c!"},"),
    (4, c!"iana_prop: {},"),
    (3, c!"},"),
    (2, c!"],"),
    (2, c!"x_prop: {},"),
    (2, c!"iana_prop: {},"),
    (1, c!"},"),
    (0, c!")")] := by decide +kernel

/-- `tests/calendars/america_new_york.ics` and `tests/calendars/america_new_york.out`. -/
example : shown VCalendar.ofStr (crlf [c!"BEGIN:VCALENDAR",
    c!"VERSION:2.0",
    c!"PRODID:collective/icalendar",
    c!"BEGIN:VTIMEZONE",
    c!"TZID:custom_America/New_York",
    c!"LAST-MODIFIED:20050809T050000Z",
    c!"BEGIN:DAYLIGHT",
    c!"DTSTART:19670430T020000",
    c!"RRULE:FREQ=YEARLY;BYMONTH=4;BYDAY=-1SU;UNTIL=19730429T070000Z",
    c!"TZOFFSETFROM:-0500",
    c!"TZOFFSETTO:-0400",
    c!"TZNAME:EDT",
    c!"END:DAYLIGHT",
    c!"BEGIN:STANDARD",
    c!"DTSTART:19671029T020000",
    c!"RRULE:FREQ=YEARLY;BYMONTH=10;BYDAY=-1SU;UNTIL=20061029T060000Z",
    c!"TZOFFSETFROM:-0400",
    c!"TZOFFSETTO:-0500",
    c!"TZNAME:EST",
    c!"END:STANDARD",
    c!"BEGIN:DAYLIGHT",
    c!"DTSTART:19740106T020000",
    c!"RDATE:19750223T020000",
    c!"TZOFFSETFROM:-0500",
    c!"TZOFFSETTO:-0400",
    c!"TZNAME:EDT",
    c!"END:DAYLIGHT",
    c!"BEGIN:DAYLIGHT",
    c!"DTSTART:19760425T020000",
    c!"RRULE:FREQ=YEARLY;BYMONTH=4;BYDAY=-1SU;UNTIL=19860427T070000Z",
    c!"TZOFFSETFROM:-0500",
    c!"TZOFFSETTO:-0400",
    c!"TZNAME:EDT",
    c!"END:DAYLIGHT",
    c!"BEGIN:DAYLIGHT",
    c!"DTSTART:19870405T020000",
    c!"RRULE:FREQ=YEARLY;BYMONTH=4;BYDAY=1SU;UNTIL=20060402T070000Z",
    c!"TZOFFSETFROM:-0500",
    c!"TZOFFSETTO:-0400",
    c!"TZNAME:EDT",
    c!"END:DAYLIGHT",
    c!"BEGIN:DAYLIGHT",
    c!"DTSTART:20070311T020000",
    c!"RRULE:FREQ=YEARLY;BYMONTH=3;BYDAY=2SU",
    c!"TZOFFSETFROM:-0500",
    c!"TZOFFSETTO:-0400",
    c!"TZNAME:EDT",
    c!"END:DAYLIGHT",
    c!"BEGIN:STANDARD",
    c!"DTSTART:20071104T020000",
    c!"RRULE:FREQ=YEARLY;BYMONTH=11;BYDAY=1SU",
    c!"TZOFFSETFROM:-0400",
    c!"TZOFFSETTO:-0500",
    c!"TZNAME:EST",
    c!"END:STANDARD",
    c!"END:VTIMEZONE",
    c!"BEGIN:VEVENT",
    c!"DTSTAMP:20071104T020000",
    c!"DTSTART:20071104T020000",
    c!"UID:noend123",
    c!"DTSTART;TZID=custom_America/New_York;VALUE=DATE-TIME:20140829T080000",
    c!"DTSTART;TZID=custom_America/New_York;VALUE=DATE-TIME:20140829T100000",
    c!"SUMMARY:an event with a custom tz name",
    c!"END:VEVENT",
    c!"END:VCALENDAR",
    c!""]) =
    some [
    (0, c!"Ok("),
    (1, c!"VCalendar {"),
    (2, c!"prodid: Text {"),
    (3, c!"params: {},"),
    (3, c!"text: \"collective/icalendar\","),
    (2, c!"},"),
    (2, c!"version: Text {"),
    (3, c!"params: {},"),
    (3, c!"text: \"2.0\","),
    (2, c!"},"),
    (2, c!"calscale: None,"),
    (2, c!"method: None,"),
    (2, c!"alarms: [],"),
    (2, c!"events: ["),
    (3, c!"VEvent {"),
    (4, c!"dtstamp: Naive("),
    (5, c!"2007-11-04T02:00:00,"),
    (4, c!"),"),
    (4, c!"uid: Text {"),
    (5, c!"params: {},"),
    (5, c!"text: \"noend123\","),
    (4, c!"},"),
    (4, c!"dtstart: DateTime("),
    (5, c!"Naive("),
    (6, c!"2014-08-29T10:00:00,"),
    (5, c!"),"),
    (4, c!"),"),
    (4, c!"class: None,"),
    (4, c!"created: None,"),
    (4, c!"description: None,"),
    (4, c!"geo: None,"),
    (4, c!"last_modified: None,"),
    (4, c!"location: None,"),
    (4, c!"organizer: None,"),
    (4, c!"priority: None,"),
    (4, c!"sequence: None,"),
    (4, c!"status: None,"),
    (4, c!"summary: Some("),
    (5, c!"Text {"),
    (6, c!"params: {},"),
    (6, c!"text: \"an event with a custom tz name\","),
    (5, c!"},"),
    (4, c!"),"),
    (4, c!"transp: None,"),
    (4, c!"url: None,"),
    (4, c!"recurid: None,"),
    (4, c!"rrule: None,"),
    (4, c!"dtend: None,"),
    (4, c!"duration: None,"),
    (4, c!"attach: [],"),
    (4, c!"attendee: [],"),
    (4, c!"categories: [],"),
    (4, c!"comment: [],"),
    (4, c!"contact: [],"),
    (4, c!"exdate: [],"),
    (4, c!"rstatus: [],"),
    (4, c!"related_to: [],"),
    (4, c!"resources: [],"),
    (4, c!"rdate: [],"),
    (4, c!"alarms: [],"),
    (4, c!"x_prop: {},"),
    (4, c!"iana_prop: {},"),
    (3, c!"},"),
    (2, c!"],"),
    (2, c!"freebusy: [],"),
    (2, c!"journals: [],"),
    (2, c!"todo: [],"),
    (2, c!"timezones: ["),
    (3, c!"VTimezone {"),
    (4, c!"tzid: Text {"),
    (5, c!"params: {},"),
    (5, c!"text: \"custom_America/New_York\","),
    (4, c!"},"),
    (4, c!"last_modified: Some("),
    (5, c!"Local("),
    (6, c!"2005-08-09T07:00:00+02:00,"),
    (5, c!"),"),
    (4, c!"),"),
    (4, c!"tzurl: None,"),
    (4, c!"standard: ["),
    (5, c!"Standard {"),
    (6, c!"dtstart: DateTime("),
    (7, c!"Naive("),
    (8, c!"1967-10-29T02:00:00,"),
    (7, c!"),"),
    (6, c!"),"),
    (6, c!"tzoffsetto: -05:00,"),
    (6, c!"tzoffsetfrom: -04:00,"),
    (6, c!"rrule: Some("),
    (7, c!"Recur {"),
    (8, c!"freq: Yearly,"),
    (8, c!"until: Some("),
    (9, c!"DateTime("),
    (10, c!"Local("),
    (11, c!"2006-10-29T07:00:00+01:00,"),
    (10, c!"),"),
    (9, c!"),"),
    (8, c!"),"),
    (8, c!"count: None,"),
    (8, c!"interval: 1,"),
    (8, c!"by_second: [],"),
    (8, c!"by_minute: [],"),
    (8, c!"by_hour: [],"),
    (8, c!"by_day: ["),
    (9, c!"WeekdayNum {"),
    (10, c!"weekday: Sunday,"),
    (10, c!"ord: Some("),
    (11, c!"-1,"),
    (10, c!"),"),
    (9, c!"},"),
    (8, c!"],"),
    (8, c!"by_monthday: [],"),
    (8, c!"by_yearday: [],"),
    (8, c!"by_weekno: [],"),
    (8, c!"by_month: ["),
    (9, c!"10,"),
    (8, c!"],"),
    (8, c!"by_setpos: [],"),
    (8, c!"wkst: None,"),
    (7, c!"},"),
    (6, c!"),"),
    (6, c!"comment: [],"),
    (6, c!"rdate: [],"),
    (6, c!"tzname: ["),
    (7, c!"Text {"),
    (8, c!"params: {},"),
    (8, c!"text: \"EST\","),
    (7, c!"},"),
    (6, c!"],"),
    (6, c!"x_prop: {},"),
    (6, c!"iana_prop: {},"),
    (5, c!"},"),
    (5, c!"Standard {"),
    (6, c!"dtstart: DateTime("),
    (7, c!"Naive("),
    (8, c!"2007-11-04T02:00:00,"),
    (7, c!"),"),
    (6, c!"),"),
    (6, c!"tzoffsetto: -05:00,"),
    (6, c!"tzoffsetfrom: -04:00,"),
    (6, c!"rrule: Some("),
    (7, c!"Recur {"),
    (8, c!"freq: Yearly,"),
    (8, c!"until: None,"),
    (8, c!"count: None,"),
    (8, c!"interval: 1,"),
    (8, c!"by_second: [],"),
    (8, c!"by_minute: [],"),
    (8, c!"by_hour: [],"),
    (8, c!"by_day: ["),
    (9, c!"WeekdayNum {"),
    (10, c!"weekday: Sunday,"),
    (10, c!"ord: Some("),
    (11, c!"1,"),
    (10, c!"),"),
    (9, c!"},"),
    (8, c!"],"),
    (8, c!"by_monthday: [],"),
    (8, c!"by_yearday: [],"),
    (8, c!"by_weekno: [],"),
    (8, c!"by_month: ["),
    (9, c!"11,"),
    (8, c!"],"),
    (8, c!"by_setpos: [],"),
    (8, c!"wkst: None,"),
    (7, c!"},"),
    (6, c!"),"),
    (6, c!"comment: [],"),
    (6, c!"rdate: [],"),
    (6, c!"tzname: ["),
    (7, c!"Text {"),
    (8, c!"params: {},"),
    (8, c!"text: \"EST\","),
    (7, c!"},"),
    (6, c!"],"),
    (6, c!"x_prop: {},"),
    (6, c!"iana_prop: {},"),
    (5, c!"},"),
    (4, c!"],"),
    (4, c!"daylight: ["),
    (5, c!"Daylight {"),
    (6, c!"dtstart: DateTime("),
    (7, c!"Naive("),
    (8, c!"1967-04-30T02:00:00,"),
    (7, c!"),"),
    (6, c!"),"),
    (6, c!"tzoffsetto: -04:00,"),
    (6, c!"tzoffsetfrom: -05:00,"),
    (6, c!"rrule: Some("),
    (7, c!"Recur {"),
    (8, c!"freq: Yearly,"),
    (8, c!"until: Some("),
    (9, c!"DateTime("),
    (10, c!"Local("),
    (11, c!"1973-04-29T08:00:00+01:00,"),
    (10, c!"),"),
    (9, c!"),"),
    (8, c!"),"),
    (8, c!"count: None,"),
    (8, c!"interval: 1,"),
    (8, c!"by_second: [],"),
    (8, c!"by_minute: [],"),
    (8, c!"by_hour: [],"),
    (8, c!"by_day: ["),
    (9, c!"WeekdayNum {"),
    (10, c!"weekday: Sunday,"),
    (10, c!"ord: Some("),
    (11, c!"-1,"),
    (10, c!"),"),
    (9, c!"},"),
    (8, c!"],"),
    (8, c!"by_monthday: [],"),
    (8, c!"by_yearday: [],"),
    (8, c!"by_weekno: [],"),
    (8, c!"by_month: ["),
    (9, c!"4,"),
    (8, c!"],"),
    (8, c!"by_setpos: [],"),
    (8, c!"wkst: None,"),
    (7, c!"},"),
    (6, c!"),"),
    (6, c!"comment: [],"),
    (6, c!"rdate: [],"),
    (6, c!"tzname: ["),
    (7, c!"Text {"),
    (8, c!"params: {},"),
    (8, c!"text: \"EDT\","),
    (7, c!"},"),
    (6, c!"],"),
    (6, c!"x_prop: {},"),
    (6, c!"iana_prop: {},"),
    (5, c!"},"),
    (5, c!"Daylight {"),
    (6, c!"dtstart: DateTime("),
    (7, c!"Naive("),
    (8, c!"1974-01-06T02:00:00,"),
    (7, c!"),"),
    (6, c!"),"),
    (6, c!"tzoffsetto: -04:00,"),
    (6, c!"tzoffsetfrom: -05:00,"),
    (6, c!"rrule: None,"),
    (6, c!"comment: [],"),
    (6, c!"rdate: ["),
    (7, c!"Date("),
    (8, c!"["),
    (9, c!"DateTime("),
    (10, c!"Naive("),
    (11, c!"1975-02-23T02:00:00,"),
    (10, c!"),"),
    (9, c!"),"),
    (8, c!"],"),
    (7, c!"),"),
    (6, c!"],"),
    (6, c!"tzname: ["),
    (7, c!"Text {"),
    (8, c!"params: {},"),
    (8, c!"text: \"EDT\","),
    (7, c!"},"),
    (6, c!"],"),
    (6, c!"x_prop: {},"),
    (6, c!"iana_prop: {},"),
    (5, c!"},"),
    (5, c!"Daylight {"),
    (6, c!"dtstart: DateTime("),
    (7, c!"Naive("),
    (8, c!"1976-04-25T02:00:00,"),
    (7, c!"),"),
    (6, c!"),"),
    (6, c!"tzoffsetto: -04:00,"),
    (6, c!"tzoffsetfrom: -05:00,"),
    (6, c!"rrule: Some("),
    (7, c!"Recur {"),
    (8, c!"freq: Yearly,"),
    (8, c!"until: Some("),
    (9, c!"DateTime("),
    (10, c!"Local("),
    (11, c!"1986-04-27T09:00:00+02:00,"),
    (10, c!"),"),
    (9, c!"),"),
    (8, c!"),"),
    (8, c!"count: None,"),
    (8, c!"interval: 1,"),
    (8, c!"by_second: [],"),
    (8, c!"by_minute: [],"),
    (8, c!"by_hour: [],"),
    (8, c!"by_day: ["),
    (9, c!"WeekdayNum {"),
    (10, c!"weekday: Sunday,"),
    (10, c!"ord: Some("),
    (11, c!"-1,"),
    (10, c!"),"),
    (9, c!"},"),
    (8, c!"],"),
    (8, c!"by_monthday: [],"),
    (8, c!"by_yearday: [],"),
    (8, c!"by_weekno: [],"),
    (8, c!"by_month: ["),
    (9, c!"4,"),
    (8, c!"],"),
    (8, c!"by_setpos: [],"),
    (8, c!"wkst: None,"),
    (7, c!"},"),
    (6, c!"),"),
    (6, c!"comment: [],"),
    (6, c!"rdate: [],"),
    (6, c!"tzname: ["),
    (7, c!"Text {"),
    (8, c!"params: {},"),
    (8, c!"text: \"EDT\","),
    (7, c!"},"),
    (6, c!"],"),
    (6, c!"x_prop: {},"),
    (6, c!"iana_prop: {},"),
    (5, c!"},"),
    (5, c!"Daylight {"),
    (6, c!"dtstart: DateTime("),
    (7, c!"Naive("),
    (8, c!"1987-04-05T02:00:00,"),
    (7, c!"),"),
    (6, c!"),"),
    (6, c!"tzoffsetto: -04:00,"),
    (6, c!"tzoffsetfrom: -05:00,"),
    (6, c!"rrule: Some("),
    (7, c!"Recur {"),
    (8, c!"freq: Yearly,"),
    (8, c!"until: Some("),
    (9, c!"DateTime("),
    (10, c!"Local("),
    (11, c!"2006-04-02T09:00:00+02:00,"),
    (10, c!"),"),
    (9, c!"),"),
    (8, c!"),"),
    (8, c!"count: None,"),
    (8, c!"interval: 1,"),
    (8, c!"by_second: [],"),
    (8, c!"by_minute: [],"),
    (8, c!"by_hour: [],"),
    (8, c!"by_day: ["),
    (9, c!"WeekdayNum {"),
    (10, c!"weekday: Sunday,"),
    (10, c!"ord: Some("),
    (11, c!"1,"),
    (10, c!"),"),
    (9, c!"},"),
    (8, c!"],"),
    (8, c!"by_monthday: [],"),
    (8, c!"by_yearday: [],"),
    (8, c!"by_weekno: [],"),
    (8, c!"by_month: ["),
    (9, c!"4,"),
    (8, c!"],"),
    (8, c!"by_setpos: [],"),
    (8, c!"wkst: None,"),
    (7, c!"},"),
    (6, c!"),"),
    (6, c!"comment: [],"),
    (6, c!"rdate: [],"),
    (6, c!"tzname: ["),
    (7, c!"Text {"),
    (8, c!"params: {},"),
    (8, c!"text: \"EDT\","),
    (7, c!"},"),
    (6, c!"],"),
    (6, c!"x_prop: {},"),
    (6, c!"iana_prop: {},"),
    (5, c!"},"),
    (5, c!"Daylight {"),
    (6, c!"dtstart: DateTime("),
    (7, c!"Naive("),
    (8, c!"2007-03-11T02:00:00,"),
    (7, c!"),"),
    (6, c!"),"),
    (6, c!"tzoffsetto: -04:00,"),
    (6, c!"tzoffsetfrom: -05:00,"),
    (6, c!"rrule: Some("),
    (7, c!"Recur {"),
    (8, c!"freq: Yearly,"),
    (8, c!"until: None,"),
    (8, c!"count: None,"),
    (8, c!"interval: 1,"),
    (8, c!"by_second: [],"),
    (8, c!"by_minute: [],"),
    (8, c!"by_hour: [],"),
    (8, c!"by_day: ["),
    (9, c!"WeekdayNum {"),
    (10, c!"weekday: Sunday,"),
    (10, c!"ord: Some("),
    (11, c!"2,"),
    (10, c!"),"),
    (9, c!"},"),
    (8, c!"],"),
    (8, c!"by_monthday: [],"),
    (8, c!"by_yearday: [],"),
    (8, c!"by_weekno: [],"),
    (8, c!"by_month: ["),
    (9, c!"3,"),
    (8, c!"],"),
    (8, c!"by_setpos: [],"),
    (8, c!"wkst: None,"),
    (7, c!"},"),
    (6, c!"),"),
    (6, c!"comment: [],"),
    (6, c!"rdate: [],"),
    (6, c!"tzname: ["),
    (7, c!"Text {"),
    (8, c!"params: {},"),
    (8, c!"text: \"EDT\","),
    (7, c!"},"),
    (6, c!"],"),
    (6, c!"x_prop: {},"),
    (6, c!"iana_prop: {},"),
    (5, c!"},"),
    (4, c!"],"),
    (4, c!"x_prop: {},"),
    (4, c!"iana_prop: {},"),
    (3, c!"},"),
    (2, c!"],"),
    (2, c!"x_prop: {},"),
    (2, c!"iana_prop: {},"),
    (1, c!"},"),
    (0, c!")")] := by decide +kernel

/-- `tests/calendars/big_bad_calendar.ics`, which must be rejected. -/
example : shown VCalendar.ofStr (crlf [c!"BEGIN:VCALENDAR",
    c!"BEGIN:VEVENT",
    c!"END:VEVENT",
    c!"BEGIN:VEVENT",
    c!"END:VEVENT",
    c!"BEGIN:VEVENT",
    c!"END:VEVENT",
    c!"BEGIN:VEVENT",
    c!"END:VEVENT",
    c!"BEGIN:VEVENT",
    c!"END:VEVENT",
    c!"BEGIN:VEVENT",
    c!"END:VEVENT",
    c!"BEGIN:VEVENT",
    c!"END:VEVENT",
    c!"BEGIN:VEVENT",
    c!"END:VEVENT",
    c!"BEGIN:VEVENT",
    c!"END:VEVENT",
    c!"BEGIN:VEVENT",
    c!"END:VEVENT",
    c!"BEGIN:VEVENT",
    c!"END:VEVENT",
    c!"BEGIN:VEVENT",
    c!"END:VEVENT",
    c!"BEGIN:VEVENT",
    c!"END:VEVENT",
    c!"BEGIN:VEVENT",
    c!"END:VEVENT",
    c!"BEGIN:VEVENT",
    c!"END:VEVENT",
    c!"BEGIN:VEVENT",
    c!"END:VEVENT",
    c!"BEGIN:VEVENT",
    c!"END:VEVENT",
    c!"BEGIN:VEVENT",
    c!"END:VEVENT",
    c!"BEGIN:VEVENT",
    c!"END:VEVENT",
    c!"BEGIN:VEVENT",
    c!"END:VEVENT",
    c!""]) =
    none := by decide +kernel

/-- `tests/calendars/broken_ical.ics`, which must be rejected. -/
example : shown VCalendar.ofStr (lf [c!"BEGIN:VCALENDAR",
    c!"BEGIN:VEVENT",
    c!"SUMMARY:An Event with too many semicolons",
    c!"DTSTART;;VALUE=DATE-TIME:20140409T093000",
    c!"UID:abc",
    c!"END:VEVENT",
    c!"END:VCALENDAR"]) =
    none := by decide +kernel

/-- `tests/calendars/calendar_with_unicode.ics` and `tests/calendars/calendar_with_unicode.out`. -/
example : shown VCalendar.ofStr (crlf [c!"BEGIN:VCALENDAR",
    c!"PRODID:-//Plönë.org//NONSGML plone.app.event//EN",
    c!"VERSION:2.0",
    c!"X-WR-CALNAME:äöü ÄÖÜ €",
    c!"X-WR-CALDESC:test non ascii: äöü ÄÖÜ €",
    c!"X-WR-RELCALID:12345",
    c!"END:VCALENDAR",
    c!""]) =
    some [
    (0, c!"Ok("),
    (1, c!"VCalendar {"),
    (2, c!"prodid: Text {"),
    (3, c!"params: {},"),
    (3, c!"text: \"-//Plönë.org//NONSGML plone.app.event//EN\","),
    (2, c!"},"),
    (2, c!"version: Text {"),
    (3, c!"params: {},"),
    (3, c!"text: \"2.0\","),
    (2, c!"},"),
    (2, c!"calscale: None,"),
    (2, c!"method: None,"),
    (2, c!"alarms: [],"),
    (2, c!"events: [],"),
    (2, c!"freebusy: [],"),
    (2, c!"journals: [],"),
    (2, c!"todo: [],"),
    (2, c!"timezones: [],"),
    (2, c!"x_prop: {"),
    (3, c!"\"X-WR-CALDESC\": ContentLine {"),
    (4, c!"params: {},"),
    (4, c!"value: \"test non ascii: äöü ÄÖÜ €\","),
    (3, c!"},"),
    (3, c!"\"X-WR-CALNAME\": ContentLine {"),
    (4, c!"params: {},"),
    (4, c!"value: \"äöü ÄÖÜ €\","),
    (3, c!"},"),
    (3, c!"\"X-WR-RELCALID\": ContentLine {"),
    (4, c!"params: {},"),
    (4, c!"value: \"12345\","),
    (3, c!"},"),
    (2, c!"},"),
    (2, c!"iana_prop: {},"),
    (1, c!"},"),
    (0, c!")")] := by decide +kernel

/-- `tests/calendars/created_calendar_with_unicode_fields.ics` and `tests/calendars/created_calendar_with_unicode_fields.out`. -/
example : shown VCalendar.ofStr (crlf [c!"BEGIN:VCALENDAR",
    c!"VERSION:2.0",
    c!"PRODID:-//Plönë.org//NONSGML plone.app.event//EN",
    c!"X-WR-CALDESC:test non ascii: äöü ÄÖÜ €",
    c!"X-WR-CALNAME:äöü ÄÖÜ €",
    c!"X-WR-RELCALID:12345",
    c!"BEGIN:VEVENT",
    c!"SUMMARY:Non-ASCII Test: ÄÖÜ äöü €",
    c!"DTSTAMP:20101010T100000Z",
    c!"DTSTART:20101010T100000Z",
    c!"DTEND:20101010T120000Z",
    c!"UID:123456",
    c!"CREATED:20101010T000000Z",
    c!"DESCRIPTION:icalendar should be able to de/serialize non-ascii.",
    c!"LOCATION:Tribstrül",
    c!"END:VEVENT",
    c!"BEGIN:VEVENT",
    c!"SUMMARY:åäö",
    c!"DTSTAMP:20101010T100000Z",
    c!"UID:123456",
    c!"DTSTART:20101010T000000Z",
    c!"END:VEVENT",
    c!"BEGIN:VEVENT",
    c!"DTSTAMP:20101010T100000Z",
    c!"UID:123456",
    c!"DTSTART:20101010T000000Z",
    c!"DESCRIPTION:äöüßÄÖÜ",
    c!"END:VEVENT",
    c!"END:VCALENDAR",
    c!""]) =
    some [
    (0, c!"Ok("),
    (1, c!"VCalendar {"),
    (2, c!"prodid: Text {"),
    (3, c!"params: {},"),
    (3, c!"text: \"-//Plönë.org//NONSGML plone.app.event//EN\","),
    (2, c!"},"),
    (2, c!"version: Text {"),
    (3, c!"params: {},"),
    (3, c!"text: \"2.0\","),
    (2, c!"},"),
    (2, c!"calscale: None,"),
    (2, c!"method: None,"),
    (2, c!"alarms: [],"),
    (2, c!"events: ["),
    (3, c!"VEvent {"),
    (4, c!"dtstamp: Local("),
    (5, c!"2010-10-10T12:00:00+02:00,"),
    (4, c!"),"),
    (4, c!"uid: Text {"),
    (5, c!"params: {},"),
    (5, c!"text: \"123456\","),
    (4, c!"},"),
    (4, c!"dtstart: DateTime("),
    (5, c!"Local("),
    (6, c!"2010-10-10T12:00:00+02:00,"),
    (5, c!"),"),
    (4, c!"),"),
    (4, c!"class: None,"),
    (4, c!"created: Some("),
    (5, c!"Local("),
    (6, c!"2010-10-10T02:00:00+02:00,"),
    (5, c!"),"),
    (4, c!"),"),
    (4, c!"description: Some("),
    (5, c!"Text {"),
    (6, c!"params: {},"),
    (6, c!"text: \"icalendar should be able to de/serialize non-ascii.\","),
    (5, c!"},"),
    (4, c!"),"),
    (4, c!"geo: None,"),
    (4, c!"last_modified: None,"),
    (4, c!"location: Some("),
    (5, c!"Text {"),
    (6, c!"params: {},"),
    (6, c!"text: \"Tribstrül\","),
    (5, c!"},"),
    (4, c!"),"),
    (4, c!"organizer: None,"),
    (4, c!"priority: None,"),
    (4, c!"sequence: None,"),
    (4, c!"status: None,"),
    (4, c!"summary: Some("),
    (5, c!"Text {"),
    (6, c!"params: {},"),
    (6, c!"text: \"Non-ASCII Test: ÄÖÜ äöü €\","),
    (5, c!"},"),
    (4, c!"),"),
    (4, c!"transp: None,"),
    (4, c!"url: None,"),
    (4, c!"recurid: None,"),
    (4, c!"rrule: None,"),
    (4, c!"dtend: Some("),
    (5, c!"DateTime("),
    (6, c!"Local("),
    (7, c!"2010-10-10T14:00:00+02:00,"),
    (6, c!"),"),
    (5, c!"),"),
    (4, c!"),"),
    (4, c!"duration: None,"),
    (4, c!"attach: [],"),
    (4, c!"attendee: [],"),
    (4, c!"categories: [],"),
    (4, c!"comment: [],"),
    (4, c!"contact: [],"),
    (4, c!"exdate: [],"),
    (4, c!"rstatus: [],"),
    (4, c!"related_to: [],"),
    (4, c!"resources: [],"),
    (4, c!"rdate: [],"),
    (4, c!"alarms: [],"),
    (4, c!"x_prop: {},"),
    (4, c!"iana_prop: {},"),
    (3, c!"},"),
    (3, c!"VEvent {"),
    (4, c!"dtstamp: Local("),
    (5, c!"2010-10-10T12:00:00+02:00,"),
    (4, c!"),"),
    (4, c!"uid: Text {"),
    (5, c!"params: {},"),
    (5, c!"text: \"123456\","),
    (4, c!"},"),
    (4, c!"dtstart: DateTime("),
    (5, c!"Local("),
    (6, c!"2010-10-10T02:00:00+02:00,"),
    (5, c!"),"),
    (4, c!"),"),
    (4, c!"class: None,"),
    (4, c!"created: None,"),
    (4, c!"description: None,"),
    (4, c!"geo: None,"),
    (4, c!"last_modified: None,"),
    (4, c!"location: None,"),
    (4, c!"organizer: None,"),
    (4, c!"priority: None,"),
    (4, c!"sequence: None,"),
    (4, c!"status: None,"),
    (4, c!"summary: Some("),
    (5, c!"Text {"),
    (6, c!"params: {},"),
    (6, c!"text: \"åäö\","),
    (5, c!"},"),
    (4, c!"),"),
    (4, c!"transp: None,"),
    (4, c!"url: None,"),
    (4, c!"recurid: None,"),
    (4, c!"rrule: None,"),
    (4, c!"dtend: None,"),
    (4, c!"duration: None,"),
    (4, c!"attach: [],"),
    (4, c!"attendee: [],"),
    (4, c!"categories: [],"),
    (4, c!"comment: [],"),
    (4, c!"contact: [],"),
    (4, c!"exdate: [],"),
    (4, c!"rstatus: [],"),
    (4, c!"related_to: [],"),
    (4, c!"resources: [],"),
    (4, c!"rdate: [],"),
    (4, c!"alarms: [],"),
    (4, c!"x_prop: {},"),
    (4, c!"iana_prop: {},"),
    (3, c!"},"),
    (3, c!"VEvent {"),
    (4, c!"dtstamp: Local("),
    (5, c!"2010-10-10T12:00:00+02:00,"),
    (4, c!"),"),
    (4, c!"uid: Text {"),
    (5, c!"params: {},"),
    (5, c!"text: \"123456\","),
    (4, c!"},"),
    (4, c!"dtstart: DateTime("),
    (5, c!"Local("),
    (6, c!"2010-10-10T02:00:00+02:00,"),
    (5, c!"),"),
    (4, c!"),"),
    (4, c!"class: None,"),
    (4, c!"created: None,"),
    (4, c!"description: Some("),
    (5, c!"Text {"),
    (6, c!"params: {},"),
    (6, c!"text: \"äöüßÄÖÜ\","),
    (5, c!"},"),
    (4, c!"),"),
    (4, c!"geo: None,"),
    (4, c!"last_modified: None,"),
    (4, c!"location: None,"),
    (4, c!"organizer: None,"),
    (4, c!"priority: None,"),
    (4, c!"sequence: None,"),
    (4, c!"status: None,"),
    (4, c!"summary: None,"),
    (4, c!"transp: None,"),
    (4, c!"url: None,"),
    (4, c!"recurid: None,"),
    (4, c!"rrule: None,"),
    (4, c!"dtend: None,"),
    (4, c!"duration: None,"),
    (4, c!"attach: [],"),
    (4, c!"attendee: [],"),
    (4, c!"categories: [],"),
    (4, c!"comment: [],"),
    (4, c!"contact: [],"),
    (4, c!"exdate: [],"),
    (4, c!"rstatus: [],"),
    (4, c!"related_to: [],"),
    (4, c!"resources: [],"),
    (4, c!"rdate: [],"),
    (4, c!"alarms: [],"),
    (4, c!"x_prop: {},"),
    (4, c!"iana_prop: {},"),
    (3, c!"},"),
    (2, c!"],"),
    (2, c!"freebusy: [],"),
    (2, c!"journals: [],"),
    (2, c!"todo: [],"),
    (2, c!"timezones: [],"),
    (2, c!"x_prop: {"),
    (3, c!"\"X-WR-CALDESC\": ContentLine {"),
    (4, c!"params: {},"),
    (4, c!"value: \"test non ascii: äöü ÄÖÜ €\","),
    (3, c!"},"),
    (3, c!"\"X-WR-CALNAME\": ContentLine {"),
    (4, c!"params: {},"),
    (4, c!"value: \"äöü ÄÖÜ €\","),
    (3, c!"},"),
    (3, c!"\"X-WR-RELCALID\": ContentLine {"),
    (4, c!"params: {},"),
    (4, c!"value: \"12345\","),
    (3, c!"},"),
    (2, c!"},"),
    (2, c!"iana_prop: {},"),
    (1, c!"},"),
    (0, c!")")] := by decide +kernel

/-- `tests/calendars/example.ics` and `tests/calendars/example.out`. -/
example : shown VCalendar.ofStr (crlf [c!"BEGIN:VCALENDAR",
    c!"VERSION:2.0",
    c!"PRODID:collective/icalendar",
    c!"CALSCALE:GREGORIAN",
    c!"METHOD:PUBLISH",
    c!"X-WR-CALNAME:Holidays",
    c!"X-WR-TIMEZONE:Etc/GMT",
    c!"BEGIN:VEVENT",
    c!"SUMMARY:New Year's Day",
    c!"DTSTART:20220101",
    c!"DTEND:20220101",
    c!"DESCRIPTION:Happy New Year!",
    c!"UID:636a0cc1dbd5a1667894465@icalendar",
    c!"DTSTAMP:20221108T080105Z",
    c!"STATUS:CONFIRMED",
    c!"TRANSP:TRANSPARENT",
    c!"SEQUENCE:0",
    c!"END:VEVENT",
    c!"BEGIN:VEVENT",
    c!"SUMMARY:Orthodox Christmas",
    c!"DTSTART:20220107",
    c!"DTEND:20220107",
    c!"LOCATION:Russia",
    c!"DESCRIPTION:It is Christmas again!",
    c!"UID:636a0cc1dbfd91667894465@icalendar",
    c!"DTSTAMP:20221108T080105Z",
    c!"STATUS:CONFIRMED",
    c!"TRANSP:TRANSPARENT",
    c!"SEQUENCE:0",
    c!"END:VEVENT",
    c!"BEGIN:VEVENT",
    c!"SUMMARY:International Women's Day",
    c!"DTSTART:20220308",
    c!"DTEND:20220308",
    c!"DESCRIPTION:May the feminine be honoured!",
    c!"UID:636a0cc1dc0f11667894465@icalendar",
    c!"DTSTAMP:20221108T080105Z",
    c!"STATUS:CONFIRMED",
    c!"TRANSP:TRANSPARENT",
    c!"SEQUENCE:0",
    c!"END:VEVENT",
    c!"END:VCALENDAR",
    c!""]) =
    some [
    (0, c!"Ok("),
    (1, c!"VCalendar {"),
    (2, c!"prodid: Text {"),
    (3, c!"params: {},"),
    (3, c!"text: \"collective/icalendar\","),
    (2, c!"},"),
    (2, c!"version: Text {"),
    (3, c!"params: {},"),
    (3, c!"text: \"2.0\","),
    (2, c!"},"),
    (2, c!"calscale: Some("),
    (3, c!"Text {"),
    (4, c!"params: {},"),
    (4, c!"text: \"GREGORIAN\","),
    (3, c!"},"),
    (2, c!"),"),
    (2, c!"method: Some("),
    (3, c!"Text {"),
    (4, c!"params: {},"),
    (4, c!"text: \"PUBLISH\","),
    (3, c!"},"),
    (2, c!"),"),
    (2, c!"alarms: [],"),
    (2, c!"events: ["),
    (3, c!"VEvent {"),
    (4, c!"dtstamp: Local("),
    (5, c!"2022-11-08T09:01:05+01:00,"),
    (4, c!"),"),
    (4, c!"uid: Text {"),
    (5, c!"params: {},"),
    (5, c!"text: \"636a0cc1dbd5a1667894465@icalendar\","),
    (4, c!"},"),
    (4, c!"dtstart: Date("),
    (5, c!"2022-01-01,"),
    (4, c!"),"),
    (4, c!"class: None,"),
    (4, c!"created: None,"),
    (4, c!"description: Some("),
    (5, c!"Text {"),
    (6, c!"params: {},"),
    (6, c!"text: \"Happy New Year!\","),
    (5, c!"},"),
    (4, c!"),"),
    (4, c!"geo: None,"),
    (4, c!"last_modified: None,"),
    (4, c!"location: None,"),
    (4, c!"organizer: None,"),
    (4, c!"priority: None,"),
    (4, c!"sequence: Some("),
    (5, c!"0,"),
    (4, c!"),"),
    (4, c!"status: Some("),
    (5, c!"Confirmed,"),
    (4, c!"),"),
    (4, c!"summary: Some("),
    (5, c!"Text {"),
    (6, c!"params: {},"),
    (6, c!"text: \"New Year's Day\","),
    (5, c!"},"),
    (4, c!"),"),
    (4, c!"transp: Some("),
    (5, c!"Transparent,"),
    (4, c!"),"),
    (4, c!"url: None,"),
    (4, c!"recurid: None,"),
    (4, c!"rrule: None,"),
    (4, c!"dtend: Some("),
    (5, c!"Date("),
    (6, c!"2022-01-01,"),
    (5, c!"),"),
    (4, c!"),"),
    (4, c!"duration: None,"),
    (4, c!"attach: [],"),
    (4, c!"attendee: [],"),
    (4, c!"categories: [],"),
    (4, c!"comment: [],"),
    (4, c!"contact: [],"),
    (4, c!"exdate: [],"),
    (4, c!"rstatus: [],"),
    (4, c!"related_to: [],"),
    (4, c!"resources: [],"),
    (4, c!"rdate: [],"),
    (4, c!"alarms: [],"),
    (4, c!"x_prop: {},"),
    (4, c!"iana_prop: {},"),
    (3, c!"},"),
    (3, c!"VEvent {"),
    (4, c!"dtstamp: Local("),
    (5, c!"2022-11-08T09:01:05+01:00,"),
    (4, c!"),"),
    (4, c!"uid: Text {"),
    (5, c!"params: {},"),
    (5, c!"text: \"636a0cc1dbfd91667894465@icalendar\","),
    (4, c!"},"),
    (4, c!"dtstart: Date("),
    (5, c!"2022-01-07,"),
    (4, c!"),"),
    (4, c!"class: None,"),
    (4, c!"created: None,"),
    (4, c!"description: Some("),
    (5, c!"Text {"),
    (6, c!"params: {},"),
    (6, c!"text: \"It is Christmas again!\","),
    (5, c!"},"),
    (4, c!"),"),
    (4, c!"geo: None,"),
    (4, c!"last_modified: None,"),
    (4, c!"location: Some("),
    (5, c!"Text {"),
    (6, c!"params: {},"),
    (6, c!"text: \"Russia\","),
    (5, c!"},"),
    (4, c!"),"),
    (4, c!"organizer: None,"),
    (4, c!"priority: None,"),
    (4, c!"sequence: Some("),
    (5, c!"0,"),
    (4, c!"),"),
    (4, c!"status: Some("),
    (5, c!"Confirmed,"),
    (4, c!"),"),
    (4, c!"summary: Some("),
    (5, c!"Text {"),
    (6, c!"params: {},"),
    (6, c!"text: \"Orthodox Christmas\","),
    (5, c!"},"),
    (4, c!"),"),
    (4, c!"transp: Some("),
    (5, c!"Transparent,"),
    (4, c!"),"),
    (4, c!"url: None,"),
    (4, c!"recurid: None,"),
    (4, c!"rrule: None,"),
    (4, c!"dtend: Some("),
    (5, c!"Date("),
    (6, c!"2022-01-07,"),
    (5, c!"),"),
    (4, c!"),"),
    (4, c!"duration: None,"),
    (4, c!"attach: [],"),
    (4, c!"attendee: [],"),
    (4, c!"categories: [],"),
    (4, c!"comment: [],"),
    (4, c!"contact: [],"),
    (4, c!"exdate: [],"),
    (4, c!"rstatus: [],"),
    (4, c!"related_to: [],"),
    (4, c!"resources: [],"),
    (4, c!"rdate: [],"),
    (4, c!"alarms: [],"),
    (4, c!"x_prop: {},"),
    (4, c!"iana_prop: {},"),
    (3, c!"},"),
    (3, c!"VEvent {"),
    (4, c!"dtstamp: Local("),
    (5, c!"2022-11-08T09:01:05+01:00,"),
    (4, c!"),"),
    (4, c!"uid: Text {"),
    (5, c!"params: {},"),
    (5, c!"text: \"636a0cc1dc0f11667894465@icalendar\","),
    (4, c!"},"),
    (4, c!"dtstart: Date("),
    (5, c!"2022-03-08,"),
    (4, c!"),"),
    (4, c!"class: None,"),
    (4, c!"created: None,"),
    (4, c!"description: Some("),
    (5, c!"Text {"),
    (6, c!"params: {},"),
    (6, c!"text: \"May the feminine be honoured!\","),
    (5, c!"},"),
    (4, c!"),"),
    (4, c!"geo: None,"),
    (4, c!"last_modified: None,"),
    (4, c!"location: None,"),
    (4, c!"organizer: None,"),
    (4, c!"priority: None,"),
    (4, c!"sequence: Some("),
    (5, c!"0,"),
    (4, c!"),"),
    (4, c!"status: Some("),
    (5, c!"Confirmed,"),
    (4, c!"),"),
    (4, c!"summary: Some("),
    (5, c!"Text {"),
    (6, c!"params: {},"),
    (6, c!"text: \"International Women's Day\","),
    (5, c!"},"),
    (4, c!"),"),
    (4, c!"transp: Some("),
    (5, c!"Transparent,"),
    (4, c!"),"),
    (4, c!"url: None,"),
    (4, c!"recurid: None,"),
    (4, c!"rrule: None,"),
    (4, c!"dtend: Some("),
    (5, c!"Date("),
    (6, c!"2022-03-08,"),
    (5, c!"),"),
    (4, c!"),"),
    (4, c!"duration: None,"),
    (4, c!"attach: [],"),
    (4, c!"attendee: [],"),
    (4, c!"categories: [],"),
    (4, c!"comment: [],"),
    (4, c!"contact: [],"),
    (4, c!"exdate: [],"),
    (4, c!"rstatus: [],"),
    (4, c!"related_to: [],"),
    (4, c!"resources: [],"),
    (4, c!"rdate: [],"),
    (4, c!"alarms: [],"),
    (4, c!"x_prop: {},"),
    (4, c!"iana_prop: {},"),
    (3, c!"},"),
    (2, c!"],"),
    (2, c!"freebusy: [],"),
    (2, c!"journals: [],"),
    (2, c!"todo: [],"),
    (2, c!"timezones: [],"),
    (2, c!"x_prop: {"),
    (3, c!"\"X-WR-CALNAME\": ContentLine {"),
    (4, c!"params: {},"),
    (4, c!"value: \"Holidays\","),
    (3, c!"},"),
    (3, c!"\"X-WR-TIMEZONE\": ContentLine {"),
    (4, c!"params: {},"),
    (4, c!"value: \"Etc/GMT\","),
    (3, c!"},"),
    (2, c!"},"),
    (2, c!"iana_prop: {},"),
    (1, c!"},"),
    (0, c!")")] := by decide +kernel

/-- `tests/calendars/issue_104_broken_calendar.ics`, which must be rejected. -/
example : shown VCalendar.ofStr (crlf [c!"BEGIN:VCALENDAR",
    c!"VERSION:2.0",
    c!"METHOD:PUBLISH",
    c!"BEGIN:VEVENT",
    c!"DTSTART:20140401T000000Z",
    c!"DTEND:20140401T010000Z",
    c!"DTSTAMP:20140401T000000Z",
    c!"SUMMARY:Broken Eevnt",
    c!"CLASS:PUBLIC",
    c!"STATUS:CONFIRMED",
    c!"TRANSP:OPAQUE",
    c!"END:VEVENT",
    c!"X",
    c!"END:VCALENDAR",
    c!""]) =
    none := by decide +kernel

/-- `tests/calendars/issue_156_RDATE_with_PERIOD_TZID_khal.ics` and `tests/calendars/issue_156_RDATE_with_PERIOD_TZID_khal.out`. -/
example : shown VCalendar.ofStr (crlf [c!"BEGIN:VCALENDAR",
    c!"X-SOURCE-URL:https://github.com/pimutils/khal/issues/152#issuecomment-387410353",
    c!"VERSION:2.0",
    c!"PRODID:-//PIMUTILS.ORG//NONSGML khal / icalendar //EN",
    c!"BEGIN:VEVENT",
    c!"SUMMARY:Event",
    c!"UID:BF5109494E67AAE20025875100566D31-Lotus_Notes_Generated",
    c!"DTSTART;TZID=America/Chicago;VALUE=DATE-TIME:20180327T080000",
    c!"DTEND;TZID=America/Chicago;VALUE=DATE-TIME:20180327T090000",
    c!"DTSTAMP:20180323T200333Z",
    c!"RECURRENCE-ID;RANGE=THISANDFUTURE:20180327T130000Z",
    c!"SEQUENCE:10",
    c!"RDATE;TZID=\"Central Standard Time\";VALUE=PERIOD:20180327T080000/20180327T0",
    c!" 90000,20180403T080000/20180403T090000,20180410T080000/20180410T090000,2018",
    c!" 0417T080000/20180417T090000,20180424T080000/20180424T090000,20180501T08000",
    c!" 0/20180501T090000,20180508T080000/20180508T090000,20180515T080000/20180515",
    c!" T090000,20180522T080000/20180522T090000,20180529T080000/20180529T090000,20",
    c!" 180605T080000/20180605T090000,20180612T080000/20180612T090000,20180619T080",
    c!" 000/20180619T090000,20180626T080000/20180626T090000,20180703T080000/201807",
    c!" 03T090000,20180710T080000/20180710T090000,20180717T080000/20180717T090000,",
    c!" 20180724T080000/20180724T090000,20180731T080000/20180731T090000",
    c!"ATTENDEE;CN=\"XYZ\";PARTSTAT=ACCEPTED;ROLE=CHAIR;RSVP=",
    c!" FALSE:mailto:xyz@xyz.com",
    c!"CLASS:PUBLIC",
    c!"END:VEVENT",
    c!"END:VCALENDAR",
    c!""]) =
    some [
    (0, c!"Ok("),
    (1, c!"VCalendar {"),
    (2, c!"prodid: Text {"),
    (3, c!"params: {},"),
    (3, c!"text: \"-//PIMUTILS.ORG//NONSGML khal / icalendar //EN\","),
    (2, c!"},"),
    (2, c!"version: Text {"),
    (3, c!"params: {},"),
    (3, c!"text: \"2.0\","),
    (2, c!"},"),
    (2, c!"calscale: None,"),
    (2, c!"method: None,"),
    (2, c!"alarms: [],"),
    (2, c!"events: ["),
    (3, c!"VEvent {"),
    (4, c!"dtstamp: Local("),
    (5, c!"2018-03-23T21:03:33+01:00,"),
    (4, c!"),"),
    (4, c!"uid: Text {"),
    (5, c!"params: {},"),
    (5, c!"text: \"BF5109494E67AAE20025875100566D31-Lotus_Notes_Generated\","),
    (4, c!"},"),
    (4, c!"dtstart: DateTime("),
    (5, c!"Naive("),
    (6, c!"2018-03-27T08:00:00,"),
    (5, c!"),"),
    (4, c!"),"),
    (4, c!"class: Some("),
    (5, c!"Public,"),
    (4, c!"),"),
    (4, c!"created: None,"),
    (4, c!"description: None,"),
    (4, c!"geo: None,"),
    (4, c!"last_modified: None,"),
    (4, c!"location: None,"),
    (4, c!"organizer: None,"),
    (4, c!"priority: None,"),
    (4, c!"sequence: Some("),
    (5, c!"10,"),
    (4, c!"),"),
    (4, c!"status: None,"),
    (4, c!"summary: Some("),
    (5, c!"Text {"),
    (6, c!"params: {},"),
    (6, c!"text: \"Event\","),
    (5, c!"},"),
    (4, c!"),"),
    (4, c!"transp: None,"),
    (4, c!"url: None,"),
    (4, c!"recurid: None,"),
    (4, c!"rrule: None,"),
    (4, c!"dtend: Some("),
    (5, c!"DateTime("),
    (6, c!"Naive("),
    (7, c!"2018-03-27T09:00:00,"),
    (6, c!"),"),
    (5, c!"),"),
    (4, c!"),"),
    (4, c!"duration: None,"),
    (4, c!"attach: [],"),
    (4, c!"attendee: ["),
    (5, c!"Uri {"),
    (6, c!"params: {"),
    (7, c!"\"CN\": \"XYZ\","),
    (7, c!"\"PARTSTAT\": \"ACCEPTED\","),
    (7, c!"\"ROLE\": \"CHAIR\","),
    (7, c!"\"RSVP\": \"FALSE\","),
    (6, c!"},"),
    (6, c!"uri: \"mailto:xyz@xyz.com\","),
    (5, c!"},"),
    (4, c!"],"),
    (4, c!"categories: [],"),
    (4, c!"comment: [],"),
    (4, c!"contact: [],"),
    (4, c!"exdate: [],"),
    (4, c!"rstatus: [],"),
    (4, c!"related_to: [],"),
    (4, c!"resources: [],"),
    (4, c!"rdate: ["),
    (5, c!"Period("),
    (6, c!"["),
    (7, c!"StartEnd("),
    (8, c!"StartEnd {"),
    (9, c!"start: Naive("),
    (10, c!"2018-03-27T08:00:00,"),
    (9, c!"),"),
    (9, c!"end: Naive("),
    (10, c!"2018-03-27T09:00:00,"),
    (9, c!"),"),
    (8, c!"},"),
    (7, c!"),"),
    (7, c!"StartEnd("),
    (8, c!"StartEnd {"),
    (9, c!"start: Naive("),
    (10, c!"2018-04-03T08:00:00,"),
    (9, c!"),"),
    (9, c!"end: Naive("),
    (10, c!"2018-04-03T09:00:00,"),
    (9, c!"),"),
    (8, c!"},"),
    (7, c!"),"),
    (7, c!"StartEnd("),
    (8, c!"StartEnd {"),
    (9, c!"start: Naive("),
    (10, c!"2018-04-10T08:00:00,"),
    (9, c!"),"),
    (9, c!"end: Naive("),
    (10, c!"2018-04-10T09:00:00,"),
    (9, c!"),"),
    (8, c!"},"),
    (7, c!"),"),
    (7, c!"StartEnd("),
    (8, c!"StartEnd {"),
    (9, c!"start: Naive("),
    (10, c!"2018-04-17T08:00:00,"),
    (9, c!"),"),
    (9, c!"end: Naive("),
    (10, c!"2018-04-17T09:00:00,"),
    (9, c!"),"),
    (8, c!"},"),
    (7, c!"),"),
    (7, c!"StartEnd("),
    (8, c!"StartEnd {"),
    (9, c!"start: Naive("),
    (10, c!"2018-04-24T08:00:00,"),
    (9, c!"),"),
    (9, c!"end: Naive("),
    (10, c!"2018-04-24T09:00:00,"),
    (9, c!"),"),
    (8, c!"},"),
    (7, c!"),"),
    (7, c!"StartEnd("),
    (8, c!"StartEnd {"),
    (9, c!"start: Naive("),
    (10, c!"2018-05-01T08:00:00,"),
    (9, c!"),"),
    (9, c!"end: Naive("),
    (10, c!"2018-05-01T09:00:00,"),
    (9, c!"),"),
    (8, c!"},"),
    (7, c!"),"),
    (7, c!"StartEnd("),
    (8, c!"StartEnd {"),
    (9, c!"start: Naive("),
    (10, c!"2018-05-08T08:00:00,"),
    (9, c!"),"),
    (9, c!"end: Naive("),
    (10, c!"2018-05-08T09:00:00,"),
    (9, c!"),"),
    (8, c!"},"),
    (7, c!"),"),
    (7, c!"StartEnd("),
    (8, c!"StartEnd {"),
    (9, c!"start: Naive("),
    (10, c!"2018-05-15T08:00:00,"),
    (9, c!"),"),
    (9, c!"end: Naive("),
    (10, c!"2018-05-15T09:00:00,"),
    (9, c!"),"),
    (8, c!"},"),
    (7, c!"),"),
    (7, c!"StartEnd("),
    (8, c!"StartEnd {"),
    (9, c!"start: Naive("),
    (10, c!"2018-05-22T08:00:00,"),
    (9, c!"),"),
    (9, c!"end: Naive("),
    (10, c!"2018-05-22T09:00:00,"),
    (9, c!"),"),
    (8, c!"},"),
    (7, c!"),"),
    (7, c!"StartEnd("),
    (8, c!"StartEnd {"),
    (9, c!"start: Naive("),
    (10, c!"2018-05-29T08:00:00,"),
    (9, c!"),"),
    (9, c!"end: Naive("),
    (10, c!"2018-05-29T09:00:00,"),
    (9, c!"),"),
    (8, c!"},"),
    (7, c!"),"),
    (7, c!"StartEnd("),
    (8, c!"StartEnd {"),
    (9, c!"start: Naive("),
    (10, c!"2018-06-05T08:00:00,"),
    (9, c!"),"),
    (9, c!"end: Naive("),
    (10, c!"2018-06-05T09:00:00,"),
    (9, c!"),"),
    (8, c!"},"),
    (7, c!"),"),
    (7, c!"StartEnd("),
    (8, c!"StartEnd {"),
    (9, c!"start: Naive("),
    (10, c!"2018-06-12T08:00:00,"),
    (9, c!"),"),
    (9, c!"end: Naive("),
    (10, c!"2018-06-12T09:00:00,"),
    (9, c!"),"),
    (8, c!"},"),
    (7, c!"),"),
    (7, c!"StartEnd("),
    (8, c!"StartEnd {"),
    (9, c!"start: Naive("),
    (10, c!"2018-06-19T08:00:00,"),
    (9, c!"),"),
    (9, c!"end: Naive("),
    (10, c!"2018-06-19T09:00:00,"),
    (9, c!"),"),
    (8, c!"},"),
    (7, c!"),"),
    (7, c!"StartEnd("),
    (8, c!"StartEnd {"),
    (9, c!"start: Naive("),
    (10, c!"2018-06-26T08:00:00,"),
    (9, c!"),"),
    (9, c!"end: Naive("),
    (10, c!"2018-06-26T09:00:00,"),
    (9, c!"),"),
    (8, c!"},"),
    (7, c!"),"),
    (7, c!"StartEnd("),
    (8, c!"StartEnd {"),
    (9, c!"start: Naive("),
    (10, c!"2018-07-03T08:00:00,"),
    (9, c!"),"),
    (9, c!"end: Naive("),
    (10, c!"2018-07-03T09:00:00,"),
    (9, c!"),"),
    (8, c!"},"),
    (7, c!"),"),
    (7, c!"StartEnd("),
    (8, c!"StartEnd {"),
    (9, c!"start: Naive("),
    (10, c!"2018-07-10T08:00:00,"),
    (9, c!"),"),
    (9, c!"end: Naive("),
    (10, c!"2018-07-10T09:00:00,"),
    (9, c!"),"),
    (8, c!"},"),
    (7, c!"),"),
    (7, c!"StartEnd("),
    (8, c!"StartEnd {"),
    (9, c!"start: Naive("),
    (10, c!"2018-07-17T08:00:00,"),
    (9, c!"),"),
    (9, c!"end: Naive("),
    (10, c!"2018-07-17T09:00:00,"),
    (9, c!"),"),
    (8, c!"},"),
    (7, c!"),"),
    (7, c!"StartEnd("),
    (8, c!"StartEnd {"),
    (9, c!"start: Naive("),
    (10, c!"2018-07-24T08:00:00,"),
    (9, c!"),"),
    (9, c!"end: Naive("),
    (10, c!"2018-07-24T09:00:00,"),
    (9, c!"),"),
    (8, c!"},"),
    (7, c!"),"),
    (7, c!"StartEnd("),
    (8, c!"StartEnd {"),
    (9, c!"start: Naive("),
    (10, c!"2018-07-31T08:00:00,"),
    (9, c!"),"),
    (9, c!"end: Naive("),
    (10, c!"2018-07-31T09:00:00,"),
    (9, c!"),"),
    (8, c!"},"),
    (7, c!"),"),
    (6, c!"],"),
    (5, c!"),"),
    (4, c!"],"),
    (4, c!"alarms: [],"),
    (4, c!"x_prop: {},"),
    (4, c!"iana_prop: {"),
    (5, c!"\"RECURRENCE-ID\": ContentLine {"),
    (6, c!"params: {"),
    (7, c!"\"RANGE\": \"THISANDFUTURE\","),
    (6, c!"},"),
    (6, c!"value: \"20180327T130000Z\","),
    (5, c!"},"),
    (4, c!"},"),
    (3, c!"},"),
    (2, c!"],"),
    (2, c!"freebusy: [],"),
    (2, c!"journals: [],"),
    (2, c!"todo: [],"),
    (2, c!"timezones: [],"),
    (2, c!"x_prop: {"),
    (3, c!"\"X-SOURCE-URL\": ContentLine {"),
    (4, c!"params: {},"),
    (4, c!"value: \"https://github.com/pimutils/khal/issues/152#issuecomment-387410353\","),
    (3, c!"},"),
    (2, c!"},"),
    (2, c!"iana_prop: {},"),
    (1, c!"},"),
    (0, c!")")] := by decide +kernel

/-- `tests/calendars/issue_156_RDATE_with_PERIOD_TZID_khal_2.ics` and `tests/calendars/issue_156_RDATE_with_PERIOD_TZID_khal_2.out`. -/
example : shown VCalendar.ofStr (crlf [c!"BEGIN:VCALENDAR",
    c!"X-SOURCE-URL:https://github.com/pimutils/khal/issues/152#issuecomment-933635248",
    c!"VERSION:2.0",
    c!"PRODID:-//PIMUTILS.ORG//NONSGML khal / icalendar //EN",
    c!"BEGIN:VTIMEZONE",
    c!"TZID:Western/Central Europe",
    c!"BEGIN:STANDARD",
    c!"DTSTART:19501029T020000",
    c!"RRULE:FREQ=YEARLY;BYMINUTE=0;BYHOUR=2;BYDAY=-1SU;BYMONTH=10",
    c!"TZOFFSETFROM:+0200",
    c!"TZOFFSETTO:+0100",
    c!"END:STANDARD",
    c!"BEGIN:DAYLIGHT",
    c!"DTSTART:19500326T020000",
    c!"RRULE:FREQ=YEARLY;BYMINUTE=0;BYHOUR=2;BYDAY=-1SU;BYMONTH=3",
    c!"TZOFFSETFROM:+0100",
    c!"TZOFFSETTO:+0200",
    c!"END:DAYLIGHT",
    c!"END:VTIMEZONE",
    c!"BEGIN:VEVENT",
    c!"SUMMARY:(omitted)",
    c!"DTSTART;TZID=\"Western/Central Europe\";VALUE=DATE-TIME:20211101T160000",
    c!"DTEND;TZID=\"Western/Central Europe\";VALUE=DATE-TIME:20211101T163000",
    c!"DTSTAMP:20211004T150245Z",
    c!"UID:BF5109494E67AAE20025875100566D31-Lotus_Notes_Generated",
    c!"RECURRENCE-ID;RANGE=THISANDFUTURE:20211101T150000Z",
    c!"SEQUENCE:0",
    c!"RDATE;TZID=\"Western/Central Europe\";VALUE=PERIOD:20211101T160000/20211101T",
    c!" 163000,20211206T160000/20211206T163000,20220103T160000/20220103T163000,202",
    c!" 20207T160000/20220207T163000",
    c!"ATTENDEE;CN=\"(omitted)\";PARTSTAT=ACCEPTED;ROLE=CHAIR;RSVP=FAL",
    c!" SE:mailto:omitted@example.com",
    c!"CLASS:PUBLIC",
    c!"TRANSP:OPAQUE",
    c!"X-LOTUS-APPTTYPE:3",
    c!"X-LOTUS-AUDIOVIDEOFLAGS:0",
    c!"X-LOTUS-BROADCAST:FALSE",
    c!"X-LOTUS-CHANGE-INST-DATES:20211101T150000Z\\,20211206T150000Z\\,20220103T150",
    c!" 000Z\\,20220207T150000Z",
    c!"X-LOTUS-CHILD-UID:567EFBAF6CBD07FC0025875100566D3B",
    c!"X-LOTUS-INITIAL-RDATES:20211101T150000Z\\,20211206T150000Z\\,20220103T150000",
    c!" Z\\,20220207T150000Z",
    c!"X-LOTUS-LASTALL-RDATES;TZID=\"Western/Central Europe\":20211101T160000\\,2021",
    c!" 1206T160000\\,20220103T160000\\,20220207T160000",
    c!"X-LOTUS-NOTESVERSION:2",
    c!"X-LOTUS-NOTICETYPE:I",
    c!"X-LOTUS-RECURID;RANGE=THISANDFUTURE:20211101T150000Z",
    c!"X-LOTUS-UPDATE-SEQ:2",
    c!"X-LOTUS-UPDATE-WISL:$W:1\\;$O:1\\;$M:1\\;RequiredAttendees:1\\;INetRequiredNam",
    c!" es:1\\;AltRequiredNames:1\\;StorageRequiredNames:1\\;OptionalAttendees:1\\;INe",
    c!" tOptionalNames:1\\;AltOptionalNames:1\\;StorageOptionalNames:1\\;ApptUNIDURL:",
    c!" 1\\;STUnyteConferenceURL:1\\;STUnyteConferenceID:1\\;SametimeType:1\\;WhiteBoa",
    c!" rdContent:1\\;STRoomName:1\\;$S:2\\;$B:2\\;$L:2\\;$E:2\\;$R:2",
    c!"END:VEVENT",
    c!"END:VCALENDAR",
    c!""]) =
    some [
    (0, c!"Ok("),
    (1, c!"VCalendar {"),
    (2, c!"prodid: Text {"),
    (3, c!"params: {},"),
    (3, c!"text: \"-//PIMUTILS.ORG//NONSGML khal / icalendar //EN\","),
    (2, c!"},"),
    (2, c!"version: Text {"),
    (3, c!"params: {},"),
    (3, c!"text: \"2.0\","),
    (2, c!"},"),
    (2, c!"calscale: None,"),
    (2, c!"method: None,"),
    (2, c!"alarms: [],"),
    (2, c!"events: ["),
    (3, c!"VEvent {"),
    (4, c!"dtstamp: Local("),
    (5, c!"2021-10-04T17:02:45+02:00,"),
    (4, c!"),"),
    (4, c!"uid: Text {"),
    (5, c!"params: {},"),
    (5, c!"text: \"BF5109494E67AAE20025875100566D31-Lotus_Notes_Generated\","),
    (4, c!"},"),
    (4, c!"dtstart: DateTime("),
    (5, c!"Naive("),
    (6, c!"2021-11-01T16:00:00,"),
    (5, c!"),"),
    (4, c!"),"),
    (4, c!"class: Some("),
    (5, c!"Public,"),
    (4, c!"),"),
    (4, c!"created: None,"),
    (4, c!"description: None,"),
    (4, c!"geo: None,"),
    (4, c!"last_modified: None,"),
    (4, c!"location: None,"),
    (4, c!"organizer: None,"),
    (4, c!"priority: None,"),
    (4, c!"sequence: Some("),
    (5, c!"0,"),
    (4, c!"),"),
    (4, c!"status: None,"),
    (4, c!"summary: Some("),
    (5, c!"Text {"),
    (6, c!"params: {},"),
    (6, c!"text: \"(omitted)\","),
    (5, c!"},"),
    (4, c!"),"),
    (4, c!"transp: Some("),
    (5, c!"Opaque,"),
    (4, c!"),"),
    (4, c!"url: None,"),
    (4, c!"recurid: None,"),
    (4, c!"rrule: None,"),
    (4, c!"dtend: Some("),
    (5, c!"DateTime("),
    (6, c!"Naive("),
    (7, c!"2021-11-01T16:30:00,"),
    (6, c!"),"),
    (5, c!"),"),
    (4, c!"),"),
    (4, c!"duration: None,"),
    (4, c!"attach: [],"),
    (4, c!"attendee: ["),
    (5, c!"Uri {"),
    (6, c!"params: {"),
    (7, c!"\"CN\": \"(omitted)\","),
    (7, c!"\"PARTSTAT\": \"ACCEPTED\","),
    (7, c!"\"ROLE\": \"CHAIR\","),
    (7, c!"\"RSVP\": \"FALSE\","),
    (6, c!"},"),
    (6, c!"uri: \"mailto:omitted@example.com\","),
    (5, c!"},"),
    (4, c!"],"),
    (4, c!"categories: [],"),
    (4, c!"comment: [],"),
    (4, c!"contact: [],"),
    (4, c!"exdate: [],"),
    (4, c!"rstatus: [],"),
    (4, c!"related_to: [],"),
    (4, c!"resources: [],"),
    (4, c!"rdate: ["),
    (5, c!"Period("),
    (6, c!"["),
    (7, c!"StartEnd("),
    (8, c!"StartEnd {"),
    (9, c!"start: Naive("),
    (10, c!"2021-11-01T16:00:00,"),
    (9, c!"),"),
    (9, c!"end: Naive("),
    (10, c!"2021-11-01T16:30:00,"),
    (9, c!"),"),
    (8, c!"},"),
    (7, c!"),"),
    (7, c!"StartEnd("),
    (8, c!"StartEnd {"),
    (9, c!"start: Naive("),
    (10, c!"2021-12-06T16:00:00,"),
    (9, c!"),"),
    (9, c!"end: Naive("),
    (10, c!"2021-12-06T16:30:00,"),
    (9, c!"),"),
    (8, c!"},"),
    (7, c!"),"),
    (7, c!"StartEnd("),
    (8, c!"StartEnd {"),
    (9, c!"start: Naive("),
    (10, c!"2022-01-03T16:00:00,"),
    (9, c!"),"),
    (9, c!"end: Naive("),
    (10, c!"2022-01-03T16:30:00,"),
    (9, c!"),"),
    (8, c!"},"),
    (7, c!"),"),
    (7, c!"StartEnd("),
    (8, c!"StartEnd {"),
    (9, c!"start: Naive("),
    (10, c!"2022-02-07T16:00:00,"),
    (9, c!"),"),
    (9, c!"end: Naive("),
    (10, c!"2022-02-07T16:30:00,"),
    (9, c!"),"),
    (8, c!"},"),
    (7, c!"),"),
    (6, c!"],"),
    (5, c!"),"),
    (4, c!"],"),
    (4, c!"alarms: [],"),
    (4, c!"x_prop: {"),
    (5, c!"\"X-LOTUS-APPTTYPE\": ContentLine {"),
    (6, c!"params: {},"),
    (6, c!"value: \"3\","),
    (5, c!"},"),
    (5, c!"\"X-LOTUS-AUDIOVIDEOFLAGS\": ContentLine {"),
    (6, c!"params: {},"),
    (6, c!"value: \"0\","),
    (5, c!"},"),
    (5, c!"\"X-LOTUS-BROADCAST\": ContentLine {"),
    (6, c!"params: {},"),
    (6, c!"value: \"FALSE\","),
    (5, c!"},"),
    (5, c!"\"X-LOTUS-CHANGE-INST-DATES\": ContentLine {"),
    (6, c!"params: {},"),
    (6, c!"value: \"20211101T150000Z\\\\,20211206T150000Z\\\\,20220103T150000Z\\\\,20220207T150000Z\","),
    (5, c!"},"),
    (5, c!"\"X-LOTUS-CHILD-UID\": ContentLine {"),
    (6, c!"params: {},"),
    (6, c!"value: \"567EFBAF6CBD07FC0025875100566D3B\","),
    (5, c!"},"),
    (5, c!"\"X-LOTUS-INITIAL-RDATES\": ContentLine {"),
    (6, c!"params: {},"),
    (6, c!"value: \"20211101T150000Z\\\\,20211206T150000Z\\\\,20220103T150000Z\\\\,20220207T150000Z\","),
    (5, c!"},"),
    (5, c!"\"X-LOTUS-LASTALL-RDATES\": ContentLine {"),
    (6, c!"params: {"),
    (7, c!"\"TZID\": \"Western/Central Europe\","),
    (6, c!"},"),
    (6, c!"value: \"20211101T160000\\\\,20211206T160000\\\\,20220103T160000\\\\,20220207T160000\","),
    (5, c!"},"),
    (5, c!"\"X-LOTUS-NOTESVERSION\": ContentLine {"),
    (6, c!"params: {},"),
    (6, c!"value: \"2\","),
    (5, c!"},"),
    (5, c!"\"X-LOTUS-NOTICETYPE\": ContentLine {"),
    (6, c!"params: {},"),
    (6, c!"value: \"I\","),
    (5, c!"},"),
    (5, c!"\"X-LOTUS-RECURID\": ContentLine {"),
    (6, c!"params: {"),
    (7, c!"\"RANGE\": \"THISANDFUTURE\","),
    (6, c!"},"),
    (6, c!"value: \"20211101T150000Z\","),
    (5, c!"},"),
    (5, c!"\"X-LOTUS-UPDATE-SEQ\": ContentLine {"),
    (6, c!"params: {},"),
    (6, c!"value: \"2\","),
    (5, c!"},"),
    (5, c!"\"X-LOTUS-UPDATE-WISL\": ContentLine {"),
    (6, c!"params: {},"),
    (6, c!"value: \"$W:1\\\\;$O:1\\\\;$M:1\\\\;RequiredAttendees:1\\\\;INetRequiredNames:1\\\\;AltRequiredNames:1\\\\;StorageRequiredNames:1\\\\;OptionalAttendees:1\\\\;INetOptionalNames:1\\\\;AltOptionalNames:1\\\\;StorageOptionalNames:1\\\\;ApptUNIDURL:1\\\\;STUnyteConferenceURL:1\\\\;STUnyteConferenceID:1\\\\;SametimeType:1\\\\;WhiteBoardContent:1\\\\;STRoomName:1\\\\;$S:2\\\\;$B:2\\\\;$L:2\\\\;$E:2\\\\;$R:2\","),
    (5, c!"},"),
    (4, c!"},"),
    (4, c!"iana_prop: {"),
    (5, c!"\"RECURRENCE-ID\": ContentLine {"),
    (6, c!"params: {"),
    (7, c!"\"RANGE\": \"THISANDFUTURE\","),
    (6, c!"},"),
    (6, c!"value: \"20211101T150000Z\","),
    (5, c!"},"),
    (4, c!"},"),
    (3, c!"},"),
    (2, c!"],"),
    (2, c!"freebusy: [],"),
    (2, c!"journals: [],"),
    (2, c!"todo: [],"),
    (2, c!"timezones: ["),
    (3, c!"VTimezone {"),
    (4, c!"tzid: Text {"),
    (5, c!"params: {},"),
    (5, c!"text: \"Western/Central Europe\","),
    (4, c!"},"),
    (4, c!"last_modified: None,"),
    (4, c!"tzurl: None,"),
    (4, c!"standard: ["),
    (5, c!"Standard {"),
    (6, c!"dtstart: DateTime("),
    (7, c!"Naive("),
    (8, c!"1950-10-29T02:00:00,"),
    (7, c!"),"),
    (6, c!"),"),
    (6, c!"tzoffsetto: +01:00,"),
    (6, c!"tzoffsetfrom: +02:00,"),
    (6, c!"rrule: Some("),
    (7, c!"Recur {"),
    (8, c!"freq: Yearly,"),
    (8, c!"until: None,"),
    (8, c!"count: None,"),
    (8, c!"interval: 1,"),
    (8, c!"by_second: [],"),
    (8, c!"by_minute: ["),
    (9, c!"0,"),
    (8, c!"],"),
    (8, c!"by_hour: ["),
    (9, c!"2,"),
    (8, c!"],"),
    (8, c!"by_day: ["),
    (9, c!"WeekdayNum {"),
    (10, c!"weekday: Sunday,"),
    (10, c!"ord: Some("),
    (11, c!"-1,"),
    (10, c!"),"),
    (9, c!"},"),
    (8, c!"],"),
    (8, c!"by_monthday: [],"),
    (8, c!"by_yearday: [],"),
    (8, c!"by_weekno: [],"),
    (8, c!"by_month: ["),
    (9, c!"10,"),
    (8, c!"],"),
    (8, c!"by_setpos: [],"),
    (8, c!"wkst: None,"),
    (7, c!"},"),
    (6, c!"),"),
    (6, c!"comment: [],"),
    (6, c!"rdate: [],"),
    (6, c!"tzname: [],"),
    (6, c!"x_prop: {},"),
    (6, c!"iana_prop: {},"),
    (5, c!"},"),
    (4, c!"],"),
    (4, c!"daylight: ["),
    (5, c!"Daylight {"),
    (6, c!"dtstart: DateTime("),
    (7, c!"Naive("),
    (8, c!"1950-03-26T02:00:00,"),
    (7, c!"),"),
    (6, c!"),"),
    (6, c!"tzoffsetto: +02:00,"),
    (6, c!"tzoffsetfrom: +01:00,"),
    (6, c!"rrule: Some("),
    (7, c!"Recur {"),
    (8, c!"freq: Yearly,"),
    (8, c!"until: None,"),
    (8, c!"count: None,"),
    (8, c!"interval: 1,"),
    (8, c!"by_second: [],"),
    (8, c!"by_minute: ["),
    (9, c!"0,"),
    (8, c!"],"),
    (8, c!"by_hour: ["),
    (9, c!"2,"),
    (8, c!"],"),
    (8, c!"by_day: ["),
    (9, c!"WeekdayNum {"),
    (10, c!"weekday: Sunday,"),
    (10, c!"ord: Some("),
    (11, c!"-1,"),
    (10, c!"),"),
    (9, c!"},"),
    (8, c!"],"),
    (8, c!"by_monthday: [],"),
    (8, c!"by_yearday: [],"),
    (8, c!"by_weekno: [],"),
    (8, c!"by_month: ["),
    (9, c!"3,"),
    (8, c!"],"),
    (8, c!"by_setpos: [],"),
    (8, c!"wkst: None,"),
    (7, c!"},"),
    (6, c!"),"),
    (6, c!"comment: [],"),
    (6, c!"rdate: [],"),
    (6, c!"tzname: [],"),
    (6, c!"x_prop: {},"),
    (6, c!"iana_prop: {},"),
    (5, c!"},"),
    (4, c!"],"),
    (4, c!"x_prop: {},"),
    (4, c!"iana_prop: {},"),
    (3, c!"},"),
    (2, c!"],"),
    (2, c!"x_prop: {"),
    (3, c!"\"X-SOURCE-URL\": ContentLine {"),
    (4, c!"params: {},"),
    (4, c!"value: \"https://github.com/pimutils/khal/issues/152#issuecomment-933635248\","),
    (3, c!"},"),
    (2, c!"},"),
    (2, c!"iana_prop: {},"),
    (1, c!"},"),
    (0, c!")")] := by decide +kernel

/-- `tests/calendars/issue_165_missing_event.ics`, which must be rejected. -/
example : shown VCalendar.ofStr (lf [c!"BEGIN:VCALENDAR",
    c!"METHOD:REQUEST",
    c!"PRODID:Microsoft CDO for Microsoft Exchange",
    c!"VERSION:2.0",
    c!"BEGIN:VTIMEZONE",
    c!"TZID:GMT +0100 (Standard) / GMT +0200 (Daylight)",
    c!"BEGIN:STANDARD",
    c!"DTSTART:16010101T030000",
    c!"TZOFFSETFROM:+0200",
    c!"TZOFFSETTO:+0100",
    c!"RRULE:FREQ=YEARLY;WKST=MO;INTERVAL=1;BYMONTH=10;BYDAY=-1SU",
    c!"END:STANDARD",
    c!"BEGIN:DAYLIGHT",
    c!"DTSTART:16010101T020000",
    c!"TZOFFSETFROM:+0100",
    c!"TZOFFSETTO:+0200",
    c!"RRULE:FREQ=YEARLY;WKST=MO;INTERVAL=1;BYMONTH=3;BYDAY=-1SU",
    c!"END:DAYLIGHT",
    c!"END:VTIMEZONE",
    c!"BEGIN:VEVENT",
    c!"DTSTAMP:20150703T071009Z",
    c!"DTSTART;TZID=\"GMT +0100 (Standard) / GMT +0200 (Daylight)\":20150703T100000",
    c!"SUMMARY:Sprint 25 Daily Standup",
    c!"DTEND;TZID=\"GMT +0100 (Standard) / GMT +0200 (Daylight)\":20150703T103000",
    c!"RRULE:FREQ=DAILY;UNTIL=20150722T080000Z;INTERVAL=1;BYDAY=MO, TU, WE, TH, FR",
    c!" ;WKST=SU",
    c!"END:VEVENT",
    c!"END:VCALENDAR",
    c!""]) =
    none := by decide +kernel

/-- `tests/calendars/issue_168_expected_output.ics`, which must be rejected. -/
example : shown VCalendar.ofStr (crlf [c!"BEGIN:VCALENDAR",
    c!"BEGIN:VEVENT",
    c!"DTSTART:20150905T090000Z",
    c!"DTEND:20150905T100000Z",
    c!"UID:123",
    c!"END:VEVENT",
    c!"END:VCALENDAR",
    c!""]) =
    none := by decide +kernel

/-- `tests/calendars/issue_168_input.ics`, which must be rejected. -/
example : shown VCalendar.ofStr (crlf [c!"BEGIN:VCALENDAR",
    c!"BEGIN:VEVENT",
    c!"DTSTART:20150905T090000Z",
    c!"DTEND:20150905T100000Z",
    c!"UID:123",
    c!"X-APPLE-RADIUS=49.91307046514149",
    c!"END:VEVENT",
    c!"END:VCALENDAR",
    c!""]) =
    none := by decide +kernel

/-- `tests/calendars/issue_178_component_with_invalid_name_represented.ics`, which must be rejected. -/
example : shown VCalendar.ofStr (crlf [c!"BEGIN:MYCOMP",
    c!"END:MYCOMP",
    c!""]) =
    none := by decide +kernel

/-- `tests/calendars/issue_178_custom_component_contains_other.ics`, which must be rejected. -/
example : shown VCalendar.ofStr (crlf [c!"BEGIN:MYCOMPTOO",
    c!"DTSTAMP:20150121T080000",
    c!"BEGIN:VEVENT",
    c!"DTSTART:20150122",
    c!"UID:12345",
    c!"END:VEVENT",
    c!"END:MYCOMPTOO",
    c!""]) =
    none := by decide +kernel

/-- `tests/calendars/issue_178_custom_component_inside_other.ics`, which must be rejected. -/
example : shown VCalendar.ofStr (crlf [c!"BEGIN:VCALENDAR",
    c!"BEGIN:UNKNOWN",
    c!"UID:1234",
    c!"END:UNKNOWN",
    c!"END:VCALENDAR",
    c!""]) =
    none := by decide +kernel

/-- `tests/calendars/issue_237_fail_to_parse_timezone_with_non_ascii_tzid.ics` and `tests/calendars/issue_237_fail_to_parse_timezone_with_non_ascii_tzid.out`. -/
example : shown VCalendar.ofStr (crlf [c!"BEGIN:VCALENDAR",
    c!"VERSION:2.0",
    c!"PRODID:collective/icalendar",
    c!"BEGIN:VTIMEZONE",
    c!"TZID:(UTC-03:00) Brasília",
    c!"BEGIN:STANDARD",
    c!"TZNAME:Brasília standard",
    c!"DTSTART:16010101T235959",
    c!"TZOFFSETFROM:-0200",
    c!"TZOFFSETTO:-0300",
    c!"RRULE:FREQ=YEARLY;INTERVAL=1;BYDAY=3SA;BYMONTH=2",
    c!"END:STANDARD",
    c!"BEGIN:DAYLIGHT",
    c!"TZNAME:Brasília daylight",
    c!"DTSTART:16010101T235959",
    c!"TZOFFSETFROM:-0300",
    c!"TZOFFSETTO:-0200",
    c!"RRULE:FREQ=YEARLY;INTERVAL=1;BYDAY=2SA;BYMONTH=10",
    c!"END:DAYLIGHT",
    c!"END:VTIMEZONE",
    c!"BEGIN:VEVENT",
    c!"DTSTART;TZID=\"(UTC-03:00) Brasília\":20170511T133000",
    c!"DTEND;TZID=\"(UTC-03:00) Brasília\":20170511T140000",
    c!"DTSTAMP:16010101T235959",
    c!"UID:123456",
    c!"END:VEVENT",
    c!"END:VCALENDAR",
    c!""]) =
    some [
    (0, c!"Ok("),
    (1, c!"VCalendar {"),
    (2, c!"prodid: Text {"),
    (3, c!"params: {},"),
    (3, c!"text: \"collective/icalendar\","),
    (2, c!"},"),
    (2, c!"version: Text {"),
    (3, c!"params: {},"),
    (3, c!"text: \"2.0\","),
    (2, c!"},"),
    (2, c!"calscale: None,"),
    (2, c!"method: None,"),
    (2, c!"alarms: [],"),
    (2, c!"events: ["),
    (3, c!"VEvent {"),
    (4, c!"dtstamp: Naive("),
    (5, c!"1601-01-01T23:59:59,"),
    (4, c!"),"),
    (4, c!"uid: Text {"),
    (5, c!"params: {},"),
    (5, c!"text: \"123456\","),
    (4, c!"},"),
    (4, c!"dtstart: DateTime("),
    (5, c!"Naive("),
    (6, c!"2017-05-11T13:30:00,"),
    (5, c!"),"),
    (4, c!"),"),
    (4, c!"class: None,"),
    (4, c!"created: None,"),
    (4, c!"description: None,"),
    (4, c!"geo: None,"),
    (4, c!"last_modified: None,"),
    (4, c!"location: None,"),
    (4, c!"organizer: None,"),
    (4, c!"priority: None,"),
    (4, c!"sequence: None,"),
    (4, c!"status: None,"),
    (4, c!"summary: None,"),
    (4, c!"transp: None,"),
    (4, c!"url: None,"),
    (4, c!"recurid: None,"),
    (4, c!"rrule: None,"),
    (4, c!"dtend: Some("),
    (5, c!"DateTime("),
    (6, c!"Naive("),
    (7, c!"2017-05-11T14:00:00,"),
    (6, c!"),"),
    (5, c!"),"),
    (4, c!"),"),
    (4, c!"duration: None,"),
    (4, c!"attach: [],"),
    (4, c!"attendee: [],"),
    (4, c!"categories: [],"),
    (4, c!"comment: [],"),
    (4, c!"contact: [],"),
    (4, c!"exdate: [],"),
    (4, c!"rstatus: [],"),
    (4, c!"related_to: [],"),
    (4, c!"resources: [],"),
    (4, c!"rdate: [],"),
    (4, c!"alarms: [],"),
    (4, c!"x_prop: {},"),
    (4, c!"iana_prop: {},"),
    (3, c!"},"),
    (2, c!"],"),
    (2, c!"freebusy: [],"),
    (2, c!"journals: [],"),
    (2, c!"todo: [],"),
    (2, c!"timezones: ["),
    (3, c!"VTimezone {"),
    (4, c!"tzid: Text {"),
    (5, c!"params: {},"),
    (5, c!"text: \"(UTC-03:00) Brasília\","),
    (4, c!"},"),
    (4, c!"last_modified: None,"),
    (4, c!"tzurl: None,"),
    (4, c!"standard: ["),
    (5, c!"Standard {"),
    (6, c!"dtstart: DateTime("),
    (7, c!"Naive("),
    (8, c!"1601-01-01T23:59:59,"),
    (7, c!"),"),
    (6, c!"),"),
    (6, c!"tzoffsetto: -03:00,"),
    (6, c!"tzoffsetfrom: -02:00,"),
    (6, c!"rrule: Some("),
    (7, c!"Recur {"),
    (8, c!"freq: Yearly,"),
    (8, c!"until: None,"),
    (8, c!"count: None,"),
    (8, c!"interval: 1,"),
    (8, c!"by_second: [],"),
    (8, c!"by_minute: [],"),
    (8, c!"by_hour: [],"),
    (8, c!"by_day: ["),
    (9, c!"WeekdayNum {"),
    (10, c!"weekday: Saturday,"),
    (10, c!"ord: Some("),
    (11, c!"3,"),
    (10, c!"),"),
    (9, c!"},"),
    (8, c!"],"),
    (8, c!"by_monthday: [],"),
    (8, c!"by_yearday: [],"),
    (8, c!"by_weekno: [],"),
    (8, c!"by_month: ["),
    (9, c!"2,"),
    (8, c!"],"),
    (8, c!"by_setpos: [],"),
    (8, c!"wkst: None,"),
    (7, c!"},"),
    (6, c!"),"),
    (6, c!"comment: [],"),
    (6, c!"rdate: [],"),
    (6, c!"tzname: ["),
    (7, c!"Text {"),
    (8, c!"params: {},"),
    (8, c!"text: \"Brasília standard\","),
    (7, c!"},"),
    (6, c!"],"),
    (6, c!"x_prop: {},"),
    (6, c!"iana_prop: {},"),
    (5, c!"},"),
    (4, c!"],"),
    (4, c!"daylight: ["),
    (5, c!"Daylight {"),
    (6, c!"dtstart: DateTime("),
    (7, c!"Naive("),
    (8, c!"1601-01-01T23:59:59,"),
    (7, c!"),"),
    (6, c!"),"),
    (6, c!"tzoffsetto: -02:00,"),
    (6, c!"tzoffsetfrom: -03:00,"),
    (6, c!"rrule: Some("),
    (7, c!"Recur {"),
    (8, c!"freq: Yearly,"),
    (8, c!"until: None,"),
    (8, c!"count: None,"),
    (8, c!"interval: 1,"),
    (8, c!"by_second: [],"),
    (8, c!"by_minute: [],"),
    (8, c!"by_hour: [],"),
    (8, c!"by_day: ["),
    (9, c!"WeekdayNum {"),
    (10, c!"weekday: Saturday,"),
    (10, c!"ord: Some("),
    (11, c!"2,"),
    (10, c!"),"),
    (9, c!"},"),
    (8, c!"],"),
    (8, c!"by_monthday: [],"),
    (8, c!"by_yearday: [],"),
    (8, c!"by_weekno: [],"),
    (8, c!"by_month: ["),
    (9, c!"10,"),
    (8, c!"],"),
    (8, c!"by_setpos: [],"),
    (8, c!"wkst: None,"),
    (7, c!"},"),
    (6, c!"),"),
    (6, c!"comment: [],"),
    (6, c!"rdate: [],"),
    (6, c!"tzname: ["),
    (7, c!"Text {"),
    (8, c!"params: {},"),
    (8, c!"text: \"Brasília daylight\","),
    (7, c!"},"),
    (6, c!"],"),
    (6, c!"x_prop: {},"),
    (6, c!"iana_prop: {},"),
    (5, c!"},"),
    (4, c!"],"),
    (4, c!"x_prop: {},"),
    (4, c!"iana_prop: {},"),
    (3, c!"},"),
    (2, c!"],"),
    (2, c!"x_prop: {},"),
    (2, c!"iana_prop: {},"),
    (1, c!"},"),
    (0, c!")")] := by decide +kernel

/-- `tests/calendars/issue_27_multiple_periods_in_freebusy_multiple_freebusies.ics` and `tests/calendars/issue_27_multiple_periods_in_freebusy_multiple_freebusies.out`. -/
example : shown VCalendar.ofStr (crlf [c!"BEGIN:VCALENDAR",
    c!"VERSION:2.0",
    c!"PRODID:-//davmail.sf.net/NONSGML DavMail Calendar V1.1//EN",
    c!"METHOD:REPLY",
    c!"BEGIN:VFREEBUSY",
    c!"DTSTAMP:20120131T123000Z",
    c!"ORGANIZER:MAILTO:organizer@domain.tld",
    c!"DTSTART:20120101T000000Z",
    c!"DTEND:20120201T000000Z",
    c!"UID:null",
    c!"ATTENDEE:MAILTO:attendee@domain.tld",
    c!"FREEBUSY;FBTYPE=BUSY:20120103T091500Z/20120103T101500Z",
    c!"FREEBUSY;FBTYPE=BUSY:20120113T130000Z/20120113T150000Z",
    c!"FREEBUSY;FBTYPE=BUSY:20120116T130000Z/20120116T150000Z",
    c!"FREEBUSY;FBTYPE=BUSY:20120117T091500Z/20120117T101500Z",
    c!"FREEBUSY;FBTYPE=BUSY:20120118T160000Z/20120118T163000Z",
    c!"FREEBUSY;FBTYPE=BUSY:20120124T083000Z/20120124T093000Z",
    c!"FREEBUSY;FBTYPE=BUSY:20120124T123000Z/20120124T143000Z",
    c!"FREEBUSY;FBTYPE=BUSY:20120131T091500Z/20120131T101500Z",
    c!"END:VFREEBUSY",
    c!"END:VCALENDAR",
    c!""]) =
    some [
    (0, c!"Ok("),
    (1, c!"VCalendar {"),
    (2, c!"prodid: Text {"),
    (3, c!"params: {},"),
    (3, c!"text: \"-//davmail.sf.net/NONSGML DavMail Calendar V1.1//EN\","),
    (2, c!"},"),
    (2, c!"version: Text {"),
    (3, c!"params: {},"),
    (3, c!"text: \"2.0\","),
    (2, c!"},"),
    (2, c!"calscale: None,"),
    (2, c!"method: Some("),
    (3, c!"Text {"),
    (4, c!"params: {},"),
    (4, c!"text: \"REPLY\","),
    (3, c!"},"),
    (2, c!"),"),
    (2, c!"alarms: [],"),
    (2, c!"events: [],"),
    (2, c!"freebusy: ["),
    (3, c!"VFreebusy {"),
    (4, c!"dtstamp: Local("),
    (5, c!"2012-01-31T13:30:00+01:00,"),
    (4, c!"),"),
    (4, c!"uid: Text {"),
    (5, c!"params: {},"),
    (5, c!"text: \"null\","),
    (4, c!"},"),
    (4, c!"contact: None,"),
    (4, c!"dtstart: Some("),
    (5, c!"DateTime("),
    (6, c!"Local("),
    (7, c!"2012-01-01T01:00:00+01:00,"),
    (6, c!"),"),
    (5, c!"),"),
    (4, c!"),"),
    (4, c!"dtend: Some("),
    (5, c!"DateTime("),
    (6, c!"Local("),
    (7, c!"2012-02-01T01:00:00+01:00,"),
    (6, c!"),"),
    (5, c!"),"),
    (4, c!"),"),
    (4, c!"organizer: Some("),
    (5, c!"Uri {"),
    (6, c!"params: {},"),
    (6, c!"uri: \"MAILTO:organizer@domain.tld\","),
    (5, c!"},"),
    (4, c!"),"),
    (4, c!"url: None,"),
    (4, c!"attendee: ["),
    (5, c!"Uri {"),
    (6, c!"params: {},"),
    (6, c!"uri: \"MAILTO:attendee@domain.tld\","),
    (5, c!"},"),
    (4, c!"],"),
    (4, c!"comment: [],"),
    (4, c!"freebusy: ["),
    (5, c!"StartEnd("),
    (6, c!"StartEnd {"),
    (7, c!"start: Local("),
    (8, c!"2012-01-03T10:15:00+01:00,"),
    (7, c!"),"),
    (7, c!"end: Local("),
    (8, c!"2012-01-03T11:15:00+01:00,"),
    (7, c!"),"),
    (6, c!"},"),
    (5, c!"),"),
    (5, c!"StartEnd("),
    (6, c!"StartEnd {"),
    (7, c!"start: Local("),
    (8, c!"2012-01-13T14:00:00+01:00,"),
    (7, c!"),"),
    (7, c!"end: Local("),
    (8, c!"2012-01-13T16:00:00+01:00,"),
    (7, c!"),"),
    (6, c!"},"),
    (5, c!"),"),
    (5, c!"StartEnd("),
    (6, c!"StartEnd {"),
    (7, c!"start: Local("),
    (8, c!"2012-01-16T14:00:00+01:00,"),
    (7, c!"),"),
    (7, c!"end: Local("),
    (8, c!"2012-01-16T16:00:00+01:00,"),
    (7, c!"),"),
    (6, c!"},"),
    (5, c!"),"),
    (5, c!"StartEnd("),
    (6, c!"StartEnd {"),
    (7, c!"start: Local("),
    (8, c!"2012-01-17T10:15:00+01:00,"),
    (7, c!"),"),
    (7, c!"end: Local("),
    (8, c!"2012-01-17T11:15:00+01:00,"),
    (7, c!"),"),
    (6, c!"},"),
    (5, c!"),"),
    (5, c!"StartEnd("),
    (6, c!"StartEnd {"),
    (7, c!"start: Local("),
    (8, c!"2012-01-18T17:00:00+01:00,"),
    (7, c!"),"),
    (7, c!"end: Local("),
    (8, c!"2012-01-18T17:30:00+01:00,"),
    (7, c!"),"),
    (6, c!"},"),
    (5, c!"),"),
    (5, c!"StartEnd("),
    (6, c!"StartEnd {"),
    (7, c!"start: Local("),
    (8, c!"2012-01-24T09:30:00+01:00,"),
    (7, c!"),"),
    (7, c!"end: Local("),
    (8, c!"2012-01-24T10:30:00+01:00,"),
    (7, c!"),"),
    (6, c!"},"),
    (5, c!"),"),
    (5, c!"StartEnd("),
    (6, c!"StartEnd {"),
    (7, c!"start: Local("),
    (8, c!"2012-01-24T13:30:00+01:00,"),
    (7, c!"),"),
    (7, c!"end: Local("),
    (8, c!"2012-01-24T15:30:00+01:00,"),
    (7, c!"),"),
    (6, c!"},"),
    (5, c!"),"),
    (5, c!"StartEnd("),
    (6, c!"StartEnd {"),
    (7, c!"start: Local("),
    (8, c!"2012-01-31T10:15:00+01:00,"),
    (7, c!"),"),
    (7, c!"end: Local("),
    (8, c!"2012-01-31T11:15:00+01:00,"),
    (7, c!"),"),
    (6, c!"},"),
    (5, c!"),"),
    (4, c!"],"),
    (4, c!"rstatus: [],"),
    (4, c!"x_prop: {},"),
    (4, c!"iana_prop: {},"),
    (3, c!"},"),
    (2, c!"],"),
    (2, c!"journals: [],"),
    (2, c!"todo: [],"),
    (2, c!"timezones: [],"),
    (2, c!"x_prop: {},"),
    (2, c!"iana_prop: {},"),
    (1, c!"},"),
    (0, c!")")] := by decide +kernel

end Ikal.Conformance
