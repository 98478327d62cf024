import Verif.Conformance.Debug

/-!
# The golden files of the repository: events

Generated from `tests/`: every input file, and the recorded `{:#?}` rendering of what the program makes of
it (depth of indentation and text of every line), or `none` if it must be rejected.
-/

set_option maxRecDepth 100000

namespace Ikal.Conformance

attribute [local instance] cet cetFloat

/-- `tests/events/1.ics` and `tests/events/1.out`. -/
example : shown VEvent.ofStr (crlf [c!"BEGIN:VEVENT",
    c!"CREATED:20170209T192358",
    c!"DTSTAMP:20170209T192358",
    c!"LAST-MODIFIED:20170209T192358",
    c!"UID:5UILHLI7RI6K2IDRAQX7O",
    c!"SUMMARY:Vers",
    c!"CLASS:PUBLIC",
    c!"STATUS:CONFIRMED",
    c!"DTSTART;VALUE=DATE:20170209",
    c!"DTEND;VALUE=DATE:20170210",
    c!"END:VEVENT",
    c!""]) =
    some [
    (0, c!"Ok("),
    (1, c!"VEvent {"),
    (2, c!"dtstamp: Naive("),
    (3, c!"2017-02-09T19:23:58,"),
    (2, c!"),"),
    (2, c!"uid: Text {"),
    (3, c!"params: {},"),
    (3, c!"text: \"5UILHLI7RI6K2IDRAQX7O\","),
    (2, c!"},"),
    (2, c!"dtstart: Date("),
    (3, c!"2017-02-09,"),
    (2, c!"),"),
    (2, c!"class: Some("),
    (3, c!"Public,"),
    (2, c!"),"),
    (2, c!"created: Some("),
    (3, c!"Naive("),
    (4, c!"2017-02-09T19:23:58,"),
    (3, c!"),"),
    (2, c!"),"),
    (2, c!"description: None,"),
    (2, c!"geo: None,"),
    (2, c!"last_modified: Some("),
    (3, c!"Naive("),
    (4, c!"2017-02-09T19:23:58,"),
    (3, c!"),"),
    (2, c!"),"),
    (2, c!"location: None,"),
    (2, c!"organizer: None,"),
    (2, c!"priority: None,"),
    (2, c!"sequence: None,"),
    (2, c!"status: Some("),
    (3, c!"Confirmed,"),
    (2, c!"),"),
    (2, c!"summary: Some("),
    (3, c!"Text {"),
    (4, c!"params: {},"),
    (4, c!"text: \"Vers\","),
    (3, c!"},"),
    (2, c!"),"),
    (2, c!"transp: None,"),
    (2, c!"url: None,"),
    (2, c!"recurid: None,"),
    (2, c!"rrule: None,"),
    (2, c!"dtend: Some("),
    (3, c!"Date("),
    (4, c!"2017-02-10,"),
    (3, c!"),"),
    (2, c!"),"),
    (2, c!"duration: None,"),
    (2, c!"attach: [],"),
    (2, c!"attendee: [],"),
    (2, c!"categories: [],"),
    (2, c!"comment: [],"),
    (2, c!"contact: [],"),
    (2, c!"exdate: [],"),
    (2, c!"rstatus: [],"),
    (2, c!"related_to: [],"),
    (2, c!"resources: [],"),
    (2, c!"rdate: [],"),
    (2, c!"alarms: [],"),
    (2, c!"x_prop: {},"),
    (2, c!"iana_prop: {},"),
    (1, c!"},"),
    (0, c!")")] := by decide +kernel

/-- `tests/events/event_with_escaped_character1.ics` and `tests/events/event_with_escaped_character1.out`. -/
example : shown VEvent.ofStr (crlf [c!"BEGIN:VEVENT",
    c!"DTSTAMP:20170209T192358",
    c!"UID:5UILHLI7RI6K2IDRAQX7O",
    c!"DTSTART;VALUE=DATE:20170209",
    c!"ORGANIZER;CN=Society\\, 2014:that",
    c!"END:VEVENT",
    c!""]) =
    some [
    (0, c!"Ok("),
    (1, c!"VEvent {"),
    (2, c!"dtstamp: Naive("),
    (3, c!"2017-02-09T19:23:58,"),
    (2, c!"),"),
    (2, c!"uid: Text {"),
    (3, c!"params: {},"),
    (3, c!"text: \"5UILHLI7RI6K2IDRAQX7O\","),
    (2, c!"},"),
    (2, c!"dtstart: Date("),
    (3, c!"2017-02-09,"),
    (2, c!"),"),
    (2, c!"class: None,"),
    (2, c!"created: None,"),
    (2, c!"description: None,"),
    (2, c!"geo: None,"),
    (2, c!"last_modified: None,"),
    (2, c!"location: None,"),
    (2, c!"organizer: Some("),
    (3, c!"Uri {"),
    (4, c!"params: {"),
    (5, c!"\"CN\": \"Society\\\\, 2014\","),
    (4, c!"},"),
    (4, c!"uri: \"that\","),
    (3, c!"},"),
    (2, c!"),"),
    (2, c!"priority: None,"),
    (2, c!"sequence: None,"),
    (2, c!"status: None,"),
    (2, c!"summary: None,"),
    (2, c!"transp: None,"),
    (2, c!"url: None,"),
    (2, c!"recurid: None,"),
    (2, c!"rrule: None,"),
    (2, c!"dtend: None,"),
    (2, c!"duration: None,"),
    (2, c!"attach: [],"),
    (2, c!"attendee: [],"),
    (2, c!"categories: [],"),
    (2, c!"comment: [],"),
    (2, c!"contact: [],"),
    (2, c!"exdate: [],"),
    (2, c!"rstatus: [],"),
    (2, c!"related_to: [],"),
    (2, c!"resources: [],"),
    (2, c!"rdate: [],"),
    (2, c!"alarms: [],"),
    (2, c!"x_prop: {},"),
    (2, c!"iana_prop: {},"),
    (1, c!"},"),
    (0, c!")")] := by decide +kernel

/-- `tests/events/event_with_escaped_character2.ics` and `tests/events/event_with_escaped_character2.out`. -/
example : shown VEvent.ofStr (crlf [c!"BEGIN:VEVENT",
    c!"DTSTAMP:20170209T192358",
    c!"UID:5UILHLI7RI6K2IDRAQX7O",
    c!"DTSTART;VALUE=DATE:20170209",
    c!"ORGANIZER;CN=Society\\\\ 2014:that",
    c!"END:VEVENT",
    c!""]) =
    some [
    (0, c!"Ok("),
    (1, c!"VEvent {"),
    (2, c!"dtstamp: Naive("),
    (3, c!"2017-02-09T19:23:58,"),
    (2, c!"),"),
    (2, c!"uid: Text {"),
    (3, c!"params: {},"),
    (3, c!"text: \"5UILHLI7RI6K2IDRAQX7O\","),
    (2, c!"},"),
    (2, c!"dtstart: Date("),
    (3, c!"2017-02-09,"),
    (2, c!"),"),
    (2, c!"class: None,"),
    (2, c!"created: None,"),
    (2, c!"description: None,"),
    (2, c!"geo: None,"),
    (2, c!"last_modified: None,"),
    (2, c!"location: None,"),
    (2, c!"organizer: Some("),
    (3, c!"Uri {"),
    (4, c!"params: {"),
    (5, c!"\"CN\": \"Society\\\\\\\\ 2014\","),
    (4, c!"},"),
    (4, c!"uri: \"that\","),
    (3, c!"},"),
    (2, c!"),"),
    (2, c!"priority: None,"),
    (2, c!"sequence: None,"),
    (2, c!"status: None,"),
    (2, c!"summary: None,"),
    (2, c!"transp: None,"),
    (2, c!"url: None,"),
    (2, c!"recurid: None,"),
    (2, c!"rrule: None,"),
    (2, c!"dtend: None,"),
    (2, c!"duration: None,"),
    (2, c!"attach: [],"),
    (2, c!"attendee: [],"),
    (2, c!"categories: [],"),
    (2, c!"comment: [],"),
    (2, c!"contact: [],"),
    (2, c!"exdate: [],"),
    (2, c!"rstatus: [],"),
    (2, c!"related_to: [],"),
    (2, c!"resources: [],"),
    (2, c!"rdate: [],"),
    (2, c!"alarms: [],"),
    (2, c!"x_prop: {},"),
    (2, c!"iana_prop: {},"),
    (1, c!"},"),
    (0, c!")")] := by decide +kernel

/-- `tests/events/event_with_escaped_character4.ics` and `tests/events/event_with_escaped_character4.out`. -/
example : shown VEvent.ofStr (crlf [c!"BEGIN:VEVENT",
    c!"DTSTAMP:20170209T192358",
    c!"UID:5UILHLI7RI6K2IDRAQX7O",
    c!"DTSTART;VALUE=DATE:20170209",
    c!"ORGANIZER;CN=Society\\: 2014:that",
    c!"END:VEVENT",
    c!""]) =
    some [
    (0, c!"Ok("),
    (1, c!"VEvent {"),
    (2, c!"dtstamp: Naive("),
    (3, c!"2017-02-09T19:23:58,"),
    (2, c!"),"),
    (2, c!"uid: Text {"),
    (3, c!"params: {},"),
    (3, c!"text: \"5UILHLI7RI6K2IDRAQX7O\","),
    (2, c!"},"),
    (2, c!"dtstart: Date("),
    (3, c!"2017-02-09,"),
    (2, c!"),"),
    (2, c!"class: None,"),
    (2, c!"created: None,"),
    (2, c!"description: None,"),
    (2, c!"geo: None,"),
    (2, c!"last_modified: None,"),
    (2, c!"location: None,"),
    (2, c!"organizer: Some("),
    (3, c!"Uri {"),
    (4, c!"params: {"),
    (5, c!"\"CN\": \"Society\\\\\","),
    (4, c!"},"),
    (4, c!"uri: \" 2014:that\","),
    (3, c!"},"),
    (2, c!"),"),
    (2, c!"priority: None,"),
    (2, c!"sequence: None,"),
    (2, c!"status: None,"),
    (2, c!"summary: None,"),
    (2, c!"transp: None,"),
    (2, c!"url: None,"),
    (2, c!"recurid: None,"),
    (2, c!"rrule: None,"),
    (2, c!"dtend: None,"),
    (2, c!"duration: None,"),
    (2, c!"attach: [],"),
    (2, c!"attendee: [],"),
    (2, c!"categories: [],"),
    (2, c!"comment: [],"),
    (2, c!"contact: [],"),
    (2, c!"exdate: [],"),
    (2, c!"rstatus: [],"),
    (2, c!"related_to: [],"),
    (2, c!"resources: [],"),
    (2, c!"rdate: [],"),
    (2, c!"alarms: [],"),
    (2, c!"x_prop: {},"),
    (2, c!"iana_prop: {},"),
    (1, c!"},"),
    (0, c!")")] := by decide +kernel

/-- `tests/events/event_with_recurrence.ics` and `tests/events/event_with_recurrence.out`. -/
example : shown VEvent.ofStr (crlf [c!"BEGIN:VEVENT",
    c!"DTSTAMP:20170209T192358",
    c!"UID:5UILHLI7RI6K2IDRAQX7O",
    c!"DTSTART:19960401T010000",
    c!"DTEND:19960401T020000",
    c!"RRULE:FREQ=DAILY;COUNT=100",
    c!"EXDATE:19960402T010000Z,19960403T010000Z,19960404T010000Z",
    c!"SUMMARY:A recurring event with exdates",
    c!"END:VEVENT",
    c!""]) =
    some [
    (0, c!"Ok("),
    (1, c!"VEvent {"),
    (2, c!"dtstamp: Naive("),
    (3, c!"2017-02-09T19:23:58,"),
    (2, c!"),"),
    (2, c!"uid: Text {"),
    (3, c!"params: {},"),
    (3, c!"text: \"5UILHLI7RI6K2IDRAQX7O\","),
    (2, c!"},"),
    (2, c!"dtstart: DateTime("),
    (3, c!"Naive("),
    (4, c!"1996-04-01T01:00:00,"),
    (3, c!"),"),
    (2, c!"),"),
    (2, c!"class: None,"),
    (2, c!"created: None,"),
    (2, c!"description: None,"),
    (2, c!"geo: None,"),
    (2, c!"last_modified: None,"),
    (2, c!"location: None,"),
    (2, c!"organizer: None,"),
    (2, c!"priority: None,"),
    (2, c!"sequence: None,"),
    (2, c!"status: None,"),
    (2, c!"summary: Some("),
    (3, c!"Text {"),
    (4, c!"params: {},"),
    (4, c!"text: \"A recurring event with exdates\","),
    (3, c!"},"),
    (2, c!"),"),
    (2, c!"transp: None,"),
    (2, c!"url: None,"),
    (2, c!"recurid: None,"),
    (2, c!"rrule: Some("),
    (3, c!"Recur {"),
    (4, c!"freq: Daily,"),
    (4, c!"until: None,"),
    (4, c!"count: Some("),
    (5, c!"100,"),
    (4, c!"),"),
    (4, c!"interval: 1,"),
    (4, c!"by_second: [],"),
    (4, c!"by_minute: [],"),
    (4, c!"by_hour: [],"),
    (4, c!"by_day: [],"),
    (4, c!"by_monthday: [],"),
    (4, c!"by_yearday: [],"),
    (4, c!"by_weekno: [],"),
    (4, c!"by_month: [],"),
    (4, c!"by_setpos: [],"),
    (4, c!"wkst: None,"),
    (3, c!"},"),
    (2, c!"),"),
    (2, c!"dtend: Some("),
    (3, c!"DateTime("),
    (4, c!"Naive("),
    (5, c!"1996-04-01T02:00:00,"),
    (4, c!"),"),
    (3, c!"),"),
    (2, c!"),"),
    (2, c!"duration: None,"),
    (2, c!"attach: [],"),
    (2, c!"attendee: [],"),
    (2, c!"categories: [],"),
    (2, c!"comment: [],"),
    (2, c!"contact: [],"),
    (2, c!"exdate: ["),
    (3, c!"DateTime("),
    (4, c!"Local("),
    (5, c!"1996-04-02T03:00:00+02:00,"),
    (4, c!"),"),
    (3, c!"),"),
    (3, c!"DateTime("),
    (4, c!"Local("),
    (5, c!"1996-04-03T03:00:00+02:00,"),
    (4, c!"),"),
    (3, c!"),"),
    (3, c!"DateTime("),
    (4, c!"Local("),
    (5, c!"1996-04-04T03:00:00+02:00,"),
    (4, c!"),"),
    (3, c!"),"),
    (2, c!"],"),
    (2, c!"rstatus: [],"),
    (2, c!"related_to: [],"),
    (2, c!"resources: [],"),
    (2, c!"rdate: [],"),
    (2, c!"alarms: [],"),
    (2, c!"x_prop: {},"),
    (2, c!"iana_prop: {},"),
    (1, c!"},"),
    (0, c!")")] := by decide +kernel

/-- `tests/events/event_with_recurrence_exdates_on_different_lines.ics` and `tests/events/event_with_recurrence_exdates_on_different_lines.out`. -/
example : shown VEvent.ofStr (crlf [c!"BEGIN:VEVENT",
    c!"UID:5UILHLI7RI6K2IDRAQX7O",
    c!"DTSTART;TZID=Europe/Vienna:20120327T100000",
    c!"DTEND;TZID=Europe/Vienna:20120327T180000",
    c!"RRULE:FREQ=WEEKLY;UNTIL=20120703T080000Z;BYDAY=TU",
    c!"EXDATE;TZID=Europe/Vienna:20120529T100000",
    c!"EXDATE;TZID=Europe/Vienna:20120403T100000",
    c!"EXDATE;TZID=Europe/Vienna:20120410T100000",
    c!"EXDATE;TZID=Europe/Vienna:20120501T100000",
    c!"EXDATE;TZID=Europe/Vienna:20120417T100000",
    c!"DTSTAMP:20130716T120638Z",
    c!"SUMMARY:A Recurring event with multiple exdates, one per line.",
    c!"END:VEVENT",
    c!""]) =
    some [
    (0, c!"Ok("),
    (1, c!"VEvent {"),
    (2, c!"dtstamp: Local("),
    (3, c!"2013-07-16T14:06:38+02:00,"),
    (2, c!"),"),
    (2, c!"uid: Text {"),
    (3, c!"params: {},"),
    (3, c!"text: \"5UILHLI7RI6K2IDRAQX7O\","),
    (2, c!"},"),
    (2, c!"dtstart: DateTime("),
    (3, c!"Naive("),
    (4, c!"2012-03-27T10:00:00,"),
    (3, c!"),"),
    (2, c!"),"),
    (2, c!"class: None,"),
    (2, c!"created: None,"),
    (2, c!"description: None,"),
    (2, c!"geo: None,"),
    (2, c!"last_modified: None,"),
    (2, c!"location: None,"),
    (2, c!"organizer: None,"),
    (2, c!"priority: None,"),
    (2, c!"sequence: None,"),
    (2, c!"status: None,"),
    (2, c!"summary: Some("),
    (3, c!"Text {"),
    (4, c!"params: {},"),
    (4, c!"text: \"A Recurring event with multiple exdates, one per line.\","),
    (3, c!"},"),
    (2, c!"),"),
    (2, c!"transp: None,"),
    (2, c!"url: None,"),
    (2, c!"recurid: None,"),
    (2, c!"rrule: Some("),
    (3, c!"Recur {"),
    (4, c!"freq: Weekly,"),
    (4, c!"until: Some("),
    (5, c!"DateTime("),
    (6, c!"Local("),
    (7, c!"2012-07-03T10:00:00+02:00,"),
    (6, c!"),"),
    (5, c!"),"),
    (4, c!"),"),
    (4, c!"count: None,"),
    (4, c!"interval: 1,"),
    (4, c!"by_second: [],"),
    (4, c!"by_minute: [],"),
    (4, c!"by_hour: [],"),
    (4, c!"by_day: ["),
    (5, c!"WeekdayNum {"),
    (6, c!"weekday: Tuesday,"),
    (6, c!"ord: None,"),
    (5, c!"},"),
    (4, c!"],"),
    (4, c!"by_monthday: [],"),
    (4, c!"by_yearday: [],"),
    (4, c!"by_weekno: [],"),
    (4, c!"by_month: [],"),
    (4, c!"by_setpos: [],"),
    (4, c!"wkst: None,"),
    (3, c!"},"),
    (2, c!"),"),
    (2, c!"dtend: Some("),
    (3, c!"DateTime("),
    (4, c!"Naive("),
    (5, c!"2012-03-27T18:00:00,"),
    (4, c!"),"),
    (3, c!"),"),
    (2, c!"),"),
    (2, c!"duration: None,"),
    (2, c!"attach: [],"),
    (2, c!"attendee: [],"),
    (2, c!"categories: [],"),
    (2, c!"comment: [],"),
    (2, c!"contact: [],"),
    (2, c!"exdate: ["),
    (3, c!"DateTime("),
    (4, c!"Naive("),
    (5, c!"2012-05-29T10:00:00,"),
    (4, c!"),"),
    (3, c!"),"),
    (3, c!"DateTime("),
    (4, c!"Naive("),
    (5, c!"2012-04-03T10:00:00,"),
    (4, c!"),"),
    (3, c!"),"),
    (3, c!"DateTime("),
    (4, c!"Naive("),
    (5, c!"2012-04-10T10:00:00,"),
    (4, c!"),"),
    (3, c!"),"),
    (3, c!"DateTime("),
    (4, c!"Naive("),
    (5, c!"2012-05-01T10:00:00,"),
    (4, c!"),"),
    (3, c!"),"),
    (3, c!"DateTime("),
    (4, c!"Naive("),
    (5, c!"2012-04-17T10:00:00,"),
    (4, c!"),"),
    (3, c!"),"),
    (2, c!"],"),
    (2, c!"rstatus: [],"),
    (2, c!"related_to: [],"),
    (2, c!"resources: [],"),
    (2, c!"rdate: [],"),
    (2, c!"alarms: [],"),
    (2, c!"x_prop: {},"),
    (2, c!"iana_prop: {},"),
    (1, c!"},"),
    (0, c!")")] := by decide +kernel

/-- `tests/events/event_with_rsvp.ics` and `tests/events/event_with_rsvp.out`. -/
example : shown VEvent.ofStr (crlf [c!"BEGIN:VEVENT",
    c!"DTSTAMP:20170209T192358",
    c!"UID:5UILHLI7RI6K2IDRAQX7O",
    c!"DTSTART;VALUE=DATE:20170209",
    c!"ATTENDEE;RSVP=TRUE:mailto:someone@example.com",
    c!"END:VEVENT",
    c!""]) =
    some [
    (0, c!"Ok("),
    (1, c!"VEvent {"),
    (2, c!"dtstamp: Naive("),
    (3, c!"2017-02-09T19:23:58,"),
    (2, c!"),"),
    (2, c!"uid: Text {"),
    (3, c!"params: {},"),
    (3, c!"text: \"5UILHLI7RI6K2IDRAQX7O\","),
    (2, c!"},"),
    (2, c!"dtstart: Date("),
    (3, c!"2017-02-09,"),
    (2, c!"),"),
    (2, c!"class: None,"),
    (2, c!"created: None,"),
    (2, c!"description: None,"),
    (2, c!"geo: None,"),
    (2, c!"last_modified: None,"),
    (2, c!"location: None,"),
    (2, c!"organizer: None,"),
    (2, c!"priority: None,"),
    (2, c!"sequence: None,"),
    (2, c!"status: None,"),
    (2, c!"summary: None,"),
    (2, c!"transp: None,"),
    (2, c!"url: None,"),
    (2, c!"recurid: None,"),
    (2, c!"rrule: None,"),
    (2, c!"dtend: None,"),
    (2, c!"duration: None,"),
    (2, c!"attach: [],"),
    (2, c!"attendee: ["),
    (3, c!"Uri {"),
    (4, c!"params: {"),
    (5, c!"\"RSVP\": \"TRUE\","),
    (4, c!"},"),
    (4, c!"uri: \"mailto:someone@example.com\","),
    (3, c!"},"),
    (2, c!"],"),
    (2, c!"categories: [],"),
    (2, c!"comment: [],"),
    (2, c!"contact: [],"),
    (2, c!"exdate: [],"),
    (2, c!"rstatus: [],"),
    (2, c!"related_to: [],"),
    (2, c!"resources: [],"),
    (2, c!"rdate: [],"),
    (2, c!"alarms: [],"),
    (2, c!"x_prop: {},"),
    (2, c!"iana_prop: {},"),
    (1, c!"},"),
    (0, c!")")] := by decide +kernel

/-- `tests/events/event_with_unicode_fields.ics` and `tests/events/event_with_unicode_fields.out`. -/
example : shown VEvent.ofStr (crlf [c!"BEGIN:VEVENT",
    c!"DTSTAMP:20170209T192358",
    c!"DTSTART:20101010T100000Z",
    c!"DTEND:20101010T120000Z",
    c!"CREATED:20101010T100000Z",
    c!"UID:123456",
    c!"SUMMARY:Non-ASCII Test: ÄÖÜ äöü €",
    c!"DESCRIPTION:icalendar should be able to handle non-ascii: €äüöÄÜÖ.",
    c!"LOCATION:Tribstrül",
    c!"END:VEVENT",
    c!""]) =
    some [
    (0, c!"Ok("),
    (1, c!"VEvent {"),
    (2, c!"dtstamp: Naive("),
    (3, c!"2017-02-09T19:23:58,"),
    (2, c!"),"),
    (2, c!"uid: Text {"),
    (3, c!"params: {},"),
    (3, c!"text: \"123456\","),
    (2, c!"},"),
    (2, c!"dtstart: DateTime("),
    (3, c!"Local("),
    (4, c!"2010-10-10T12:00:00+02:00,"),
    (3, c!"),"),
    (2, c!"),"),
    (2, c!"class: None,"),
    (2, c!"created: Some("),
    (3, c!"Local("),
    (4, c!"2010-10-10T12:00:00+02:00,"),
    (3, c!"),"),
    (2, c!"),"),
    (2, c!"description: Some("),
    (3, c!"Text {"),
    (4, c!"params: {},"),
    (4, c!"text: \"icalendar should be able to handle non-ascii: €äüöÄÜÖ.\","),
    (3, c!"},"),
    (2, c!"),"),
    (2, c!"geo: None,"),
    (2, c!"last_modified: None,"),
    (2, c!"location: Some("),
    (3, c!"Text {"),
    (4, c!"params: {},"),
    (4, c!"text: \"Tribstrül\","),
    (3, c!"},"),
    (2, c!"),"),
    (2, c!"organizer: None,"),
    (2, c!"priority: None,"),
    (2, c!"sequence: None,"),
    (2, c!"status: None,"),
    (2, c!"summary: Some("),
    (3, c!"Text {"),
    (4, c!"params: {},"),
    (4, c!"text: \"Non-ASCII Test: ÄÖÜ äöü €\","),
    (3, c!"},"),
    (2, c!"),"),
    (2, c!"transp: None,"),
    (2, c!"url: None,"),
    (2, c!"recurid: None,"),
    (2, c!"rrule: None,"),
    (2, c!"dtend: Some("),
    (3, c!"DateTime("),
    (4, c!"Local("),
    (5, c!"2010-10-10T14:00:00+02:00,"),
    (4, c!"),"),
    (3, c!"),"),
    (2, c!"),"),
    (2, c!"duration: None,"),
    (2, c!"attach: [],"),
    (2, c!"attendee: [],"),
    (2, c!"categories: [],"),
    (2, c!"comment: [],"),
    (2, c!"contact: [],"),
    (2, c!"exdate: [],"),
    (2, c!"rstatus: [],"),
    (2, c!"related_to: [],"),
    (2, c!"resources: [],"),
    (2, c!"rdate: [],"),
    (2, c!"alarms: [],"),
    (2, c!"x_prop: {},"),
    (2, c!"iana_prop: {},"),
    (1, c!"},"),
    (0, c!")")] := by decide +kernel

/-- `tests/events/event_with_unicode_organizer.ics` and `tests/events/event_with_unicode_organizer.out`. -/
example : shown VEvent.ofStr (crlf [c!"BEGIN:VEVENT",
    c!"DTSTAMP:20170209T192358",
    c!"UID:5UILHLI7RI6K2IDRAQX7O",
    c!"DTSTART;VALUE=DATE:20170209",
    c!"ORGANIZER;CN=\"Джон Доу\":mailto:john.doe@example.org",
    c!"END:VEVENT",
    c!""]) =
    some [
    (0, c!"Ok("),
    (1, c!"VEvent {"),
    (2, c!"dtstamp: Naive("),
    (3, c!"2017-02-09T19:23:58,"),
    (2, c!"),"),
    (2, c!"uid: Text {"),
    (3, c!"params: {},"),
    (3, c!"text: \"5UILHLI7RI6K2IDRAQX7O\","),
    (2, c!"},"),
    (2, c!"dtstart: Date("),
    (3, c!"2017-02-09,"),
    (2, c!"),"),
    (2, c!"class: None,"),
    (2, c!"created: None,"),
    (2, c!"description: None,"),
    (2, c!"geo: None,"),
    (2, c!"last_modified: None,"),
    (2, c!"location: None,"),
    (2, c!"organizer: Some("),
    (3, c!"Uri {"),
    (4, c!"params: {"),
    (5, c!"\"CN\": \"Джон Доу\","),
    (4, c!"},"),
    (4, c!"uri: \"mailto:john.doe@example.org\","),
    (3, c!"},"),
    (2, c!"),"),
    (2, c!"priority: None,"),
    (2, c!"sequence: None,"),
    (2, c!"status: None,"),
    (2, c!"summary: None,"),
    (2, c!"transp: None,"),
    (2, c!"url: None,"),
    (2, c!"recurid: None,"),
    (2, c!"rrule: None,"),
    (2, c!"dtend: None,"),
    (2, c!"duration: None,"),
    (2, c!"attach: [],"),
    (2, c!"attendee: [],"),
    (2, c!"categories: [],"),
    (2, c!"comment: [],"),
    (2, c!"contact: [],"),
    (2, c!"exdate: [],"),
    (2, c!"rstatus: [],"),
    (2, c!"related_to: [],"),
    (2, c!"resources: [],"),
    (2, c!"rdate: [],"),
    (2, c!"alarms: [],"),
    (2, c!"x_prop: {},"),
    (2, c!"iana_prop: {},"),
    (1, c!"},"),
    (0, c!")")] := by decide +kernel

/-- `tests/events/issue_100_transformed_doctests_into_unittests.ics`, which must be rejected. -/
example : shown VEvent.ofStr (crlf [c!"BEGIN:VEVENT\r",
    c!"DTSTAMP:20170209T192358",
    c!"UID:5UILHLI7RI6K2IDRAQX7O",
    c!"DTSTART;VALUE=DATE:20170209",
    c!"SUMMARY;LANGUAGE=ru:te\r",
    c!"END:VEVENT\r",
    c!""]) =
    none := by decide +kernel

/-- `tests/events/issue_101_icalendar_chokes_on_umlauts_in_organizer.ics` and `tests/events/issue_101_icalendar_chokes_on_umlauts_in_organizer.out`. -/
example : shown VEvent.ofStr (crlf [c!"BEGIN:VEVENT",
    c!"SUMMARY:wichtiger termin 1",
    c!"DTSTART:20130416T100000Z",
    c!"DTEND:20130416T110000Z",
    c!"DTSTAMP:20130416T092616Z",
    c!"UID:20130416112341.10064jz0k4j7uem8@acmenet.de",
    c!"CLASS:PUBLIC",
    c!"CREATED:20130416T092341Z",
    c!"LAST-MODIFIED:20130416T092341Z",
    c!"LOCATION:im büro",
    c!"ORGANIZER;CN=\"acme, ädmin\":mailto:adm-acme@mydomain.de",
    c!"STATUS:CONFIRMED",
    c!"TRANSP:OPAQUE",
    c!"END:VEVENT",
    c!""]) =
    some [
    (0, c!"Ok("),
    (1, c!"VEvent {"),
    (2, c!"dtstamp: Local("),
    (3, c!"2013-04-16T11:26:16+02:00,"),
    (2, c!"),"),
    (2, c!"uid: Text {"),
    (3, c!"params: {},"),
    (3, c!"text: \"20130416112341.10064jz0k4j7uem8@acmenet.de\","),
    (2, c!"},"),
    (2, c!"dtstart: DateTime("),
    (3, c!"Local("),
    (4, c!"2013-04-16T12:00:00+02:00,"),
    (3, c!"),"),
    (2, c!"),"),
    (2, c!"class: Some("),
    (3, c!"Public,"),
    (2, c!"),"),
    (2, c!"created: Some("),
    (3, c!"Local("),
    (4, c!"2013-04-16T11:23:41+02:00,"),
    (3, c!"),"),
    (2, c!"),"),
    (2, c!"description: None,"),
    (2, c!"geo: None,"),
    (2, c!"last_modified: Some("),
    (3, c!"Local("),
    (4, c!"2013-04-16T11:23:41+02:00,"),
    (3, c!"),"),
    (2, c!"),"),
    (2, c!"location: Some("),
    (3, c!"Text {"),
    (4, c!"params: {},"),
    (4, c!"text: \"im büro\","),
    (3, c!"},"),
    (2, c!"),"),
    (2, c!"organizer: Some("),
    (3, c!"Uri {"),
    (4, c!"params: {"),
    (5, c!"\"CN\": \"acme, ädmin\","),
    (4, c!"},"),
    (4, c!"uri: \"mailto:adm-acme@mydomain.de\","),
    (3, c!"},"),
    (2, c!"),"),
    (2, c!"priority: None,"),
    (2, c!"sequence: None,"),
    (2, c!"status: Some("),
    (3, c!"Confirmed,"),
    (2, c!"),"),
    (2, c!"summary: Some("),
    (3, c!"Text {"),
    (4, c!"params: {},"),
    (4, c!"text: \"wichtiger termin 1\","),
    (3, c!"},"),
    (2, c!"),"),
    (2, c!"transp: Some("),
    (3, c!"Opaque,"),
    (2, c!"),"),
    (2, c!"url: None,"),
    (2, c!"recurid: None,"),
    (2, c!"rrule: None,"),
    (2, c!"dtend: Some("),
    (3, c!"DateTime("),
    (4, c!"Local("),
    (5, c!"2013-04-16T13:00:00+02:00,"),
    (4, c!"),"),
    (3, c!"),"),
    (2, c!"),"),
    (2, c!"duration: None,"),
    (2, c!"attach: [],"),
    (2, c!"attendee: [],"),
    (2, c!"categories: [],"),
    (2, c!"comment: [],"),
    (2, c!"contact: [],"),
    (2, c!"exdate: [],"),
    (2, c!"rstatus: [],"),
    (2, c!"related_to: [],"),
    (2, c!"resources: [],"),
    (2, c!"rdate: [],"),
    (2, c!"alarms: [],"),
    (2, c!"x_prop: {},"),
    (2, c!"iana_prop: {},"),
    (1, c!"},"),
    (0, c!")")] := by decide +kernel

/-- `tests/events/issue_104_mark_events_broken.ics`, which must be rejected. -/
example : shown VEvent.ofStr (crlf [c!"BEGIN:VEVENT",
    c!"DTSTART:20140401T000000Z",
    c!"DTEND:20140401T010000Z",
    c!"DTSTAMP:20140401T000000Z",
    c!"UID:5UILHLI7RI6K2IDRAQX7O",
    c!"SUMMARY:Broken Eevnt",
    c!"CLASS:PUBLIC",
    c!"STATUS:CONFIRMED",
    c!"TRANSP:OPAQUE",
    c!"X",
    c!"END:VEVENT",
    c!""]) =
    none := by decide +kernel

/-- `tests/events/issue_112_missing_tzinfo_on_exdate.ics` and `tests/events/issue_112_missing_tzinfo_on_exdate.out`. -/
example : shown VEvent.ofStr (crlf [c!"BEGIN:VEVENT",
    c!"DTSTART;TZID=America/New_York:20130907T120000",
    c!"DTEND;TZID=America/New_York:20130907T170000",
    c!"RRULE:FREQ=WEEKLY;BYDAY=FR,SA;UNTIL=20131025T035959Z",
    c!"EXDATE;TZID=America/New_York:20131012T120000",
    c!"EXDATE;TZID=America/New_York:20131011T120000",
    c!"DTSTAMP:20131021T025552Z",
    c!"UID:ak30b02u7858q1oo6ji9dm4mgg@google.com",
    c!"CREATED:20130903T181453Z",
    c!"DESCRIPTION:The Fieldhouse and Hard Rock Cafe are working with PhillyRising",
    c!"  to provide live entertainment on Friday and Saturday afternoons throughout",
    c!"  the Summer.",
    c!"LAST-MODIFIED:20131015T210927Z",
    c!"LOCATION:12th and Market Streets (weather permitting)",
    c!"SEQUENCE:0",
    c!"STATUS:CONFIRMED",
    c!"SUMMARY:Market East Live!",
    c!"TRANSP:OPAQUE",
    c!"END:VEVENT",
    c!""]) =
    some [
    (0, c!"Ok("),
    (1, c!"VEvent {"),
    (2, c!"dtstamp: Local("),
    (3, c!"2013-10-21T04:55:52+02:00,"),
    (2, c!"),"),
    (2, c!"uid: Text {"),
    (3, c!"params: {},"),
    (3, c!"text: \"ak30b02u7858q1oo6ji9dm4mgg@google.com\","),
    (2, c!"},"),
    (2, c!"dtstart: DateTime("),
    (3, c!"Naive("),
    (4, c!"2013-09-07T12:00:00,"),
    (3, c!"),"),
    (2, c!"),"),
    (2, c!"class: None,"),
    (2, c!"created: Some("),
    (3, c!"Local("),
    (4, c!"2013-09-03T20:14:53+02:00,"),
    (3, c!"),"),
    (2, c!"),"),
    (2, c!"description: Some("),
    (3, c!"Text {"),
    (4, c!"params: {},"),
    (4, c!"text: \"The Fieldhouse and Hard Rock Cafe are working with PhillyRising to provide live entertainment on Friday and Saturday afternoons throughout the Summer.\","),
    (3, c!"},"),
    (2, c!"),"),
    (2, c!"geo: None,"),
    (2, c!"last_modified: Some("),
    (3, c!"Local("),
    (4, c!"2013-10-15T23:09:27+02:00,"),
    (3, c!"),"),
    (2, c!"),"),
    (2, c!"location: Some("),
    (3, c!"Text {"),
    (4, c!"params: {},"),
    (4, c!"text: \"12th and Market Streets (weather permitting)\","),
    (3, c!"},"),
    (2, c!"),"),
    (2, c!"organizer: None,"),
    (2, c!"priority: None,"),
    (2, c!"sequence: Some("),
    (3, c!"0,"),
    (2, c!"),"),
    (2, c!"status: Some("),
    (3, c!"Confirmed,"),
    (2, c!"),"),
    (2, c!"summary: Some("),
    (3, c!"Text {"),
    (4, c!"params: {},"),
    (4, c!"text: \"Market East Live!\","),
    (3, c!"},"),
    (2, c!"),"),
    (2, c!"transp: Some("),
    (3, c!"Opaque,"),
    (2, c!"),"),
    (2, c!"url: None,"),
    (2, c!"recurid: None,"),
    (2, c!"rrule: Some("),
    (3, c!"Recur {"),
    (4, c!"freq: Weekly,"),
    (4, c!"until: Some("),
    (5, c!"DateTime("),
    (6, c!"Local("),
    (7, c!"2013-10-25T05:59:59+02:00,"),
    (6, c!"),"),
    (5, c!"),"),
    (4, c!"),"),
    (4, c!"count: None,"),
    (4, c!"interval: 1,"),
    (4, c!"by_second: [],"),
    (4, c!"by_minute: [],"),
    (4, c!"by_hour: [],"),
    (4, c!"by_day: ["),
    (5, c!"WeekdayNum {"),
    (6, c!"weekday: Friday,"),
    (6, c!"ord: None,"),
    (5, c!"},"),
    (5, c!"WeekdayNum {"),
    (6, c!"weekday: Saturday,"),
    (6, c!"ord: None,"),
    (5, c!"},"),
    (4, c!"],"),
    (4, c!"by_monthday: [],"),
    (4, c!"by_yearday: [],"),
    (4, c!"by_weekno: [],"),
    (4, c!"by_month: [],"),
    (4, c!"by_setpos: [],"),
    (4, c!"wkst: None,"),
    (3, c!"},"),
    (2, c!"),"),
    (2, c!"dtend: Some("),
    (3, c!"DateTime("),
    (4, c!"Naive("),
    (5, c!"2013-09-07T17:00:00,"),
    (4, c!"),"),
    (3, c!"),"),
    (2, c!"),"),
    (2, c!"duration: None,"),
    (2, c!"attach: [],"),
    (2, c!"attendee: [],"),
    (2, c!"categories: [],"),
    (2, c!"comment: [],"),
    (2, c!"contact: [],"),
    (2, c!"exdate: ["),
    (3, c!"DateTime("),
    (4, c!"Naive("),
    (5, c!"2013-10-12T12:00:00,"),
    (4, c!"),"),
    (3, c!"),"),
    (3, c!"DateTime("),
    (4, c!"Naive("),
    (5, c!"2013-10-11T12:00:00,"),
    (4, c!"),"),
    (3, c!"),"),
    (2, c!"],"),
    (2, c!"rstatus: [],"),
    (2, c!"related_to: [],"),
    (2, c!"resources: [],"),
    (2, c!"rdate: [],"),
    (2, c!"alarms: [],"),
    (2, c!"x_prop: {},"),
    (2, c!"iana_prop: {},"),
    (1, c!"},"),
    (0, c!")")] := by decide +kernel

/-- `tests/events/issue_156_RDATE_with_PERIOD.ics` and `tests/events/issue_156_RDATE_with_PERIOD.out`. -/
example : shown VEvent.ofStr (crlf [c!"BEGIN:VEVENT",
    c!"DTSTAMP:20170209T192358",
    c!"SUMMARY:RDATE period",
    c!"DTSTART:19961230T020000Z",
    c!"DTEND:19961230T060000Z",
    c!"UID:rdate_period",
    c!"RDATE;VALUE=PERIOD:19970101T180000Z/19970102T070000Z",
    c!"END:VEVENT",
    c!""]) =
    some [
    (0, c!"Ok("),
    (1, c!"VEvent {"),
    (2, c!"dtstamp: Naive("),
    (3, c!"2017-02-09T19:23:58,"),
    (2, c!"),"),
    (2, c!"uid: Text {"),
    (3, c!"params: {},"),
    (3, c!"text: \"rdate_period\","),
    (2, c!"},"),
    (2, c!"dtstart: DateTime("),
    (3, c!"Local("),
    (4, c!"1996-12-30T03:00:00+01:00,"),
    (3, c!"),"),
    (2, c!"),"),
    (2, c!"class: None,"),
    (2, c!"created: None,"),
    (2, c!"description: None,"),
    (2, c!"geo: None,"),
    (2, c!"last_modified: None,"),
    (2, c!"location: None,"),
    (2, c!"organizer: None,"),
    (2, c!"priority: None,"),
    (2, c!"sequence: None,"),
    (2, c!"status: None,"),
    (2, c!"summary: Some("),
    (3, c!"Text {"),
    (4, c!"params: {},"),
    (4, c!"text: \"RDATE period\","),
    (3, c!"},"),
    (2, c!"),"),
    (2, c!"transp: None,"),
    (2, c!"url: None,"),
    (2, c!"recurid: None,"),
    (2, c!"rrule: None,"),
    (2, c!"dtend: Some("),
    (3, c!"DateTime("),
    (4, c!"Local("),
    (5, c!"1996-12-30T07:00:00+01:00,"),
    (4, c!"),"),
    (3, c!"),"),
    (2, c!"),"),
    (2, c!"duration: None,"),
    (2, c!"attach: [],"),
    (2, c!"attendee: [],"),
    (2, c!"categories: [],"),
    (2, c!"comment: [],"),
    (2, c!"contact: [],"),
    (2, c!"exdate: [],"),
    (2, c!"rstatus: [],"),
    (2, c!"related_to: [],"),
    (2, c!"resources: [],"),
    (2, c!"rdate: ["),
    (3, c!"Period("),
    (4, c!"["),
    (5, c!"StartEnd("),
    (6, c!"StartEnd {"),
    (7, c!"start: Local("),
    (8, c!"1997-01-01T19:00:00+01:00,"),
    (7, c!"),"),
    (7, c!"end: Local("),
    (8, c!"1997-01-02T08:00:00+01:00,"),
    (7, c!"),"),
    (6, c!"},"),
    (5, c!"),"),
    (4, c!"],"),
    (3, c!"),"),
    (2, c!"],"),
    (2, c!"alarms: [],"),
    (2, c!"x_prop: {},"),
    (2, c!"iana_prop: {},"),
    (1, c!"},"),
    (0, c!")")] := by decide +kernel

/-- `tests/events/issue_156_RDATE_with_PERIOD_list.ics` and `tests/events/issue_156_RDATE_with_PERIOD_list.out`. -/
example : shown VEvent.ofStr (crlf [c!"BEGIN:VEVENT",
    c!"DTSTAMP:20170209T192358",
    c!"SUMMARY:RDATE period",
    c!"DTSTART:19961230T020000Z",
    c!"DTEND:19961230T060000Z",
    c!"UID:rdate_period",
    c!"RDATE;VALUE=PERIOD:19970101T180000Z/19970102T070000Z,19970109T180000Z/PT5H",
    c!" 30M",
    c!"END:VEVENT",
    c!""]) =
    some [
    (0, c!"Ok("),
    (1, c!"VEvent {"),
    (2, c!"dtstamp: Naive("),
    (3, c!"2017-02-09T19:23:58,"),
    (2, c!"),"),
    (2, c!"uid: Text {"),
    (3, c!"params: {},"),
    (3, c!"text: \"rdate_period\","),
    (2, c!"},"),
    (2, c!"dtstart: DateTime("),
    (3, c!"Local("),
    (4, c!"1996-12-30T03:00:00+01:00,"),
    (3, c!"),"),
    (2, c!"),"),
    (2, c!"class: None,"),
    (2, c!"created: None,"),
    (2, c!"description: None,"),
    (2, c!"geo: None,"),
    (2, c!"last_modified: None,"),
    (2, c!"location: None,"),
    (2, c!"organizer: None,"),
    (2, c!"priority: None,"),
    (2, c!"sequence: None,"),
    (2, c!"status: None,"),
    (2, c!"summary: Some("),
    (3, c!"Text {"),
    (4, c!"params: {},"),
    (4, c!"text: \"RDATE period\","),
    (3, c!"},"),
    (2, c!"),"),
    (2, c!"transp: None,"),
    (2, c!"url: None,"),
    (2, c!"recurid: None,"),
    (2, c!"rrule: None,"),
    (2, c!"dtend: Some("),
    (3, c!"DateTime("),
    (4, c!"Local("),
    (5, c!"1996-12-30T07:00:00+01:00,"),
    (4, c!"),"),
    (3, c!"),"),
    (2, c!"),"),
    (2, c!"duration: None,"),
    (2, c!"attach: [],"),
    (2, c!"attendee: [],"),
    (2, c!"categories: [],"),
    (2, c!"comment: [],"),
    (2, c!"contact: [],"),
    (2, c!"exdate: [],"),
    (2, c!"rstatus: [],"),
    (2, c!"related_to: [],"),
    (2, c!"resources: [],"),
    (2, c!"rdate: ["),
    (3, c!"Period("),
    (4, c!"["),
    (5, c!"StartEnd("),
    (6, c!"StartEnd {"),
    (7, c!"start: Local("),
    (8, c!"1997-01-01T19:00:00+01:00,"),
    (7, c!"),"),
    (7, c!"end: Local("),
    (8, c!"1997-01-02T08:00:00+01:00,"),
    (7, c!"),"),
    (6, c!"},"),
    (5, c!"),"),
    (5, c!"StartDur("),
    (6, c!"StartDur {"),
    (7, c!"start: Local("),
    (8, c!"1997-01-09T19:00:00+01:00,"),
    (7, c!"),"),
    (7, c!"duration: TimeDelta {"),
    (8, c!"secs: 19800,"),
    (8, c!"nanos: 0,"),
    (7, c!"},"),
    (6, c!"},"),
    (5, c!"),"),
    (4, c!"],"),
    (3, c!"),"),
    (2, c!"],"),
    (2, c!"alarms: [],"),
    (2, c!"x_prop: {},"),
    (2, c!"iana_prop: {},"),
    (1, c!"},"),
    (0, c!")")] := by decide +kernel

/-- `tests/events/issue_157_removes_trailing_semicolon.ics` and `tests/events/issue_157_removes_trailing_semicolon.out`. -/
example : shown VEvent.ofStr (crlf [c!"BEGIN:VEVENT",
    c!"DTSTAMP:20170209T192358",
    c!"UID:5UILHLI7RI6K2IDRAQX7O",
    c!"DTSTART:20150325T101010",
    c!"RRULE:FREQ=YEARLY;BYMONTH=11;BYDAY=1SU;",
    c!"END:VEVENT",
    c!""]) =
    some [
    (0, c!"Ok("),
    (1, c!"VEvent {"),
    (2, c!"dtstamp: Naive("),
    (3, c!"2017-02-09T19:23:58,"),
    (2, c!"),"),
    (2, c!"uid: Text {"),
    (3, c!"params: {},"),
    (3, c!"text: \"5UILHLI7RI6K2IDRAQX7O\","),
    (2, c!"},"),
    (2, c!"dtstart: DateTime("),
    (3, c!"Naive("),
    (4, c!"2015-03-25T10:10:10,"),
    (3, c!"),"),
    (2, c!"),"),
    (2, c!"class: None,"),
    (2, c!"created: None,"),
    (2, c!"description: None,"),
    (2, c!"geo: None,"),
    (2, c!"last_modified: None,"),
    (2, c!"location: None,"),
    (2, c!"organizer: None,"),
    (2, c!"priority: None,"),
    (2, c!"sequence: None,"),
    (2, c!"status: None,"),
    (2, c!"summary: None,"),
    (2, c!"transp: None,"),
    (2, c!"url: None,"),
    (2, c!"recurid: None,"),
    (2, c!"rrule: Some("),
    (3, c!"Recur {"),
    (4, c!"freq: Yearly,"),
    (4, c!"until: None,"),
    (4, c!"count: None,"),
    (4, c!"interval: 1,"),
    (4, c!"by_second: [],"),
    (4, c!"by_minute: [],"),
    (4, c!"by_hour: [],"),
    (4, c!"by_day: ["),
    (5, c!"WeekdayNum {"),
    (6, c!"weekday: Sunday,"),
    (6, c!"ord: Some("),
    (7, c!"1,"),
    (6, c!"),"),
    (5, c!"},"),
    (4, c!"],"),
    (4, c!"by_monthday: [],"),
    (4, c!"by_yearday: [],"),
    (4, c!"by_weekno: [],"),
    (4, c!"by_month: ["),
    (5, c!"11,"),
    (4, c!"],"),
    (4, c!"by_setpos: [],"),
    (4, c!"wkst: None,"),
    (3, c!"},"),
    (2, c!"),"),
    (2, c!"dtend: None,"),
    (2, c!"duration: None,"),
    (2, c!"attach: [],"),
    (2, c!"attendee: [],"),
    (2, c!"categories: [],"),
    (2, c!"comment: [],"),
    (2, c!"contact: [],"),
    (2, c!"exdate: [],"),
    (2, c!"rstatus: [],"),
    (2, c!"related_to: [],"),
    (2, c!"resources: [],"),
    (2, c!"rdate: [],"),
    (2, c!"alarms: [],"),
    (2, c!"x_prop: {},"),
    (2, c!"iana_prop: {},"),
    (1, c!"},"),
    (0, c!")")] := by decide +kernel

/-- `tests/events/issue_184_broken_representation_of_period.ics` and `tests/events/issue_184_broken_representation_of_period.out`. -/
example : shown VEvent.ofStr (crlf [c!"BEGIN:VEVENT",
    c!"DTSTART:20150219T133000",
    c!"DTSTAMP:20150219T133000",
    c!"UID:1234567",
    c!"RDATE;VALUE=PERIOD:20150219T133000/PT10H",
    c!"END:VEVENT",
    c!""]) =
    some [
    (0, c!"Ok("),
    (1, c!"VEvent {"),
    (2, c!"dtstamp: Naive("),
    (3, c!"2015-02-19T13:30:00,"),
    (2, c!"),"),
    (2, c!"uid: Text {"),
    (3, c!"params: {},"),
    (3, c!"text: \"1234567\","),
    (2, c!"},"),
    (2, c!"dtstart: DateTime("),
    (3, c!"Naive("),
    (4, c!"2015-02-19T13:30:00,"),
    (3, c!"),"),
    (2, c!"),"),
    (2, c!"class: None,"),
    (2, c!"created: None,"),
    (2, c!"description: None,"),
    (2, c!"geo: None,"),
    (2, c!"last_modified: None,"),
    (2, c!"location: None,"),
    (2, c!"organizer: None,"),
    (2, c!"priority: None,"),
    (2, c!"sequence: None,"),
    (2, c!"status: None,"),
    (2, c!"summary: None,"),
    (2, c!"transp: None,"),
    (2, c!"url: None,"),
    (2, c!"recurid: None,"),
    (2, c!"rrule: None,"),
    (2, c!"dtend: None,"),
    (2, c!"duration: None,"),
    (2, c!"attach: [],"),
    (2, c!"attendee: [],"),
    (2, c!"categories: [],"),
    (2, c!"comment: [],"),
    (2, c!"contact: [],"),
    (2, c!"exdate: [],"),
    (2, c!"rstatus: [],"),
    (2, c!"related_to: [],"),
    (2, c!"resources: [],"),
    (2, c!"rdate: ["),
    (3, c!"Period("),
    (4, c!"["),
    (5, c!"StartDur("),
    (6, c!"StartDur {"),
    (7, c!"start: Naive("),
    (8, c!"2015-02-19T13:30:00,"),
    (7, c!"),"),
    (7, c!"duration: TimeDelta {"),
    (8, c!"secs: 36000,"),
    (8, c!"nanos: 0,"),
    (7, c!"},"),
    (6, c!"},"),
    (5, c!"),"),
    (4, c!"],"),
    (3, c!"),"),
    (2, c!"],"),
    (2, c!"alarms: [],"),
    (2, c!"x_prop: {},"),
    (2, c!"iana_prop: {},"),
    (1, c!"},"),
    (0, c!")")] := by decide +kernel

/-- `tests/events/issue_464_invalid_rdate.ics`, which must be rejected. -/
example : shown VEvent.ofStr (crlf [c!"BEGIN:VEVENT",
    c!"SUMMARY:RDATE period",
    c!"DTSTART:19961230T020000Z",
    c!"DTSTAMP:19961230T020000Z",
    c!"DTEND:19961230T060000Z",
    c!"UID:rdate_period",
    c!"RDATE;VALUE=PERIOD:19970101T180000Z/19970102T070000Z,199709T180000Z/PT5H30M",
    c!"END:VEVENT",
    c!""]) =
    none := by decide +kernel

/-- `tests/events/issue_53_description_parsed_properly.ics` and `tests/events/issue_53_description_parsed_properly.out`. -/
example : shown VEvent.ofStr (crlf [c!"BEGIN:VEVENT",
    c!"DTSTAMP:20120605T003759Z",
    c!"DTSTART;TZID=America/New_York:20120712T183000",
    c!"DTEND;TZID=America/New_York:20120712T213000",
    c!"STATUS:CONFIRMED",
    c!"SUMMARY:DevOps DC Meetup",
    c!"DESCRIPTION:DevOpsDC\\nThursday\\, July 12 at 6:30 PM\\n\\nThis will be a joi",
    c!" nt meetup / hack night with the DC jQuery Users Group.   The idea behind",
    c!"  the hack night:  Small teams consisting of at least 1 member...\\n\\nDeta",
    c!" ils: http://www.meetup.com/DevOpsDC/events/47635522/",
    c!"CLASS:PUBLIC",
    c!"CREATED:20120111T120339Z",
    c!"GEO:38.90;-77.01",
    c!"LOCATION:Fathom Creative\\, Inc. (1333 14th Street Northwest\\, Washington",
    c!" D.C.\\, DC 20005)",
    c!"URL:http://www.meetup.com/DevOpsDC/events/47635522/",
    c!"LAST-MODIFIED:20120522T174406Z",
    c!"UID:event_qtkfrcyqkbnb@meetup.com",
    c!"END:VEVENT",
    c!""]) =
    some [
    (0, c!"Ok("),
    (1, c!"VEvent {"),
    (2, c!"dtstamp: Local("),
    (3, c!"2012-06-05T02:37:59+02:00,"),
    (2, c!"),"),
    (2, c!"uid: Text {"),
    (3, c!"params: {},"),
    (3, c!"text: \"event_qtkfrcyqkbnb@meetup.com\","),
    (2, c!"},"),
    (2, c!"dtstart: DateTime("),
    (3, c!"Naive("),
    (4, c!"2012-07-12T18:30:00,"),
    (3, c!"),"),
    (2, c!"),"),
    (2, c!"class: Some("),
    (3, c!"Public,"),
    (2, c!"),"),
    (2, c!"created: Some("),
    (3, c!"Local("),
    (4, c!"2012-01-11T13:03:39+01:00,"),
    (3, c!"),"),
    (2, c!"),"),
    (2, c!"description: Some("),
    (3, c!"Text {"),
    (4, c!"params: {},"),
    (4, c!"text: \"DevOpsDC\\\\nThursday\\\\, July 12 at 6:30 PM\\\\n\\\\nThis will be a joint meetup / hack night with the DC jQuery Users Group.   The idea behind the hack night:  Small teams consisting of at least 1 member...\\\\n\\\\nDetails: http://www.meetup.com/DevOpsDC/events/47635522/\","),
    (3, c!"},"),
    (2, c!"),"),
    (2, c!"geo: Some("),
    (3, c!"Geo {"),
    (4, c!"lat: 38.9,"),
    (4, c!"lon: -77.01,"),
    (3, c!"},"),
    (2, c!"),"),
    (2, c!"last_modified: Some("),
    (3, c!"Local("),
    (4, c!"2012-05-22T19:44:06+02:00,"),
    (3, c!"),"),
    (2, c!"),"),
    (2, c!"location: Some("),
    (3, c!"Text {"),
    (4, c!"params: {},"),
    (4, c!"text: \"Fathom Creative\\\\, Inc. (1333 14th Street Northwest\\\\, WashingtonD.C.\\\\, DC 20005)\","),
    (3, c!"},"),
    (2, c!"),"),
    (2, c!"organizer: None,"),
    (2, c!"priority: None,"),
    (2, c!"sequence: None,"),
    (2, c!"status: Some("),
    (3, c!"Confirmed,"),
    (2, c!"),"),
    (2, c!"summary: Some("),
    (3, c!"Text {"),
    (4, c!"params: {},"),
    (4, c!"text: \"DevOps DC Meetup\","),
    (3, c!"},"),
    (2, c!"),"),
    (2, c!"transp: None,"),
    (2, c!"url: Some("),
    (3, c!"Uri {"),
    (4, c!"params: {},"),
    (4, c!"uri: \"http://www.meetup.com/DevOpsDC/events/47635522/\","),
    (3, c!"},"),
    (2, c!"),"),
    (2, c!"recurid: None,"),
    (2, c!"rrule: None,"),
    (2, c!"dtend: Some("),
    (3, c!"DateTime("),
    (4, c!"Naive("),
    (5, c!"2012-07-12T21:30:00,"),
    (4, c!"),"),
    (3, c!"),"),
    (2, c!"),"),
    (2, c!"duration: None,"),
    (2, c!"attach: [],"),
    (2, c!"attendee: [],"),
    (2, c!"categories: [],"),
    (2, c!"comment: [],"),
    (2, c!"contact: [],"),
    (2, c!"exdate: [],"),
    (2, c!"rstatus: [],"),
    (2, c!"related_to: [],"),
    (2, c!"resources: [],"),
    (2, c!"rdate: [],"),
    (2, c!"alarms: [],"),
    (2, c!"x_prop: {},"),
    (2, c!"iana_prop: {},"),
    (1, c!"},"),
    (0, c!")")] := by decide +kernel

/-- `tests/events/issue_64_event_with_ascii_summary.ics` and `tests/events/issue_64_event_with_ascii_summary.out`. -/
example : shown VEvent.ofStr (crlf [c!"BEGIN:VEVENT",
    c!"DTSTAMP:20170209T192358",
    c!"UID:5UILHLI7RI6K2IDRAQX7O",
    c!"DTSTART;VALUE=DATE:20170209",
    c!"SUMMARY:abcdef",
    c!"END:VEVENT",
    c!""]) =
    some [
    (0, c!"Ok("),
    (1, c!"VEvent {"),
    (2, c!"dtstamp: Naive("),
    (3, c!"2017-02-09T19:23:58,"),
    (2, c!"),"),
    (2, c!"uid: Text {"),
    (3, c!"params: {},"),
    (3, c!"text: \"5UILHLI7RI6K2IDRAQX7O\","),
    (2, c!"},"),
    (2, c!"dtstart: Date("),
    (3, c!"2017-02-09,"),
    (2, c!"),"),
    (2, c!"class: None,"),
    (2, c!"created: None,"),
    (2, c!"description: None,"),
    (2, c!"geo: None,"),
    (2, c!"last_modified: None,"),
    (2, c!"location: None,"),
    (2, c!"organizer: None,"),
    (2, c!"priority: None,"),
    (2, c!"sequence: None,"),
    (2, c!"status: None,"),
    (2, c!"summary: Some("),
    (3, c!"Text {"),
    (4, c!"params: {},"),
    (4, c!"text: \"abcdef\","),
    (3, c!"},"),
    (2, c!"),"),
    (2, c!"transp: None,"),
    (2, c!"url: None,"),
    (2, c!"recurid: None,"),
    (2, c!"rrule: None,"),
    (2, c!"dtend: None,"),
    (2, c!"duration: None,"),
    (2, c!"attach: [],"),
    (2, c!"attendee: [],"),
    (2, c!"categories: [],"),
    (2, c!"comment: [],"),
    (2, c!"contact: [],"),
    (2, c!"exdate: [],"),
    (2, c!"rstatus: [],"),
    (2, c!"related_to: [],"),
    (2, c!"resources: [],"),
    (2, c!"rdate: [],"),
    (2, c!"alarms: [],"),
    (2, c!"x_prop: {},"),
    (2, c!"iana_prop: {},"),
    (1, c!"},"),
    (0, c!")")] := by decide +kernel

/-- `tests/events/issue_64_event_with_non_ascii_summary.ics` and `tests/events/issue_64_event_with_non_ascii_summary.out`. -/
example : shown VEvent.ofStr (crlf [c!"BEGIN:VEVENT",
    c!"DTSTAMP:20170209T192358",
    c!"UID:5UILHLI7RI6K2IDRAQX7O",
    c!"DTSTART;VALUE=DATE:20170209",
    c!"SUMMARY:åäö",
    c!"END:VEVENT",
    c!""]) =
    some [
    (0, c!"Ok("),
    (1, c!"VEvent {"),
    (2, c!"dtstamp: Naive("),
    (3, c!"2017-02-09T19:23:58,"),
    (2, c!"),"),
    (2, c!"uid: Text {"),
    (3, c!"params: {},"),
    (3, c!"text: \"5UILHLI7RI6K2IDRAQX7O\","),
    (2, c!"},"),
    (2, c!"dtstart: Date("),
    (3, c!"2017-02-09,"),
    (2, c!"),"),
    (2, c!"class: None,"),
    (2, c!"created: None,"),
    (2, c!"description: None,"),
    (2, c!"geo: None,"),
    (2, c!"last_modified: None,"),
    (2, c!"location: None,"),
    (2, c!"organizer: None,"),
    (2, c!"priority: None,"),
    (2, c!"sequence: None,"),
    (2, c!"status: None,"),
    (2, c!"summary: Some("),
    (3, c!"Text {"),
    (4, c!"params: {},"),
    (4, c!"text: \"åäö\","),
    (3, c!"},"),
    (2, c!"),"),
    (2, c!"transp: None,"),
    (2, c!"url: None,"),
    (2, c!"recurid: None,"),
    (2, c!"rrule: None,"),
    (2, c!"dtend: None,"),
    (2, c!"duration: None,"),
    (2, c!"attach: [],"),
    (2, c!"attendee: [],"),
    (2, c!"categories: [],"),
    (2, c!"comment: [],"),
    (2, c!"contact: [],"),
    (2, c!"exdate: [],"),
    (2, c!"rstatus: [],"),
    (2, c!"related_to: [],"),
    (2, c!"resources: [],"),
    (2, c!"rdate: [],"),
    (2, c!"alarms: [],"),
    (2, c!"x_prop: {},"),
    (2, c!"iana_prop: {},"),
    (1, c!"},"),
    (0, c!")")] := by decide +kernel

/-- `tests/events/issue_70_rrule_causes_attribute_error.ics` and `tests/events/issue_70_rrule_causes_attribute_error.out`. -/
example : shown VEvent.ofStr (lf [c!"BEGIN:VEVENT\r",
    c!"CREATED:20081114T072804Z\r",
    c!"UID:D449CA84-00A3-4E55-83E1-34B58268853B\r",
    c!"DTEND:20070220T180000\r",
    c!"RRULE:FREQ=WEEKLY;INTERVAL=2;UNTIL=20070619T225959\r",
    c!"TRANSP:OPAQUE\r",
    c!"SUMMARY:Esb mellon phone conf\r",
    c!"DTSTART:20070220T170000\r",
    c!"DTSTAMP:20070221T095412Z\r",
    c!"SEQUENCE:0\r",
    c!"END:VEVENT\r",
    c!"",
    c!""]) =
    some [
    (0, c!"Ok("),
    (1, c!"VEvent {"),
    (2, c!"dtstamp: Local("),
    (3, c!"2007-02-21T10:54:12+01:00,"),
    (2, c!"),"),
    (2, c!"uid: Text {"),
    (3, c!"params: {},"),
    (3, c!"text: \"D449CA84-00A3-4E55-83E1-34B58268853B\","),
    (2, c!"},"),
    (2, c!"dtstart: DateTime("),
    (3, c!"Naive("),
    (4, c!"2007-02-20T17:00:00,"),
    (3, c!"),"),
    (2, c!"),"),
    (2, c!"class: None,"),
    (2, c!"created: Some("),
    (3, c!"Local("),
    (4, c!"2008-11-14T08:28:04+01:00,"),
    (3, c!"),"),
    (2, c!"),"),
    (2, c!"description: None,"),
    (2, c!"geo: None,"),
    (2, c!"last_modified: None,"),
    (2, c!"location: None,"),
    (2, c!"organizer: None,"),
    (2, c!"priority: None,"),
    (2, c!"sequence: Some("),
    (3, c!"0,"),
    (2, c!"),"),
    (2, c!"status: None,"),
    (2, c!"summary: Some("),
    (3, c!"Text {"),
    (4, c!"params: {},"),
    (4, c!"text: \"Esb mellon phone conf\","),
    (3, c!"},"),
    (2, c!"),"),
    (2, c!"transp: Some("),
    (3, c!"Opaque,"),
    (2, c!"),"),
    (2, c!"url: None,"),
    (2, c!"recurid: None,"),
    (2, c!"rrule: Some("),
    (3, c!"Recur {"),
    (4, c!"freq: Weekly,"),
    (4, c!"until: Some("),
    (5, c!"DateTime("),
    (6, c!"Naive("),
    (7, c!"2007-06-19T22:59:59,"),
    (6, c!"),"),
    (5, c!"),"),
    (4, c!"),"),
    (4, c!"count: None,"),
    (4, c!"interval: 2,"),
    (4, c!"by_second: [],"),
    (4, c!"by_minute: [],"),
    (4, c!"by_hour: [],"),
    (4, c!"by_day: [],"),
    (4, c!"by_monthday: [],"),
    (4, c!"by_yearday: [],"),
    (4, c!"by_weekno: [],"),
    (4, c!"by_month: [],"),
    (4, c!"by_setpos: [],"),
    (4, c!"wkst: None,"),
    (3, c!"},"),
    (2, c!"),"),
    (2, c!"dtend: Some("),
    (3, c!"DateTime("),
    (4, c!"Naive("),
    (5, c!"2007-02-20T18:00:00,"),
    (4, c!"),"),
    (3, c!"),"),
    (2, c!"),"),
    (2, c!"duration: None,"),
    (2, c!"attach: [],"),
    (2, c!"attendee: [],"),
    (2, c!"categories: [],"),
    (2, c!"comment: [],"),
    (2, c!"contact: [],"),
    (2, c!"exdate: [],"),
    (2, c!"rstatus: [],"),
    (2, c!"related_to: [],"),
    (2, c!"resources: [],"),
    (2, c!"rdate: [],"),
    (2, c!"alarms: [],"),
    (2, c!"x_prop: {},"),
    (2, c!"iana_prop: {},"),
    (1, c!"},"),
    (0, c!")")] := by decide +kernel

/-- `tests/events/issue_82_expected_output.ics` and `tests/events/issue_82_expected_output.out`. -/
example : shown VEvent.ofStr (crlf [c!"BEGIN:VEVENT",
    c!"DTSTAMP:20170209T192358",
    c!"UID:5UILHLI7RI6K2IDRAQX7O",
    c!"DTSTART;VALUE=DATE:20170209",
    c!"ATTACH;ENCODING=BASE64;FMTTYPE=text/plain;VALUE=BINARY:dGV4dA==",
    c!"END:VEVENT",
    c!""]) =
    some [
    (0, c!"Ok("),
    (1, c!"VEvent {"),
    (2, c!"dtstamp: Naive("),
    (3, c!"2017-02-09T19:23:58,"),
    (2, c!"),"),
    (2, c!"uid: Text {"),
    (3, c!"params: {},"),
    (3, c!"text: \"5UILHLI7RI6K2IDRAQX7O\","),
    (2, c!"},"),
    (2, c!"dtstart: Date("),
    (3, c!"2017-02-09,"),
    (2, c!"),"),
    (2, c!"class: None,"),
    (2, c!"created: None,"),
    (2, c!"description: None,"),
    (2, c!"geo: None,"),
    (2, c!"last_modified: None,"),
    (2, c!"location: None,"),
    (2, c!"organizer: None,"),
    (2, c!"priority: None,"),
    (2, c!"sequence: None,"),
    (2, c!"status: None,"),
    (2, c!"summary: None,"),
    (2, c!"transp: None,"),
    (2, c!"url: None,"),
    (2, c!"recurid: None,"),
    (2, c!"rrule: None,"),
    (2, c!"dtend: None,"),
    (2, c!"duration: None,"),
    (2, c!"attach: ["),
    (3, c!"Text {"),
    (4, c!"params: {"),
    (5, c!"\"ENCODING\": \"BASE64\","),
    (5, c!"\"FMTTYPE\": \"text/plain\","),
    (5, c!"\"VALUE\": \"BINARY\","),
    (4, c!"},"),
    (4, c!"text: \"dGV4dA==\","),
    (3, c!"},"),
    (2, c!"],"),
    (2, c!"attendee: [],"),
    (2, c!"categories: [],"),
    (2, c!"comment: [],"),
    (2, c!"contact: [],"),
    (2, c!"exdate: [],"),
    (2, c!"rstatus: [],"),
    (2, c!"related_to: [],"),
    (2, c!"resources: [],"),
    (2, c!"rdate: [],"),
    (2, c!"alarms: [],"),
    (2, c!"x_prop: {},"),
    (2, c!"iana_prop: {},"),
    (1, c!"},"),
    (0, c!")")] := by decide +kernel

end Ikal.Conformance
