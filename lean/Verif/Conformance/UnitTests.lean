import Verif.Conformance.Debug
import Verif.Macros
import Verif.Iter

/-!
# The unit tests of the repository

The assertions of the `#[test]` functions in `src/`, replayed on the model and evaluated by the kernel.  The tests of
`src/iter.rs` that read the clock (`at`, `after`, `between`) are replayed with `now` = 2026-03-10T09:30:00 in the zone of
the recorded outputs.
-/

set_option maxRecDepth 100000

namespace Ikal.Conformance

open Nom

attribute [local instance] cet cetFloat

/-- The text of what a macro built. -/
def written {α : Type} [Ser α] : Option (Res α) → Option (Res Str)
  | some r => some (r.bind ical)
  | none => none

/-- The call compiles and the component is built. -/
def expands {α : Type} : Option (Res α) → Bool
  | some (.ok _) => true
  | _ => false

/-- The local variables of the tests of `src/components/valarm.rs:166-232`: `attach` and `duration`. -/
def vars : Env := fun n =>
  if n = c!"attach" then some ⟨.text, ⟨[(c!"FMTTYPE", c!"audio/basic")], c!"ftp://example.com/pub/sounds/bell-01.aud"⟩⟩
  else if n = c!"duration" then some ⟨.option .duration, some TimeDelta.zero⟩
  else none

/-! ## `src/components/*.rs` -/

/-- `src/components/valarm.rs:168`, test `ser`. -/
example : written (valarmMacro vars .audio ([.ident c!"trigger", .colon, .expr (.str c!"19970317T133000Z"), .comma, .ident c!"duration", .colon,
      .expr (.str c!"P15DT"), .comma, .ident c!"repeat", .colon, .expr (.int 4), .comma, .ident c!"attach",
      .colon, .bracket [.ident c!"attach"], .comma])) =
    some (.ok (crlf [c!"BEGIN:VALARM",
      c!"ACTION:AUDIO",
      c!"TRIGGER;VALUE=DATE-TIME:19970317T133000Z",
      c!"DURATION:PT1296000S",
      c!"REPEAT:4",
      c!"ATTACH;FMTTYPE=audio/basic:ftp://example.com/pub/sounds/bell-01.aud",
      c!"END:VALARM",
      c!""])) := by decide +kernel

/-- `src/components/valarm.rs:200`, test `macros`. -/
example : expands (valarmMacro vars .audio ([.ident c!"trigger", .colon, .expr (.str c!"19970317T133000Z"), .comma, .ident c!"duration", .comma,
      .ident c!"repeat", .colon, .expr (.int 4), .comma, .ident c!"attach", .colon,
      .bracket [.expr (.str c!"ftp://example.com/pub/sounds/bell-01.aud")], .comma])) = true := by decide +kernel

/-- `src/components/valarm.rs:200`, test `macros`. -/
example : expands (valarmMacro vars .display ([.ident c!"trigger", .colon, .expr (.str c!"-PT30M"), .comma, .ident c!"description", .colon,
      .expr (.str c!"Breakfast meeting with executive team at 8:30 AM EST."), .ident c!"duration", .comma,
      .ident c!"repeat", .colon, .expr (.int 2), .comma])) = true := by decide +kernel

/-- `src/components/valarm.rs:200`, test `macros`. -/
example : expands (valarmMacro vars .email ([.ident c!"trigger", .colon, .expr (.str c!"-P2D"), .comma, .ident c!"description", .colon,
      .expr (.str c!"A draft agenda needs to be sent out to the attendees\nto the weekly managers meeting (MGR-LIST). Attached is a\npointer the document template for the agenda file."),
      .comma, .ident c!"summary", .colon,
      .expr (.str c!"*** REMINDER: SEND AGENDA FOR WEEKLY STAFF MEETING ***"), .comma, .ident c!"attendee",
      .colon, .bracket [.expr (.str c!"mailto:john_doe@example.com")], .comma, .ident c!"duration", .comma,
      .ident c!"repeat", .colon, .expr (.int 2), .comma, .ident c!"attach", .colon,
      .bracket [.expr (.str c!"http://example.com/templates/agenda.doc")], .comma])) = true := by decide +kernel

/-- `src/components/vevent.rs:67`, test `ser`. -/
example : written (componentMacro vars .event ([.ident c!"created", .colon, .expr (.str c!"20170209T192358"), .comma, .ident c!"dtstamp", .colon,
      .expr (.str c!"20170209T192358"), .comma, .ident c!"last_modified", .colon,
      .expr (.str c!"20170209T192358"), .comma, .ident c!"uid", .colon,
      .expr (.str c!"5UILHLI7RI6K2IDRAQX7O"), .comma, .ident c!"summary", .colon, .expr (.str c!"Vers"),
      .comma, .ident c!"class", .colon, .ident c!"Public", .comma, .ident c!"status", .colon,
      .ident c!"Confirmed", .comma, .ident c!"dtstart", .colon, .expr (.str c!"20170209"), .comma,
      .ident c!"dtend", .colon, .expr (.str c!"20170210"), .comma])) =
    some (.ok (crlf [c!"BEGIN:VEVENT",
      c!"DTSTAMP:20170209T192358",
      c!"UID:5UILHLI7RI6K2IDRAQX7O",
      c!"DTSTART;VALUE=DATE:20170209",
      c!"CLASS:PUBLIC",
      c!"CREATED:20170209T192358",
      c!"LAST-MODIFIED:20170209T192358",
      c!"STATUS:CONFIRMED",
      c!"SUMMARY:Vers",
      c!"DTEND;VALUE=DATE:20170210",
      c!"END:VEVENT",
      c!""])) := by decide +kernel

/-- `src/components/vevent.rs:102`, test `macros`. -/
example : expands (componentMacro vars .event ([.ident c!"dtstamp", .colon, .expr (.str c!"20170209T192358"), .comma, .ident c!"uid", .colon,
      .expr (.str c!"5UILHLI7RI6K2IDRAQX7O"), .comma, .ident c!"dtstart", .colon, .expr (.str c!"20170209"),
      .comma, .ident c!"class", .colon, .ident c!"Public", .comma, .ident c!"created", .colon,
      .expr (.str c!"20170209T192358"), .comma, .ident c!"description", .colon, .expr (.str c!""), .comma,
      .ident c!"geo", .colon, .brace [.ident c!"lat", .colon, .expr (.float c!"37.386013"), .comma,
      .ident c!"lon", .colon, .expr (.negFloat c!"-122.08293"), .comma], .comma, .ident c!"last_modified",
      .colon, .expr (.str c!"20170209T192358"), .comma, .ident c!"location", .colon, .expr (.str c!""),
      .comma, .ident c!"organizer", .colon, .expr (.str c!""), .comma, .ident c!"priority", .colon,
      .expr (.int 1), .comma, .ident c!"sequence", .colon, .expr (.int 0), .comma, .ident c!"status", .colon,
      .ident c!"Confirmed", .comma, .ident c!"summary", .colon, .expr (.str c!"Vers"), .comma,
      .ident c!"transp", .colon, .ident c!"Transparent", .comma, .ident c!"recurid", .colon,
      .expr (.str c!"20170210"), .comma, .ident c!"rrule", .colon, .brace [.ident c!"freq", .colon,
      .ident c!"Yearly", .comma, .ident c!"interval", .colon, .expr (.int 1), .comma], .comma,
      .ident c!"dtend", .colon, .expr (.str c!"20170210"), .comma, .ident c!"duration", .colon,
      .expr (.str c!"P1Y"), .comma, .ident c!"attach", .colon, .bracket [.expr (.str c!"")], .comma,
      .ident c!"attendee", .colon, .bracket [.expr (.str c!"")], .comma, .ident c!"categories", .colon,
      .bracket [.expr (.str c!"")], .comma, .ident c!"comment", .colon, .bracket [.expr (.str c!"")], .comma,
      .ident c!"contact", .colon, .bracket [.expr (.str c!"")], .comma, .ident c!"exdate", .colon,
      .bracket [.expr (.str c!"20170209")], .comma, .ident c!"rstatus", .colon,
      .bracket [.brace [.ident c!"statcode", .colon, .expr (.float c!"2.0"), .comma, .ident c!"statdesc",
      .colon, .expr (.str c!"Success"), .comma]], .comma, .ident c!"related_to", .colon,
      .bracket [.expr (.str c!"")], .comma, .ident c!"resources", .colon, .bracket [.expr (.str c!"")],
      .comma, .ident c!"alarms", .colon, .bracket [], .comma])) = true := by decide +kernel

/-- `src/components/vfreebusy.rs:38`, test `ser`. -/
example : written (componentMacro vars .freebusy ([.ident c!"dtstamp", .colon, .expr (.str c!"19970901T083000Z"), .comma, .ident c!"uid", .colon,
      .expr (.str c!"19970901T082949Z-FA43EF@example.com"), .comma, .ident c!"organizer", .colon,
      .expr (.str c!"mailto:jane_doe@example.com"), .comma, .ident c!"attendee", .colon,
      .bracket [.expr (.str c!"mailto:john_public@example.com")], .comma, .ident c!"dtstart", .colon,
      .expr (.str c!"19971015T050000Z"), .comma, .ident c!"dtend", .colon, .expr (.str c!"19971016T050000Z"),
      .comma])) =
    some (.ok (crlf [c!"BEGIN:VFREEBUSY",
      c!"DTSTAMP:19970901T083000Z",
      c!"UID:19970901T082949Z-FA43EF@example.com",
      c!"DTSTART:19971015T050000Z",
      c!"DTEND:19971016T050000Z",
      c!"ORGANIZER:mailto:jane_doe@example.com",
      c!"ATTENDEE:mailto:john_public@example.com",
      c!"END:VFREEBUSY",
      c!""])) := by decide +kernel

/-- `src/components/vfreebusy.rs:67`, test `macros`. -/
example : expands (componentMacro vars .freebusy ([.ident c!"dtstamp", .colon, .expr (.str c!"19970901T083000Z"), .comma, .ident c!"uid", .colon,
      .expr (.str c!"19970901T082949Z-FA43EF@example.com"), .comma, .ident c!"contact", .colon,
      .expr (.str c!""), .comma, .ident c!"dtstart", .colon, .expr (.str c!"19971015T050000Z"), .comma,
      .ident c!"dtend", .colon, .expr (.str c!"19971016T050000Z"), .comma, .ident c!"organizer", .colon,
      .expr (.str c!"mailto:jane_doe@example.com"), .comma, .ident c!"url", .colon, .expr (.str c!""),
      .comma, .ident c!"attendee", .colon, .bracket [.expr (.str c!"mailto:john_public@example.com")],
      .comma, .ident c!"comment", .colon, .bracket [.expr (.str c!"")], .comma])) = true := by decide +kernel

/-- `src/components/vjournal.rs:57`, test `ser`. -/
example : written (componentMacro vars .journal ([.ident c!"uid", .colon, .expr (.str c!"19970901T130000Z-123405@example.com"), .comma, .ident c!"dtstart",
      .colon, .expr (.str c!"19970317"), .comma, .ident c!"dtstamp", .colon,
      .expr (.str c!"19970901T130000Z"), .comma, .ident c!"summary", .colon,
      .expr (.str c!"Staff meeting minutes"), .comma, .ident c!"description", .colon,
      .bracket [.expr (.str c!"1. Staff meeting: Participants include Joe, Lisa, and Bob. Aurora project plans were reviewed. There is currently no budget reserves for this project. Lisa will escalate to management. Next meeting on Tuesday.\n2. Telephone Conference: ABC Corp. sales representative called to discuss new printer. Promised to get us a demo by Friday.\n3. Henry Miller (Handsoff Insurance): Car was totaled by tree. Is looking into a loaner car. 555-2323 (tel).")],
      .comma])) =
    some (.ok (crlf [c!"BEGIN:VJOURNAL",
      c!"DTSTAMP:19970901T130000Z",
      c!"UID:19970901T130000Z-123405@example.com",
      c!"DTSTART;VALUE=DATE:19970317",
      c!"SUMMARY:Staff meeting minutes",
      c!"DESCRIPTION:1. Staff meeting: Participants include Joe\\, Lisa\\, and Bob. Au",
      c!" rora project plans were reviewed. There is currently no budget reserves for",
      c!"  this project. Lisa will escalate to management. Next meeting on Tuesday.\\n",
      c!" 2. Telephone Conference: ABC Corp. sales representative called to discuss n",
      c!" ew printer. Promised to get us a demo by Friday.\\n3. Henry Miller (Handsoff",
      c!"  Insurance): Car was totaled by tree. Is looking into a loaner car. 555-232",
      c!" 3 (tel).",
      c!"END:VJOURNAL",
      c!""])) := by decide +kernel

/-- `src/components/vjournal.rs:92`, test `macros`. -/
example : expands (componentMacro vars .journal ([.ident c!"dtstamp", .colon, .expr (.str c!"19970901T130000Z"), .comma, .ident c!"uid", .colon,
      .expr (.str c!"19970901T130000Z-123405@example.com"), .comma, .ident c!"class", .colon,
      .expr (.call c!"Custom" c!"Custom"), .comma, .ident c!"created", .colon,
      .expr (.str c!"19970901T130000Z"), .comma, .ident c!"dtstart", .colon, .expr (.str c!"19970317"),
      .comma, .ident c!"last_modified", .colon, .expr (.str c!"19970901T130000Z"), .comma,
      .ident c!"organizer", .colon, .expr (.str c!""), .comma, .ident c!"recurid", .colon,
      .expr (.str c!"19970317"), .comma, .ident c!"sequence", .colon, .expr (.int 0), .comma,
      .ident c!"status", .colon, .ident c!"NeedsAction", .comma, .ident c!"summary", .colon,
      .expr (.str c!"Staff meeting minutes"), .comma, .ident c!"url", .colon, .expr (.str c!""), .comma,
      .ident c!"rrule", .colon, .brace [.ident c!"freq", .colon, .ident c!"Yearly", .comma,
      .ident c!"interval", .colon, .expr (.int 1), .comma], .comma, .ident c!"attach", .colon,
      .bracket [.expr (.str c!"")], .comma, .ident c!"attendee", .colon, .bracket [.expr (.str c!"")],
      .comma, .ident c!"categories", .colon, .bracket [.expr (.str c!"")], .comma, .ident c!"comment",
      .colon, .bracket [.expr (.str c!"")], .comma, .ident c!"contact", .colon, .bracket [.expr (.str c!"")],
      .comma, .ident c!"description", .colon, .bracket [.expr (.str c!"")], .comma, .ident c!"exdate",
      .colon, .bracket [.expr (.str c!"19970317")], .comma, .ident c!"related_to", .colon,
      .bracket [.expr (.str c!"")], .comma, .ident c!"rstatus", .colon,
      .bracket [.brace [.ident c!"statcode", .colon, .expr (.float c!"2.0"), .comma, .ident c!"statdesc",
      .colon, .expr (.str c!"Success"), .comma]], .comma])) = true := by decide +kernel

/-- `src/components/vtimezone.rs:87`, test `ser`. -/
example : written (componentMacro vars .timezone ([.ident c!"tzid", .colon, .expr (.str c!"America/New_York"), .comma, .ident c!"last_modified", .colon,
      .expr (.str c!"20050809T050000Z"), .comma, .ident c!"tzurl", .colon,
      .expr (.str c!"http://zones.example.com/tz/America-New_York.ics"), .comma, .ident c!"standard", .colon,
      .bracket [.brace [.ident c!"dtstart", .colon, .expr (.str c!"20071104T020000"), .comma,
      .ident c!"tzoffsetfrom", .colon, .expr (.str c!"-0400"), .comma, .ident c!"tzoffsetto", .colon,
      .expr (.str c!"-0500"), .comma, .ident c!"tzname", .colon, .bracket [.expr (.str c!"EST")], .comma],
      .comma], .comma, .ident c!"daylight", .colon, .bracket [.brace [.ident c!"dtstart", .colon,
      .expr (.str c!"20070311T020000"), .comma, .ident c!"tzoffsetfrom", .colon, .expr (.str c!"-0500"),
      .comma, .ident c!"tzoffsetto", .colon, .expr (.str c!"-0400"), .comma, .ident c!"tzname", .colon,
      .bracket [.expr (.str c!"EDT")], .comma], .comma], .comma])) =
    some (.ok (crlf [c!"BEGIN:VTIMEZONE",
      c!"TZID:America/New_York",
      c!"LAST-MODIFIED:20050809T050000Z",
      c!"TZURL:http://zones.example.com/tz/America-New_York.ics",
      c!"BEGIN:STANDARD",
      c!"DTSTART:20071104T020000",
      c!"TZOFFSETTO:-0500",
      c!"TZOFFSETFROM:-0400",
      c!"TZNAME:EST",
      c!"END:STANDARD",
      c!"BEGIN:DAYLIGHT",
      c!"DTSTART:20070311T020000",
      c!"TZOFFSETTO:-0400",
      c!"TZOFFSETFROM:-0500",
      c!"TZNAME:EDT",
      c!"END:DAYLIGHT",
      c!"END:VTIMEZONE",
      c!""])) := by decide +kernel

/-- `src/components/vtodo.rs:65`, test `ser`. -/
example : written (componentMacro vars .todo ([.ident c!"dtstamp", .colon, .expr (.str c!"20070313T123432Z"), .comma, .ident c!"uid", .colon,
      .expr (.str c!"20070313T123432Z-456553@example.com"), .comma, .ident c!"due", .colon,
      .expr (.str c!"20070501"), .comma, .ident c!"summary", .colon,
      .expr (.str c!"Submit Quebec Income Tax Return for 2006"), .comma, .ident c!"class", .colon,
      .ident c!"Confidential", .comma, .ident c!"categories", .colon, .bracket [.expr (.str c!"FAMILY"),
      .comma, .expr (.str c!"FINANCE")], .comma, .ident c!"status", .colon, .ident c!"NeedsAction", .comma])) =
    some (.ok (crlf [c!"BEGIN:VTODO",
      c!"DTSTAMP:20070313T123432Z",
      c!"UID:20070313T123432Z-456553@example.com",
      c!"CLASS:CONFIDENTIAL",
      c!"STATUS:NEEDS-ACTION",
      c!"SUMMARY:Submit Quebec Income Tax Return for 2006",
      c!"DUE;VALUE=DATE:20070501",
      c!"CATEGORIES:FAMILY,FINANCE",
      c!"END:VTODO",
      c!""])) := by decide +kernel

/-- `src/components/vtodo.rs:96`, test `macros`. -/
example : expands (componentMacro vars .todo ([.ident c!"dtstamp", .colon, .expr (.str c!"20070313T123432Z"), .comma, .ident c!"uid", .colon,
      .expr (.str c!"20070313T123432Z-456553@example.com"), .comma, .ident c!"class", .colon,
      .ident c!"Confidential", .comma, .ident c!"completed", .colon, .expr (.str c!"20070313T123432Z"),
      .comma, .ident c!"created", .colon, .expr (.str c!"20070313T123432Z"), .comma, .ident c!"dtstart",
      .colon, .expr (.str c!"20070501"), .comma, .ident c!"geo", .colon, .brace [.ident c!"lat", .colon,
      .expr (.float c!"0.0"), .comma, .ident c!"lon", .colon, .expr (.float c!"0.0"), .comma], .comma,
      .ident c!"last_modified", .colon, .expr (.str c!"20070313T123432Z"), .comma, .ident c!"location",
      .colon, .expr (.str c!""), .comma, .ident c!"organizer", .colon, .expr (.str c!""), .comma,
      .ident c!"percent_complete", .colon, .expr (.int 100), .comma, .ident c!"priority", .colon,
      .expr (.int 10), .comma, .ident c!"recurid", .colon, .expr (.str c!"20070313T123432Z"), .comma,
      .ident c!"sequence", .colon, .expr (.int 0), .comma, .ident c!"status", .colon, .ident c!"NeedsAction",
      .comma, .ident c!"summary", .colon, .expr (.str c!""), .comma, .ident c!"url", .colon,
      .expr (.str c!""), .comma, .ident c!"rrule", .colon, .brace [.ident c!"freq", .colon,
      .ident c!"Yearly", .comma, .ident c!"interval", .colon, .expr (.int 1), .comma], .comma,
      .ident c!"due", .colon, .expr (.str c!"20070501"), .comma, .ident c!"duration", .colon,
      .expr (.str c!"-PT10M"), .comma, .ident c!"attach", .colon, .bracket [.expr (.str c!"")], .comma,
      .ident c!"attendee", .colon, .bracket [.expr (.str c!"")], .comma, .ident c!"categories", .colon,
      .bracket [.expr (.str c!"FAMILY"), .comma, .expr (.str c!"FINANCE")], .comma, .ident c!"comment",
      .colon, .bracket [.expr (.str c!"")], .comma, .ident c!"contact", .colon, .bracket [.expr (.str c!"")],
      .comma, .ident c!"exdate", .colon, .bracket [.expr (.str c!"20070501")], .comma, .ident c!"rstatus",
      .colon, .bracket [.brace [.ident c!"statcode", .colon, .expr (.float c!"2.8"), .comma,
      .ident c!"statdesc", .colon, .expr (.str c!"Success"), .comma, .ident c!"extdata", .colon,
      .expr (.str c!""), .comma]], .comma, .ident c!"related_to", .colon, .bracket [.expr (.str c!"")],
      .comma, .ident c!"resources", .colon, .bracket [.expr (.str c!"")], .comma])) = true := by decide +kernel

/-- `src/components/vcalendar.rs:43`, test `ser`. -/
example : written (componentMacro vars .calendar ([.ident c!"version", .colon, .expr (.str c!"2.0"), .comma, .ident c!"prodid", .colon,
      .expr (.str c!"-//hacksw/handcal//NONSGML v1.0//EN"), .comma, .ident c!"events", .colon,
      .bracket [.brace [.ident c!"uid", .colon, .expr (.str c!"19970610T172345Z-AF23B2@example.com"), .comma,
      .ident c!"dtstamp", .colon, .expr (.str c!"19970610T172345Z"), .comma, .ident c!"dtstart", .colon,
      .expr (.str c!"19970714T170000Z"), .comma, .ident c!"dtend", .colon, .expr (.str c!"19970715T040000Z"),
      .comma, .ident c!"summary", .colon, .expr (.str c!"Bastille Day Party"), .comma]], .comma])) =
    some (.ok (crlf [c!"BEGIN:VCALENDAR",
      c!"PRODID:-//hacksw/handcal//NONSGML v1.0//EN",
      c!"VERSION:2.0",
      c!"BEGIN:VEVENT",
      c!"DTSTAMP:19970610T172345Z",
      c!"UID:19970610T172345Z-AF23B2@example.com",
      c!"DTSTART:19970714T170000Z",
      c!"SUMMARY:Bastille Day Party",
      c!"DTEND:19970715T040000Z",
      c!"END:VEVENT",
      c!"END:VCALENDAR",
      c!""])) := by decide +kernel

/-! ## `src/lib.rs`, `src/parser/misc.rs`, `src/ser.rs` -/

/-- `src/lib.rs:188-199`, test `test_content_line`. -/
example : (match contentLine c!"VERSION:2.0\nPRODID:-//Nextcloud calendar v1.5.0" with
    | .ok rest l => decide (rest = c!"PRODID:-//Nextcloud calendar v1.5.0" ∧ l = ⟨c!"VERSION", [], c!"2.0"⟩)
    | _ => false) = true := by decide +kernel

/-- `src/lib.rs:207-219`, test `test_param`. -/
example : (match contentLines c!"CREATED;VALUE=DATE-TIME:20141009T141617Z\r\n" with
    | .ok rest l => decide (rest = [] ∧ l = [⟨c!"CREATED", [(c!"VALUE", c!"DATE-TIME")], c!"20141009T141617Z"⟩])
    | _ => false) = true := by decide +kernel

/-- `src/lib.rs:222-239`, test `test_content_lines`. -/
example : (match contentLines c!"VERSION:2.0\nCALSCALE:GREGORIAN\n\n" with
    | .ok rest l => decide (rest = c!"\n" ∧ l = [⟨c!"VERSION", [], c!"2.0"⟩, ⟨c!"CALSCALE", [], c!"GREGORIAN"⟩])
    | _ => false) = true := by decide +kernel

/-- The three parts of a request status. -/
def parts (s : Str) : Option (Str × Str × Option Str) :=
  match rstatus (ContentLine.ofValue s) with
  | .ok r => some (r.statcode, r.statdesc, r.extdata)
  | _ => none

set_option synthInstance.maxSize 2000 in
/-- `src/parser/misc.rs:49-97`, test `rstatus`. -/
example : parts c!"2.0;Success" = some (c!"2.0", c!"Success", none) ∧
    parts c!"3.1;Invalid property value;DTSTART:96-Apr-01" =
      some (c!"3.1", c!"Invalid property value", some c!"DTSTART:96-Apr-01") ∧
    parts c!"2.8; Success\\, repeating event ignored. Scheduled\r\n as a single event.;RRULE:FREQ=WEEKLY\\;INTERVAL=2" =
      some (c!"2.8", c!" Success\\, repeating event ignored. Scheduled\r\n as a single event.",
        some c!"RRULE:FREQ=WEEKLY\\;INTERVAL=2") ∧
    parts c!"4.1;Event conflict.  Date-time is busy." =
      some (c!"4.1", c!"Event conflict.  Date-time is busy.", none) ∧
    parts c!"3.7;Invalid calendar user;ATTENDEE:\r\n mailto:jsmith@example.com" =
      some (c!"3.7", c!"Invalid calendar user", some c!"ATTENDEE:\r\n mailto:jsmith@example.com") := by decide +kernel

/-- `src/ser.rs:171-186`, test `long_line`. -/
example : field c!"DESCRIPTION"
      (Text.ofStr c!"This is a long description with more than 75 characteres that exists on a long line.") =
    .ok c!"DESCRIPTION:This is a long description with more than 75 characteres that e\r\n xists on a long line.\r\n" := by
  decide +kernel

/-- `src/ser.rs:188-196`, test `fixed_offset`. -/
example : (FixedOffset.eastOpt 3600).map Ser.ical = some (.ok c!"+0100") := by decide +kernel

/-! ## `src/iter.rs` -/

section
variable {α : Type} [Recurring α]

/-- `Iterator::count` of the recurrence iterator; `none` is a panic or an answer that takes more than `fuel` steps. -/
def countItems : Nat → α → Option Nat
  | 0, _ => none
  | fuel + 1, s =>
    match next 10 s with
    | (.item _, s') => (countItems fuel s').map (· + 1)
    | (.done, _) => some 0
    | _ => none

/-- `Iterator::count` of a range. -/
def countRange (inner : Nat) : Nat → Range α → Option Nat
  | 0, _ => none
  | fuel + 1, r =>
    match r.next inner with
    | (.item _, r') => (countRange inner fuel r').map (· + 1)
    | (.done, _) => some 0
    | _ => none

end

/-- `now` as the model's local time, and twenty years later (`now.with_year(now.year() + 20)`). -/
def now : DateTime := .loc ⟨⟨2026, 3, 10⟩, 30600, 0⟩
/-- See `now`. -/
def inTwentyYears : DateTime := .loc ⟨⟨2046, 3, 10⟩, 30600, 0⟩

/-- The local variable `now` of the test `after`. -/
def nowVar : Env := fun n => if n = c!"now" then some ⟨.date, .dateTime now⟩ else none

/-- Do something with the event that was built. -/
def withEvent (r : Option (Res VEvent)) (k : VEvent → Bool) : Bool :=
  match r with
  | some (.ok e) => k e
  | _ => false

/-- `src/iter.rs:181-198`, test `at`. -/
example : withEvent (componentMacro vars .event
      [.ident c!"dtstart", .colon, .expr (.str c!"20240101"), .comma, .ident c!"dtend", .colon, .expr (.str c!"20240101"), .comma,
       .ident c!"rrule", .colon, .brace [.ident c!"freq", .colon, .ident c!"Daily", .comma, .ident c!"interval", .colon, .expr (.int 1), .comma]])
    (fun e => match at_ e (.date ⟨2026, 3, 10⟩) with
      | some r => (match r.next 1000 with
        | (.item x, _) => decide (x.dtstart = .date ⟨2026, 3, 10⟩ ∧ x.dtend = some (.date ⟨2026, 3, 10⟩))
        | _ => false)
      | none => false) = true := by decide +kernel

/-- `src/iter.rs:201-214`, test `count`. -/
example : withEvent (componentMacro vars .event [.ident c!"rrule", .colon, .brace [.ident c!"freq", .colon, .ident c!"Weekly", .comma,
      .ident c!"interval", .colon, .expr (.int 1), .comma, .ident c!"count", .colon, .expr (.int 10), .comma]])
    (fun e => decide (countItems 100 e = some 10)) = true := by decide +kernel

/-- `src/iter.rs:217-232`, test `after`. -/
example : withEvent (componentMacro nowVar .event [.ident c!"rrule", .colon, .brace [.ident c!"freq", .colon, .ident c!"Monthly", .comma,
      .ident c!"interval", .colon, .expr (.int 1), .comma, .ident c!"until", .colon, .ident c!"now", .comma]])
    (fun e => match (after e (.dateTime now)).next 1000 with
      | (.done, _) => true
      | _ => false) = true := by decide +kernel

/-- `src/iter.rs:235-251`, test `between`. -/
example : withEvent (componentMacro vars .event [.ident c!"rrule", .colon, .brace [.ident c!"freq", .colon, .ident c!"Yearly", .comma,
      .ident c!"interval", .colon, .expr (.int 10), .comma]])
    (fun e => decide (countRange 100 100 (between e (.dateTime now) (.dateTime inTwentyYears)) = some 2)) = true := by decide +kernel

/-- `src/iter.rs:254-269`, test `exdate`. -/
example : withEvent (componentMacro vars .event [.ident c!"dtstart", .colon, .expr (.str c!"20240101"), .comma,
      .ident c!"rrule", .colon, .brace [.ident c!"freq", .colon, .ident c!"Yearly", .comma,
        .ident c!"interval", .colon, .expr (.int 1), .comma, .ident c!"count", .colon, .expr (.int 10), .comma], .comma,
      .ident c!"exdate", .colon, .bracket [.expr (.str c!"20250101")], .comma])
    (fun e => match next 10 e with
      | (.item _, s) => (match next 10 s with
        | (.item x, _) => decide (Date.ofStr c!"20260101" = .ok x.dtstart)
        | _ => false)
      | _ => false) = true := by decide +kernel

/-- `src/iter.rs:272-284`, test `vjournal`. -/
example : (match componentMacro vars .journal [.ident c!"rrule", .colon, .brace [.ident c!"freq", .colon, .ident c!"Daily", .comma,
      .ident c!"count", .colon, .expr (.int 2), .comma]] with
    | some (.ok (e : VJournal)) => decide (countItems 100 e = some 2)
    | _ => false) = true := by decide +kernel

/-- `src/iter.rs:287-300`, test `vtodo`. -/
example : (match componentMacro vars .todo [.ident c!"dtstart", .colon, .expr (.str c!"20240101"), .comma,
      .ident c!"rrule", .colon, .brace [.ident c!"freq", .colon, .ident c!"Daily", .comma,
      .ident c!"count", .colon, .expr (.int 2), .comma]] with
    | some (.ok (e : VTodo)) => decide (countItems 100 e = some 2)
    | _ => false) = true := by decide +kernel

end Ikal.Conformance
