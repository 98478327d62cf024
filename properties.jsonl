{"id": "C01", "title": "Folding is undone by unfolding", "statement": "Whatever property line the serialiser writes, the line breaks it inserts to fold long lines are exactly the ones the parser removes: unfolding the folded line gives back the line, for every line that does not itself contain CR LF SPACE.", "quantifier": "every property name, parameter text and value, of any length and any characters for which serialisation returns", "why_tests_cant": "line length, content and the position of the fold points are unbounded; a test fixes one long line", "anchors": ["src/ser.rs: field, split", "derive/src/component.rs: from_str (replace \"\\r\\n \")"]}
{"id": "C02", "title": "Folded physical lines are bounded", "statement": "Every physical line the serialiser writes for a property has at most 75 octets before its CR LF, except that continuation lines may reach 76 (leading space plus 75 octets of data). The 75-octet limit of RFC 5545 is therefore exceeded by one on continuation lines.", "quantifier": "every property line, any length", "why_tests_cant": "needs every length and every multiple of the fold width", "anchors": ["src/ser.rs: field, split"]}
{"id": "C03", "title": "Serialisation panics exactly on a fold point inside a character", "statement": "Writing a property panics if and only if its line is longer than 75 octets and some multiple of 75 octets falls strictly inside a multi-byte UTF-8 character; pure-ASCII properties never panic.", "quantifier": "every property line over all Unicode strings", "why_tests_cant": "the panicking inputs are a sparse, length-dependent set of strings", "anchors": ["src/ser.rs: field, split (split_at)"]}
{"id": "C04", "title": "Escaped text contains no structural characters", "statement": "In serialised text every ';' and ',' is immediately preceded by a backslash and no line feed remains; all other characters are emitted unchanged and in order.", "quantifier": "every text string", "why_tests_cant": "all strings", "anchors": ["src/ser.rs: escape"]}
{"id": "C05", "title": "Escaping is reversible on backslash-free text and only there in general", "statement": "Two texts that contain no backslash and serialise to the same string are equal (and the RFC 5545 unescaping recovers the text). For texts with backslashes this fails: two different texts can serialise identically.", "quantifier": "all pairs of texts", "why_tests_cant": "a statement about all pairs of strings", "anchors": ["src/ser.rs: escape"]}
{"id": "C06", "title": "Text survives a write/parse cycle exactly when it needs no escaping", "statement": "A text value written by the serialiser and read back by the property parser is unchanged if and only if it is not empty and contains none of ';', ',', line feed and carriage return (the parser never unescapes, an empty text is not written, a carriage return ends the line); in particular re-serialising parsed text escapes it again.", "quantifier": "every text value", "why_tests_cant": "all strings, both directions", "anchors": ["src/ser.rs: escape", "src/properties/text.rs", "src/parser/descriptive.rs"]}
{"id": "C07", "title": "Content line grammar", "statement": "A content line is accepted exactly when the input starts with neither BEGIN: nor END: and has the form name (letters, digits, '-' and '/'), parameters, ':', a value without line breaks and LF or CRLF; the name, parameters and value returned are the ones of that decomposition, and the rest of the input is left unread.", "quantifier": "every input string", "why_tests_cant": "grammar equivalence over all inputs", "anchors": ["src/parser/mod.rs: content_line, key, value, params"]}
{"id": "C08", "title": "Quoted parameter values are taken verbatim", "statement": "A parameter written ;NAME=\"value\" is read as value for every value without a double quote, including values that contain ':', ';', ',' or spaces.", "quantifier": "every parameter name and every quoted value and every continuation of the line", "why_tests_cant": "all strings", "anchors": ["src/parser/mod.rs: quoted_param, param"]}
{"id": "C09", "title": "Unquoted parameter values stop at ; or : only", "statement": "An unquoted parameter value extends to the next ';' or ':' wherever that is: a property with a parameter but no ':' on its line swallows the following line(s).", "quantifier": "every input", "why_tests_cant": "all strings and all following lines", "anchors": ["src/parser/mod.rs: attr, param"]}
{"id": "C10", "title": "Repeated parameters: the last one wins", "statement": "After reading a content line, looking up a parameter name gives the value of its last occurrence on the line, and exactly the names that occur are present.", "quantifier": "every list of parameters", "why_tests_cant": "any number and order of duplicates", "anchors": ["src/parser/mod.rs: params"]}
{"id": "C11", "title": "Reading a block of properties always terminates and loses nothing", "statement": "Reading content lines always returns; the lines read concatenated with the unread rest are the input, and it stops only where no further content line can be read.", "quantifier": "every input string", "why_tests_cant": "termination and maximality over all inputs", "anchors": ["src/parser/mod.rs: content_lines"]}
{"id": "C12", "title": "Component delimiters are never taken for properties", "statement": "No content line is ever produced from input that starts with BEGIN: or END:, so a property block ends at the first such line.", "quantifier": "every input", "why_tests_cant": "all inputs", "anchors": ["src/parser/mod.rs: content_line"]}
{"id": "C13", "title": "A missing required property is an error", "statement": "Parsing a component whose text lacks one of the required properties never succeeds; no default value is invented for it.", "quantifier": "every component type and every list of property lines", "why_tests_cant": "all property lists", "anchors": ["derive/src/component.rs: impl_macro (new_body)"]}
{"id": "C14", "title": "Single-valued properties: the last occurrence wins", "statement": "After a successful parse, a required or optional single-valued property holds the value of the last line with that name, and an optional one is absent exactly when no line has that name.", "quantifier": "every component type and property list", "why_tests_cant": "any number, order and interleaving of lines", "anchors": ["derive/src/component.rs: impl_macro"]}
{"id": "C15", "title": "Multi-valued properties keep every value in order", "statement": "After a successful parse, a multi-valued property holds the values of all lines with its name, in document order; for comma-separated properties the values of each line are appended in order.", "quantifier": "every component type and property list", "why_tests_cant": "any number and interleaving of lines", "anchors": ["derive/src/component.rs: impl_macro"]}
{"id": "C16", "title": "Unknown properties are kept", "statement": "After a successful parse every property whose name is not one of the component's is available unchanged (name, parameters, value) in the extension maps: under X- names in one and all others in the other, the last line winning for a repeated name; and nothing else is in these maps.", "quantifier": "every component type and property list", "why_tests_cant": "all names and orders", "anchors": ["derive/src/component.rs: impl_macro"]}
{"id": "C17", "title": "Order of properties with different names is irrelevant", "statement": "Permuting the property lines of a component without changing the relative order of lines with equal names does not change the parsed component.", "quantifier": "every component type and all such permutations", "why_tests_cant": "all permutations", "anchors": ["derive/src/component.rs: impl_macro"]}
{"id": "C18", "title": "One bad property rejects the component", "statement": "If any line of a known optional or repeatable property, or the last line of a required property, has a value its parser rejects, the component is rejected; the value is never skipped silently. Earlier lines of a required property are not even parsed, so a bad one is ignored when a good one follows.", "quantifier": "every component type and property list", "why_tests_cant": "all lists", "anchors": ["derive/src/component.rs: impl_macro"]}
{"id": "C19", "title": "Calendar parsing keeps every sub-component in order", "statement": "A parsed calendar lists its events, to-dos, journals, alarms, free/busy and time zone components each in document order, and together they are exactly the components read, none lost, duplicated or misfiled. The same holds for the standard/daylight parts of a time zone and the alarms of an event.", "quantifier": "every calendar text", "why_tests_cant": "any number and interleaving of sub-components", "anchors": ["src/parser/components.rs: vcalendar, vtimezone, vevent"]}
{"id": "C20", "title": "Text after the component is ignored", "statement": "Appending anything that does not begin with a space and contains no double quote after a component that parses does not change the result of parsing it. Either proviso cannot be dropped: a space is joined to the closing line by unfolding, and a double quote can close a quotation left open by an unquoted parameter value.", "quantifier": "every component text and every suffix", "why_tests_cant": "all suffixes", "anchors": ["derive/src/component.rs: from_str", "src/parser/components.rs"]}
{"id": "C21", "title": "Parsing a component only fails with the parser error", "statement": "Whatever goes wrong inside, parsing a component from text reports a Parser error, never another variant.", "quantifier": "every text", "why_tests_cant": "all inputs", "anchors": ["derive/src/component.rs: from_str", "src/errors.rs"]}
{"id": "C22", "title": "When value parsing panics", "statement": "A recurrence rule value panics exactly when it has at least one NAME=VALUE item but no FREQ item; a period panics exactly when its start is a valid date-time and it has no '/' (or its duration is out of range); an alarm panics when it has no ACTION; no other well-formed text panics the property parsers than out-of-range durations.", "quantifier": "every input string", "why_tests_cant": "all inputs", "anchors": ["src/parser/recurrence.rs: rrule", "src/parser/datatype.rs: period, duration", "src/components/valarm.rs: try_from"]}
{"id": "C23", "title": "Status, transparency, frequency and weekday names round-trip", "statement": "Each value prints to a name that parses back to it; for status, transparency and frequency any other string is rejected with the error carrying that string.", "quantifier": "every value and every string", "why_tests_cant": "the rejection half ranges over all strings", "anchors": ["src/properties/status.rs", "src/properties/time_transparency.rs", "src/properties/recur.rs"]}
{"id": "C24", "title": "Weekday parsing looks at two letters only", "statement": "A weekday is recognised from the first two characters of the input whatever follows, and rejected otherwise.", "quantifier": "every string", "why_tests_cant": "all strings", "anchors": ["src/parser/mod.rs: weekday"]}
{"id": "C25", "title": "Classification round-trip", "statement": "Parsing a classification never fails; a printed classification parses back to itself exactly when a custom name is already upper case and is not one of the three standard names.", "quantifier": "every classification", "why_tests_cant": "all custom strings", "anchors": ["src/properties/class.rs"]}
{"id": "C26", "title": "Priority range", "statement": "A priority is accepted exactly when it is a decimal number from 0 to 9 (an optional '+' and leading zeros allowed); larger 8-bit numbers give the Priority error carrying the number.", "quantifier": "every string", "why_tests_cant": "all strings", "anchors": ["src/parser/descriptive.rs: priority"]}
{"id": "C27", "title": "Integers round-trip", "statement": "Every u8, u32 and i8 property value prints to a string that parses back to it, and parsing never wraps around: the value parsed is the mathematical value of the digits or an error.", "quantifier": "every integer and digit string", "why_tests_cant": "2^32 values and all digit strings", "anchors": ["src/ser.rs: ical_for_tostring", "src/parser/alarm.rs: repeat", "src/parser/change.rs: sequence"]}
{"id": "C28", "title": "Weekday numbers round-trip", "statement": "Every (ordinal, weekday) pair prints to a string that parses back to it.", "quantifier": "every i8 ordinal or none, every weekday", "why_tests_cant": "product of ranges", "anchors": ["src/properties/recur.rs: WeekdayNum", "src/parser/mod.rs: weekdaynum"]}
{"id": "C29", "title": "Recurrence rules round-trip", "statement": "Every recurrence rule (any frequency, count, interval, any lists of BY values, week start, and an until that is a date or floating date-time in years 0 to 9999) serialises to text that parses back to the same rule.", "quantifier": "every rule", "why_tests_cant": "unbounded lists, all integers", "anchors": ["src/properties/recur.rs", "derive/src/serialize.rs", "src/parser/recurrence.rs: rrule"]}
{"id": "C30", "title": "Rule items: order irrelevant, last duplicate wins, unknown ignored", "statement": "The parsed rule depends only on the last value given for each known item name.", "quantifier": "every item list", "why_tests_cant": "all lists", "anchors": ["src/parser/recurrence.rs: rrule"]}
{"id": "C31", "title": "Durations round-trip to the second", "statement": "Every whole-second duration in range serialises to text that parses back to the same duration; a duration with a fractional second does not, its seconds part is silently read as zero.", "quantifier": "every duration", "why_tests_cant": "2^63 values", "anchors": ["src/ser.rs", "src/parser/datatype.rs: duration"]}
{"id": "C32", "title": "Duration text means what RFC 5545 says", "statement": "For every combination of optional sign, weeks, days, hours, minutes and seconds written in order, the parsed duration is the exact sum.", "quantifier": "all numbers", "why_tests_cant": "all numbers", "anchors": ["src/parser/datatype.rs: duration"]}
{"id": "C33", "title": "The macro duration syntax agrees with the parser on one unit only", "statement": "For a duration with a single unit among days, hours, minutes and seconds the macro's duration parser and the iCalendar one give the same result; with several units the macro's parser concatenates the digits of earlier units into later ones and gives a different duration (a day-and-hour duration differs whenever the day number is not zero); weeks are rejected by the macro's parser. What every text means is determined: each character after the P that is neither a digit nor T is a unit whose number are all the digits before it; the first unit that is unknown, has no number of 64 bits or makes the sum too great decides (an error or a panic); years and months whose product with 365 or 30 does not fit 64 bits panic with overflow checks and lose a multiple of 2^64 days without.", "quantifier": "all texts, numbers and units", "why_tests_cant": "all numbers", "anchors": ["src/lib.rs: parse_duration"]}
{"id": "C34", "title": "UTC offsets round-trip to the minute", "statement": "Every UTC offset strictly between -24h and +24h that is a whole number of minutes serialises to text that parses back to it; the seconds of other offsets are written but dropped when read.", "quantifier": "every offset", "why_tests_cant": "172799 values", "anchors": ["src/ser.rs: FixedOffset", "src/parser/timezone.rs"]}
{"id": "C35", "title": "Dates round-trip and invalid dates are rejected", "statement": "Every calendar date in years 0 to 9999 prints as eight digits that parse back to it; whatever string is accepted as a date denotes a date that exists in the Gregorian calendar.", "quantifier": "every date and every string", "why_tests_cant": "3.6 million dates, all strings", "anchors": ["src/properties/date.rs", "src/parser/datatype.rs: date"]}
{"id": "C36", "title": "Floating date-times round-trip", "statement": "Every floating date-time in years 0 to 9999 with whole (or leap) seconds prints to text that both date-time parsers read back to it.", "quantifier": "every date-time", "why_tests_cant": "3e11 values", "anchors": ["src/properties/date.rs", "src/parser/datatype.rs: date_time"]}
{"id": "C37", "title": "UTC date-times are shifted by the local offset in a write/parse cycle", "statement": "Printing a local-zone date-time and reading it with the iCalendar parser moves it by the zone's offset at that time; it is unchanged exactly when that offset is zero. Reading it with FromStr (as the macros do) gives it back whenever the local time is unambiguous, and panics when it is ambiguous or skipped.", "quantifier": "every instant and every time zone", "why_tests_cant": "all zones and instants", "anchors": ["src/properties/date.rs: Display, FromStr", "src/parser/datatype.rs: date_time"]}
{"id": "C38", "title": "Periods round-trip", "statement": "Every period with floating start (and end) in years 0 to 9999 or non-negative whole-second duration prints to text that parses back to it; negative durations do not.", "quantifier": "every period", "why_tests_cant": "all values", "anchors": ["src/properties/period.rs", "src/parser/datatype.rs: period"]}
{"id": "C39", "title": "Length of a period", "statement": "The duration of a start/end period is the elapsed wall-clock time: start plus the duration is the end. Asking for it panics exactly if the local clocks show a day outside chrono's range of years for one of the two.", "quantifier": "every period", "why_tests_cant": "all values", "anchors": ["src/properties/period.rs: duration", "src/properties/date.rs: Sub"]}
{"id": "C40", "title": "Date-time comparison is a total preorder on wall-clock time", "statement": "Comparison of date-times is reflexive, antisymmetric up to Equal, transitive and total, and agrees with the wall-clock time; but it disagrees with == (a floating and a local date-time can compare Equal and differ). It panics exactly if the local clocks show a day outside chrono's range of years for one of the two.", "quantifier": "all triples of date-times, every time zone", "why_tests_cant": "all triples", "anchors": ["src/properties/date.rs: Ord for DateTime"]}
{"id": "C41", "title": "Date comparison is a strict order but not a weak order", "statement": "'Earlier than' on dates (with or without time) is irreflexive, asymmetric and transitive; 'neither earlier nor later' is not transitive as soon as dates with and without time are mixed, so sorting or binary search on mixed lists is not reliable. On homogeneous dates it is a total preorder. It panics exactly as C40 says.", "quantifier": "all triples of dates", "why_tests_cant": "all triples", "anchors": ["src/properties/date.rs: Ord for Date"]}
{"id": "C42", "title": "Period comparison", "statement": "Periods compare by their duration, which is a total preorder; but two start/duration values compare by start minus duration, so the two orders disagree. The comparison panics exactly if one of the durations cannot be computed (C39).", "quantifier": "all pairs of periods", "why_tests_cant": "all pairs", "anchors": ["src/properties/period.rs: Ord"]}
{"id": "C43", "title": "Serialised components are framed", "statement": "Every component serialises to text that begins with BEGIN:NAME CRLF and ends with END:NAME CRLF; alarms of every kind use the name VALARM and contain exactly the lines of their kind.", "quantifier": "every component", "why_tests_cant": "all components", "anchors": ["derive/src/component.rs: ical", "src/components/valarm.rs: Serialize"]}
{"id": "C44", "title": "Absent properties write nothing", "statement": "An absent optional property, an empty list, and a value whose text is empty produce no line at all; hence an empty text property is read back as absent, and an empty required text makes the output unparseable.", "quantifier": "every component", "why_tests_cant": "all components", "anchors": ["src/ser.rs: field", "derive/src/component.rs"]}
{"id": "C45", "title": "Alarm round-trip", "statement": "Every alarm whose values are round-trippable that can be written (C03: writing may panic on a fold inside a character) serialises to text that parses back to the same alarm.", "quantifier": "every alarm", "why_tests_cant": "all values", "anchors": ["src/components/valarm.rs"]}
{"id": "C46", "title": "Component round-trip", "statement": "Every event, to-do, journal, free/busy, time zone and calendar whose values are individually round-trippable, whose repeatable properties have at most one value, whose nested lists have at most one component, without alarms and extension properties, and which can be written (C03: writing may panic on a fold inside a character; C82: it never does on ASCII), serialises to text that parses back to the same component.", "quantifier": "every such component", "why_tests_cant": "all values of 30-odd fields", "anchors": ["derive/src/component.rs", "src/ser.rs", "src/parser"]}
{"id": "C47", "title": "What breaks the component round-trip", "statement": "Two or more values of a repeatable property, any alarm inside an event or calendar, two or more sub-components of a kind in a calendar or time zone, any RDATE, and any extension property make the serialised text parse to something else or not at all.", "quantifier": "every component with such a value whose texts contain no carriage return and whose parameters contain no quote, colon or line break (tidy)", "why_tests_cant": "universally quantified refutations", "anchors": ["derive/src/component.rs: ser_part", "src/ser.rs: Vec, BTreeMap", "src/properties/rdate.rs"]}
{"id": "C48", "title": "No rule, no occurrence", "statement": "A component without a recurrence rule (or a to-do without a start) yields nothing, not even itself.", "quantifier": "every component", "why_tests_cant": "all components", "anchors": ["src/iter.rs: Recur::next"]}
{"id": "C49", "title": "The first occurrence is the component itself", "statement": "Whatever the rule, the first item yielded is the original component unchanged.", "quantifier": "every component", "why_tests_cant": "all", "anchors": ["src/iter.rs: Recur::next"]}
{"id": "C50", "title": "Occurrences differ only in start, end and remaining count", "statement": "Every yielded occurrence equals the original in all fields except its start, its end and the count of its rule; in particular the due date of a to-do is never moved.", "quantifier": "every component and every number of steps", "why_tests_cant": "unbounded iteration", "anchors": ["src/iter.rs: Recur::next"]}
{"id": "C51", "title": "COUNT bounds the occurrences", "statement": "A rule with COUNT n yields at most n occurrences, and exactly n when there is no UNTIL and nothing panics; excluded dates are not counted; the occurrence yielded after k others carries count n-k.", "quantifier": "every component and n", "why_tests_cant": "unbounded iteration", "anchors": ["src/iter.rs: Recur::next"]}
{"id": "C52", "title": "UNTIL bounds the occurrences", "statement": "Every yielded occurrence starts on or before the UNTIL day, and both days can be represented.", "quantifier": "every component", "why_tests_cant": "unbounded iteration", "anchors": ["src/iter.rs: Recur::next"]}
{"id": "C53", "title": "Excluded dates are not yielded, except the first", "statement": "No occurrence other than the first starts at an excluded date; the first is yielded even if excluded.", "quantifier": "every component", "why_tests_cant": "unbounded iteration", "anchors": ["src/iter.rs: Recur::next"]}
{"id": "C54", "title": "Occurrences are the progression minus the exclusions", "statement": "The starts of the occurrences are exactly, in order, the start, start+1 step, start+2 steps, ... with the excluded ones (after the first) left out: none is skipped or invented.", "quantifier": "every component and every number of steps", "why_tests_cant": "unbounded iteration", "anchors": ["src/iter.rs: Recur::next"]}
{"id": "C55", "title": "An occurrence before a final run of excluded dates is lost", "statement": "If all dates after some occurrence and up to the first date after UNTIL are excluded, that occurrence is not yielded although it is neither excluded nor after UNTIL.", "quantifier": "every component in that situation", "why_tests_cant": "depends on the relation of three unbounded sets", "anchors": ["src/iter.rs: Recur::next"]}
{"id": "C56", "title": "Fixed-length frequencies are arithmetic progressions", "statement": "For SECONDLY to WEEKLY rules on floating date-times and DAILY, WEEKLY on dates the k-th step is exactly k x interval x unit after the start; weekly keeps the weekday. From a leap second the steps are those of the second before it (for a fixed length every later step is k x interval x unit after 23:59:59, not after the leap second).", "quantifier": "every start, interval and k", "why_tests_cant": "unbounded k", "anchors": ["src/properties/recur.rs: Add"]}
{"id": "C57", "title": "Monthly steps", "statement": "A monthly step lands on the same day of the month interval months later, or on the last day of that month if it is shorter; a day clamped once stays clamped in later steps.", "quantifier": "every date and interval", "why_tests_cant": "all dates", "anchors": ["src/properties/recur.rs: Add"]}
{"id": "C58", "title": "Yearly steps", "statement": "A yearly step lands on the same month and day; it panics exactly when that date does not exist (29 February) or the year is out of range.", "quantifier": "every date and interval", "why_tests_cant": "all dates", "anchors": ["src/properties/recur.rs: Add"]}
{"id": "C59", "title": "Occurrence length is preserved by fixed-length frequencies", "statement": "For SECONDLY to WEEKLY rules on floating date-times, end minus start is the same for every occurrence; for monthly rules it need not be, nor for an event that starts in a leap second.", "quantifier": "every event", "why_tests_cant": "unbounded iteration", "anchors": ["src/iter.rs: Recur::next", "src/properties/recur.rs: Add"]}
{"id": "C60", "title": "Occurrences are in increasing order", "statement": "With a positive interval, starts of successive occurrences strictly increase: for floating date-times (leap seconds included) and for dates with rules not finer than daily; for local date-times with fixed-length rules when the clocks are never put back by as much as a step, and with monthly and yearly rules in every faithful time zone. For rules finer than daily on a date the occurrences after the first increase and none is before the first.", "quantifier": "every component", "why_tests_cant": "unbounded iteration", "anchors": ["src/iter.rs", "src/properties/recur.rs"]}
{"id": "C61", "title": "The iterator terminates on each call unless the interval is zero", "statement": "Each call to next returns after at most (number of excluded dates + 1) rounds when steps strictly increase (also for local date-times with monthly and yearly rules); with interval 0 and an excluded start it never returns.", "quantifier": "every component", "why_tests_cant": "termination", "anchors": ["src/iter.rs: Recur::next"]}
{"id": "C62", "title": "The iterator is fused", "statement": "Once next has returned None it returns None forever.", "quantifier": "every component", "why_tests_cant": "all call sequences", "anchors": ["src/iter.rs: Recur::next"]}
{"id": "C63", "title": "between, after and at select by start", "statement": "For a rule whose starts increase, between(a,b) yields exactly the occurrences with a <= start < b, after(a) those with a <= start, at(d) those of the day starting at d, in order (where every start can be compared with the bounds, C40; C79 has the other case). Where starts do not increase this fails: after(2:00) on an hourly rule that starts on a date yields the occurrence of 1:00.", "quantifier": "every component and bounds", "why_tests_cant": "unbounded iteration", "anchors": ["src/iter.rs: between, at, after"]}
{"id": "C64", "title": "BY rules have no effect on iteration", "statement": "Changing any BYxxx list or WKST of the rule does not change the starts and ends of the occurrences.", "quantifier": "every component and all BY values", "why_tests_cant": "all values", "anchors": ["src/properties/recur.rs: Add", "src/iter.rs"]}
{"id": "C65", "title": "Dates with sub-daily frequencies become date-times", "statement": "A rule finer than daily turns a date into a floating date-time at the first step, and coarser rules keep dates dates.", "quantifier": "every date", "why_tests_cant": "all dates", "anchors": ["src/properties/recur.rs: Add<Date>"]}
{"id": "C66", "title": "Adding days is iterating tomorrow", "statement": "Calendar day arithmetic used by every recurrence agrees with the Gregorian calendar: adding n days is n times going to the next day.", "quantifier": "every date and n", "why_tests_cant": "all dates", "anchors": ["src/properties/recur.rs: Add", "src/properties/date.rs: Add"]}
{"id": "C67", "title": "Parts are read back as if alone", "statement": "If the serialised text of a tidy calendar or time zone is parsed at all, then each of its sub-components is parsed to exactly what the serialised text of that sub-component alone is parsed to, none is lost, added, or moved to another kind; hence a calendar that round-trips consists of components that each round-trip.", "quantifier": "every tidy calendar and time zone", "why_tests_cant": "all values and any number of sub-components", "anchors": ["derive/src/component.rs", "src/ser.rs", "src/parser/components.rs", "src/parser/mod.rs"]}
{"id": "C68", "title": "Conversions between dates and date-times", "statement": "A date becomes the floating midnight that starts it and compares equal to it; has_time tells whether the text has a time part. A floating date-time becomes the local instant at which the clocks show it, the earliest of them if there are two, and fails exactly if there is none; a local instant converted to floating and back is the same instant unless the clocks show that time twice. Adding a duration to a floating date-time moves the wall clock by exactly that duration, adding one to a local date-time moves the instant by it; it panics exactly when the result is not representable; subtracting undoes adding, differences of three date-times add up, from a time in a leap second both count exactly that leap second, and adding a duration to a date without time drops the fraction of a day (towards zero).", "quantifier": "every date, date-time, duration and time zone whose clocks are consistent", "why_tests_cant": "all values and all time zones", "anchors": ["src/properties/date.rs: From<Date> for DateTime, has_time, Add", "src/properties/date.rs: TryFrom<DateTime> for chrono::DateTime<Local>, Add, Sub"]}
{"id": "C69", "title": "The VALUE parameter", "statement": "The line written for a date says VALUE=DATE exactly when the date has no time, and has no other parameter (also as an optional property or as the only excluded date); a trigger says VALUE=DATE-TIME or VALUE=DURATION. Two or more excluded dates are written without VALUE=DATE, and recurrence dates write VALUE=... inside the value, which is then not accepted. When reading, parameters make no difference except that texts and URIs keep them and that recurrence dates are periods exactly with VALUE=PERIOD.", "quantifier": "every value, property name and following text", "why_tests_cant": "all values and all parameters", "anchors": ["src/properties/date.rs: Serialize", "src/properties/trigger.rs: Serialize", "src/properties/rdate.rs: Display", "src/ser.rs: Vec", "src/parser/recurrence.rs"]}
{"id": "C70", "title": "Grammars of structured values", "statement": "For every text: it is accepted as a date, date-time, duration, period, trigger, UTC offset, position, request status or comma separated list of these exactly if it is in the grammar of that value, and the result is what the grammar says; no text is both a date and a date-time, or both a duration and a date-time; ignored trailing text (durations, offsets, positions) is said so in the grammar.", "quantifier": "every text", "why_tests_cant": "all texts", "anchors": ["src/parser/datatype.rs", "src/parser/recurrence.rs", "src/parser/misc.rs", "src/parser/timezone.rs", "src/parser/descriptive.rs: geo, categories, resources", "src/parser/alarm.rs: trigger", "src/properties/date.rs: FromStr"]}
{"id": "C71", "title": "Component macros build what is written", "statement": "Every call of vcalendar!, vevent!, vtodo!, vjournal!, vfreebusy!, vtimezone! and valarm! that compiles evaluates to the component in which each named field holds the value that is written for it (literals, strings read as the type of the field, enum variants, nested objects, lists, variables in scope) and every other field that of the default (absent, empty or zero; a required date is midnight of 1970-01-01, a trigger the start itself), or to the error of the first value, in written order, that cannot be read; commas after values make no difference; an empty call gives the default; the action of an alarm is its kind whatever is written; a rule written as an object without interval has interval 0.", "quantifier": "every call, every nesting of objects and lists, every set of variables in scope", "why_tests_cant": "all programs", "anchors": ["derive/src/macros.rs: Map::parse, Value::parse, TypedEntry, TypedValue", "derive/src/lib.rs: component!", "src/lib.rs: valarm!"]}
{"id": "C72", "title": "Which values each field of a component macro accepts", "statement": "A call compiles exactly if it is a list of entries with different names of which each compiles alone. A string literal is accepted by every field that has a textual form (alone or in a list), except calscale, method, until, wkst, by_day and freebusy; never by rdate. An integer literal is accepted exactly by the integer fields it fits in, a negative one by none; a float by the float fields, a negative one by the coordinates only; a name by an enum field exactly if it is a variant of it; an object by geo and rrule, and in a list by rstatus, standard, daylight and events only, so not by alarms, todo, journals, freebusy and timezones; a variable of the type of the field by all fields except those that are read from strings (dates, durations, triggers, offsets, positions, rules) other than until.", "quantifier": "every struct, field, value and set of variables in scope", "why_tests_cant": "all programs", "anchors": ["derive/src/macros.rs: Type::is_option, should_convert, should_parsed, enum, TypedValue"]}
{"id": "C73", "title": "What becomes of an iteration", "statement": "With a positive interval no iteration goes on for ever: after finitely many occurrences it returns None or panics. Without COUNT and UNTIL it always panics in the end (at the end of the calendar) and never returns None. With an UNTIL up to year 261000, or a COUNT that does not lead beyond year 262142, it returns None and does not panic (dates with rules not finer than daily, floating date-times, local date-times with fixed-length rules where offsets stay within a day; yearly rules not from 29 February), and with COUNT alone it yields exactly that many occurrences. between() returns None in the end whatever the rule, if the years are below 260000. With interval 0 the start is yielded again and again, up to COUNT.", "quantifier": "every component, rule and range", "why_tests_cant": "unbounded iteration", "anchors": ["src/iter.rs: Recur::next, between", "src/properties/recur.rs: Add"]}
{"id": "C74", "title": "The text of each value", "statement": "Every date, time, duration, offset, number, enumerated name, position, geographic position, period, trigger, request status and recurrence rule is written as exactly one text, which is the one its format prescribes (zero padded, fixed signs, the items of a rule in a fixed order, absent items left out); a rule or a status cannot be written under another name.", "quantifier": "every value", "why_tests_cant": "all values", "anchors": ["src/properties/date.rs: Display", "src/properties/duration.rs: Display", "src/properties/recur.rs: Display", "src/properties/status.rs: Display", "src/properties/geo.rs", "src/properties/period.rs", "src/properties/trigger.rs", "src/ser.rs"]}
{"id": "C75", "title": "The text of each component", "statement": "For every component the text written is exactly: the frame around one line per non-empty property in the order of declaration; a single value with its parameters, several values joined by commas in one line without parameters, all extension properties of a kind in one line, several sub-components in one line, lines folded. Writing panics exactly if no such text exists (a line that cannot be folded because a multi-byte character straddles the boundary) and never returns an error.", "quantifier": "every component", "why_tests_cant": "all components", "anchors": ["src/ser.rs", "derive/src/component.rs: ical", "src/components/*.rs"]}
{"id": "C76", "title": "Reading end to end", "statement": "For every text: it is read as a calendar, event, to-do, journal entry, free/busy time, time zone, standard or daylight part, or alarm v exactly if, after unfolding, it begins with that component written according to the grammar (case-sensitive frame with CRLF, content lines, nested components) and every property of v is the one the grammar gives to its value: for single properties the last line of that name, for repeated ones each line in order, and the lines of other names are the X- properties and the IANA properties.", "quantifier": "every text and every component value", "why_tests_cant": "all texts", "anchors": ["src/parser/mod.rs", "src/parser/components.rs", "derive/src/component.rs: TryFrom", "src/components/*.rs: FromStr"]}
{"id": "C77", "title": "Failures of reading, exactly", "statement": "For every text: reading it as a component panics exactly if, unfolded, it is framed as that component and the first thing in it that is not fine is a panicking one: sub-components in the order of the text first, then the required properties in the order of declaration (last line of each), then the other lines in the order of the text; panicking are durations and triggers longer than the largest duration, rules with items but without FREQ, periods without a second part, alarms without ACTION. On every other text that is not the component according to the grammar the parser error is returned.", "quantifier": "every text", "why_tests_cant": "all texts; the order of evaluation decides between error and panic", "anchors": ["src/parser/components.rs", "derive/src/component.rs: TryFrom", "src/components/valarm.rs: TryFrom", "src/parser/datatype.rs: duration, period", "src/parser/recurrence.rs"]}
{"id": "C78", "title": "What a written component is read as", "statement": "For every component whose texts contain no carriage return and whose parameters have names and values that stay in their line, and every component value w: if writing it gives a text, then that text is read as w exactly if, property by property, w holds what is read from the line of that property: a required value must have a non-empty text; an optional value with an empty text is absent; two or more values of a repeated property come back as one value containing all of them, except categories, resources, excluded dates and periods, which come back as the values of the joined text; extension properties come back as a single one that contains all of them. An event with an alarm, a time zone or calendar with two components of a kind, with a component and an extension property, or a calendar with an alarm is not read; an alarm is only read as the kind that its action says, and what that kind has no property for (the description of a display alarm read as audio, say) becomes an extension property.", "quantifier": "every component value and every candidate result", "why_tests_cant": "all pairs of component values; an equivalence, so it says both what is read and what is not", "anchors": ["src/ser.rs", "derive/src/component.rs: ical, TryFrom", "src/parser/components.rs", "src/components/*.rs"]}
{"id": "C79", "title": "What becomes of a selection, exactly", "statement": "Whatever the order of the occurrences: between(a,b) yields in all exactly the occurrences that remain when those at the beginning that start before a are dropped and then only those at the beginning that start before b are kept, and it ends exactly when the occurrences end or one is not kept; after(a) yields the rest after the dropped ones, and ends exactly if the occurrences do. They panic exactly when the iteration panics before that, or yields an occurrence whose start cannot be compared with the bound it is compared with (its day is outside chrono's range of years, which only happens to local date-times). A selection has one outcome, after None it gives None for ever, with a positive interval it comes to an end or a panic, without COUNT and UNTIL after() panics in the end, and with interval 0 and a start before a the first call never returns. at() of a local date-time is between that instant and 24 hours later.", "quantifier": "every component, rule, excluded dates and bounds; every number of calls", "why_tests_cant": "runs of unbounded length, never-returning calls and panics far in the future cannot be tested", "anchors": ["src/iter.rs: between, at, after, Iterator for Recur"]}
{"id": "C80", "title": "What is read is well-formed", "statement": "Whatever the text a component is read from: its texts and URIs contain no line break; its parameters have names of name characters, each once, and values without double quote or without semicolon and colon; its dates exist and are in the range of the calendar, its times are whole seconds before midnight (possibly a leap second, after a second 59); its durations are whole seconds in range, those of periods not negative; its offsets are whole minutes below a day; its numbers fit (priority up to 9, BY lists from -128 to 127, COUNT and INTERVAL up to 255); the items of lists have no comma and no parameters; a classification of its own is none of the standard names; its extension properties are filed under their names, none of which is a known name. So its iteration, unless the interval is 0, comes to an end or a panic, and the occurrences are in increasing order if the start has a time or the rule is not finer than daily (a start in local time: months and years in a zone whose answers are consistent, weeks and less if the clocks are not put back by as much as a step).", "quantifier": "every text and every component that is read from it", "why_tests_cant": "all texts", "anchors": ["src/parser/*.rs", "src/components/*.rs: FromStr", "derive/src/component.rs: TryFrom", "src/iter.rs"]}
{"id": "C81", "title": "Reading, writing and reading again", "statement": "Whatever text a component is read from: if its texts are not empty and need no escaping, its parameters no quotes, its years have four digits, its times are not local (unless the clocks show UTC), its own classification is in capitals, its floats survive, and it has at most one value of each repeatable property and no recurrence dates, alarms or extension properties, then the text that is written for it is read as the same component, however the first text was folded, ordered, padded or quoted.", "quantifier": "every text, every component read from it", "why_tests_cant": "all texts", "anchors": ["src/parser/*.rs", "src/ser.rs", "src/components/*.rs"]}
{"id": "C82", "title": "ASCII in, ASCII out", "statement": "A component whose texts, parameters, extension names and values contain only ASCII characters is always written (no panic, no error), and its text is ASCII; and a component read from an ASCII text has only ASCII texts, so that writing it again always succeeds. (With other characters a component that was read may panic when written.)", "quantifier": "every component value with ASCII texts, every ASCII text", "why_tests_cant": "all texts and values", "anchors": ["src/ser.rs", "src/parser/*.rs", "src/components/*.rs", "derive/src/component.rs"]}
{"id": "C83", "title": "What a call of the iterator does, exactly", "statement": "For a component with a start and a rule, a call of next looks at the dates of the steps one after the other, from the start, going on while the date is not after UNTIL and the next one is excluded. It yields the component, and moves on to that next date with one less in COUNT, exactly if it arrives at one that is not excluded and COUNT is not 0; it returns None exactly if it gets to a date after UNTIL, or arrives with COUNT 0; it panics exactly if it gets to a date that cannot be compared with UNTIL or from which the start or the end cannot be moved on; it never returns exactly if all dates are excluded and not after UNTIL. These are all the cases, and they exclude each other.", "quantifier": "every component, rule, excluded dates and number of rounds", "why_tests_cant": "unbounded iteration, all dates and time zones", "anchors": ["src/iter.rs: Recur::next", "src/properties/recur.rs: Add"]}
{"id": "C84", "title": "Formatting dates", "statement": "A format given to format is read in only one way as a sequence of characters and directives, and is written piece by piece. Turning it into a string panics exactly if it is no such sequence, or asks a date for a time of the day, or a date or floating date-time for a time zone. Text without % is written as it is; %Y%m%d, %Y%m%dT%H%M%S (and Z for local date-times) write what is written in a calendar; numbers (month, day, day of the year, hour, minute, second, nanosecond) are those of the clocks, padded with zeros or, with a modifier, with spaces or not at all; the names of days follow the week in which 1 January 2024 is a Monday; %U and %W count the weeks from the first Sunday or Monday of the year, %G and %V are year and week after ISO 8601 (those of the Thursday of the week); %s counts the seconds from 1970, for a local date-time from its instant; offsets are written exactly or rounded to minutes; shorthands (%F, %T, %c, ...) can be replaced by what they are short for. Without directives of the zone and %s a local date-time is written like the wall-clock time it shows.", "quantifier": "every format, every date, floating and local date-time, every time zone", "why_tests_cant": "all formats and all dates", "anchors": ["src/properties/date.rs: DateTime::format, Date::format, Display"]}
{"id": "C85", "title": "Components follow from their declarations", "statement": "What a component reads and writes is determined by the declaration of its struct, as the derive macro turns it into code: for any declaration the property of a field is named by its identifier in capitals with hyphens for underscores, fields with different identifiers have different properties, there is one arm for each field that is not ignored, whether it must be present, replaces, is added or is flattened depends only on how its type is written (Option<..>, Vec<..>, anything else - a longer path to Option counts as required), and every field is written in the order of the declaration. And for each of the eleven component structs of the library, the code made from its declaration compiles and reads and writes exactly as all the properties about that component say; the same for the rule (Recur) and the macro Serialize.", "quantifier": "every declaration of a struct (identifiers, written types, attributes); every list of lines and every value for the eleven components and the rule", "why_tests_cant": "tests exercise the generated code for some inputs, not the generator for all declarations", "anchors": ["derive/src/component.rs: impl_macro", "derive/src/serialize.rs: impl_macro, Field::name", "derive/src/lib.rs: is_option, is_vec, tyname", "src/components/*.rs: struct declarations", "src/properties/recur.rs: Recur"]}
{"id": "C86", "title": "Equality of components", "statement": "Two alarms, standard or daylight times or time zones are equal (==) exactly if they are the same value; two events, to-dos, journals, free-busy components or calendars are equal exactly if they differ at most in coordinates and status codes that are equal as floats. Equality is symmetric and transitive; a component is equal to itself or to its clone exactly if it contains no NaN. Iterating over equal components gives, call by call, the same outcomes with equal items, and equal selections. If equal floats are written in the same way then equal components are written in the same way (0.0 and -0.0 are equal and written differently, so in general they are not).", "quantifier": "every pair (triple) of components, every symmetric and transitive equality of floats, every sequence of calls", "why_tests_cant": "all pairs of values and all runs of the iterator", "anchors": ["src/components/*.rs: derive(PartialEq)", "src/properties/{geo,request_status}.rs: derive(PartialEq)", "src/iter.rs"]}
{"id": "C87", "title": "Adding a rule to a date or time", "statement": "rule + date on a chrono date gives the date the interval of days, weeks, months (clipped to the end of the month) or years later, the same date if the rule is in hours, minutes or seconds, and panics exactly if there is no such date in the range of years (29 February and a common year included). On a floating time it gives the time the interval later. On a local time, seconds to weeks count the time that passes, whatever the clocks show, and months and years move what the clocks show, with a panic if the result is shown never or twice (and, for years, if it is a leap second in the very last second of the range). The operators on the crate's own Date and DateTime agree with these; a day moved by hours, minutes or seconds becomes a floating time counted from its midnight.", "quantifier": "every rule (interval up to 255), date, time and time zone", "why_tests_cant": "all dates, times and zones", "anchors": ["src/properties/recur.rs: impl Add<NaiveDate>, Add<NaiveDateTime>, Add<DateTime<Local>>, Add<DateTime>, Add<Date>"]}
{"id": "C88", "title": "Consecutive selections", "statement": "If a, b and c are all days or all times and in order, between(a,c) yields exactly what between(a,b) yields followed by what between(b,c) yields: nothing is lost at the boundary, nothing comes twice, in whatever order the occurrences are. Likewise after(a) and between(a,b) followed by after(b); pages cut at any number of bounds; and at() for one day after the other compared with between over all these days. A window within a window yields a contiguous part, an empty or reversed window nothing. With mixed days and times as bounds this fails.", "quantifier": "every component, bounds in order, any number of pages or days", "why_tests_cant": "runs of unbounded length, all bounds", "anchors": ["src/iter.rs: between, at, after"]}
{"id": "C89", "title": "Which errors can be seen, and what they say", "statement": "Reading a component, a rule, a weekday, a numbered weekday, a position, a request status or a period fails with the parser's error and no other; a date or date-time with chrono's; a trigger with that of an integer or a duration; making a date-time local only with the local-time error. A text that is no status, transparency or frequency is quoted word for word in the message. Writing never returns an error. So of the thirteen errors only eight can be seen: a bad priority, action or weekday is refused with its own message, but the parser's error hides it.", "quantifier": "every text, value and error", "why_tests_cant": "all texts", "anchors": ["src/errors.rs: Error", "src/parser/mod.rs", "src/properties/*.rs: FromStr", "src/components/*.rs: FromStr, TryFrom<Component>"]}
{"id": "C90", "title": "Frequencies compared", "statement": "Frequencies are ordered from secondly to yearly and weekdays from Sunday to Saturday. Of two rules with the same start, every later step (the first, the second, ...) of the one with a longer frequency and no shorter interval, or the same frequency and a longer interval, is later: on floating times (leap seconds included) and, if the rules are not finer than daily, on dates. With the same interval the steps of a weekly rule are every seventh step of the daily one, those of a daily rule every 24th of the hourly one and so on, on floating and local times (weekly and daily also on dates), panics included; those of a yearly rule are every twelfth of the monthly one on days up to the 28th, but not on 31 January.", "quantifier": "every pair of rules, every start and number of steps", "why_tests_cant": "all dates and any number of steps", "anchors": ["src/properties/recur.rs: Freq, Weekday (derive Ord), impl Add"]}
{"id": "C91", "title": "Whatever struct the component is derived for", "statement": "For every struct with #[derive(Component)] whose generated code compiles, not only those of the crate: converting property lines succeeds with a value exactly if that value has, in each field that is not ignored, what its written type says (plain: the value of the last line of the property, which must be there; Option: that of the last line if there is one, all lines being readable; Vec: the values of all lines in order; Vec with append: all the values of all lines in order), in x_prop and iana_prop the last line of each name without a field, and in every other ignored field the default. Its text has every field, ignored or not, in the order of the declaration, each under the name of its property, between BEGIN and END. The eleven components of the crate are instances.", "quantifier": "every declaration of a struct, every struct with those fields, every list of lines and every value", "why_tests_cant": "a test can only derive the macro for some structs", "anchors": ["derive/src/component.rs: impl_macro", "src/components/*.rs"]}
{"id": "C92", "title": "How the conversion of lines fails", "statement": "For every struct with #[derive(Component)] whose generated code compiles, and for every component of the crate: converting property lines fails exactly with the first fault. The fields that must be given come first, in the order of declaration: a missing one gives the parser's error, one whose last line cannot be read the error or panic of that line; then the lines of the other fields, in the order of the lines. Each property has its own error: numbers that of an integer, a priority from 10 to 255 one with the number, a status or transparency one with the value, an offset chrono's, all others the parser's; texts, addresses and classes give none. An alarm without ACTION panics, one of an unknown kind gives the error with that kind.", "quantifier": "every declaration of a struct, every list of lines and every failure (error or panic)", "why_tests_cant": "all lists of lines, in every order, for all structs", "anchors": ["derive/src/component.rs: impl_macro", "src/components/valarm.rs: TryFrom<Vec<ContentLine>>", "src/parser/*.rs", "src/errors.rs"]}
{"id": "C93", "title": "The recurrence set of RFC 5545", "statement": "For rules without BY parts (RFC 5545 3.3.10), an interval of 1 to 255, and a start that is a day (with a rule of days or longer), a floating time, or an instant (with a rule of weeks or shorter), all visited months having the day of the start: iteration yields an occurrence at a date exactly if the date is in the recurrence set of the RFC (a multiple of the interval in seconds, minutes, hours, days, weeks later; the same day of a month or year that is a multiple of the interval later), is the start or not an excluded date, has fewer than COUNT such dates before it (excluded dates do not count, unlike in the RFC), and is followed by another date of the set that is in range and not excluded, all dates before which are not after the day of UNTIL. Without excluded dates: exactly if it is in the set, not after the day of UNTIL, preceded by fewer than COUNT dates, and not the last in range. Days up to the 28th and all anniversaries but 29 February are always within this. The deviation: where a visited month is shorter than the day of the start, the set of the RFC leaves that month out, while from that month on no step of the iteration is in the set, and no later date of the set ever comes.", "quantifier": "every recurring component, rule, start and date; every iteration", "why_tests_cant": "infinitely many dates; the claim is about which dates never come, too", "anchors": ["src/iter.rs: Recurring::next", "src/properties/recur.rs: Add<Recur> for Date, DateTime, NaiveDate, NaiveDateTime"]}
{"id": "C94", "title": "The numbers of positions and request statuses", "statement": "Positions and request statuses hold 32-bit floats. A number is a sign, digits with or without a point and an exponent, as long as possible, or nan, inf or infinity in any case; it is read as the nearest float, an even one if two are, or infinity. A position shows a finite float with the fewest digits that are read as it (the nearest such number with these decimals), without exponent; so every coordinate is read back as it was, except minus infinity, whose text is an error: a position such as -1e39;0 can be read but not read again once written. Numbers with at most six digits, and coordinates below 1000 with at most four decimals, come out as the same number; the six decimals of RFC 5545 need not. A status code shows the nearest tenths (even ones if two are): codes with one decimal and up to seven digits come out as they were; a code is read back as it was exactly if some tenths are read as it, and what was written once no longer changes. Equal floats are written alike except 0 and -0.", "quantifier": "every text, every float, every decimal number", "why_tests_cant": "four billion floats, infinitely many texts and decimal numbers", "anchors": ["src/properties/geo.rs: Geo, Display", "src/properties/request_status.rs: RequestStatus, Display", "src/parser/descriptive.rs: geo", "src/parser/misc.rs: request_status"]}
{"id": "C95", "title": "What a parser error says", "statement": "When reading fails, the error is the list of what nom reports, from the inside out. For a component it is one entry, and for an event, a time zone and a calendar a second one with its name and its whole unfolded text: if the opening line is missing, the whole text; if, after all property lines and parts that can be read, something else than the closing line follows, the text from there on; otherwise the whole text and no word about which property is wrong. So the error of a calendar shows the first component that cannot be read, whatever the fault and however far inside, and the error of a component with a wrong or missing property does not tell which. Every text in an error is an end of the unfolded input. Weekdays, numbered weekdays, dates, durations, triggers, periods, rules, positions and request statuses have their own entries; those of a trigger are those of a date-time even if the text begins like a duration. The message writes the list with Debug; the entries can be recovered from it whatever the texts are, and so the message of a calendar contains its whole text.", "quantifier": "every text, every failure of every reader", "why_tests_cant": "every text that cannot be read", "anchors": ["src/errors.rs: From<nom::Err<VerboseError>>", "src/parser/mod.rs: context", "src/parser/components.rs", "src/parser/datatype.rs", "src/parser/recurrence.rs: rrule", "derive/src/component.rs: FromStr"]}
{"id": "C96", "title": "What Debug tells", "statement": "Two components that were read have the same Debug text exactly if they are the same value, in the plain form ({:?}) as well as in the pretty one ({:#?}): what a user sees in a log or in a failed assertion tells the value, whatever quotes, braces, commas or line breaks are in its texts. (Except that the name of a property line is not shown - in a component it is the key of the line - and that a leap second in local time is shown as the next second where clocks differ from UTC by other than whole minutes.) The same holds of every property value: dates, times, offsets, durations, periods, rules, triggers, positions, statuses. The plain form is one line. Each struct is shown with its name and all its fields in the order of declaration, each enum with its variant; a date as year-month-day, a local time with the offset of its instant, a finite float with the digits of Display and in scientific notation from 1e16 on and below 1e-4, and it can be read back from that.", "quantifier": "every pair of values that were read from any texts, every text in them, every float", "why_tests_cant": "pairs of arbitrary values with arbitrary texts inside", "anchors": ["src/content_line.rs: Debug for ContentLine", "src/components/*.rs: derive(Debug)", "src/properties/*.rs: derive(Debug)", "derive/src/macros.rs"]}
{"id": "C97", "title": "Why a text is refused", "statement": "What an error says about a text that is not what it should be. An integer: that it is empty, that a digit is invalid, or that it is too large or too small, whichever fault comes first from the left. A date or a date-time: what is wrong with it as a date-time that ends with a Z - the first part (year, month, day, T, hours, minutes, seconds, Z) that is missing decides whether the input ended too early, has an invalid character or is out of range; more after the Z is trailing input; a day that does not exist is out of range. So a floating date-time or a date on a day that does not exist is said to end too early. An offset: the sign, the hours, the minutes and the range. A duration (in the macros, and in triggers, where the error about the date-time is dropped): the whole text if it has no P, otherwise the digits - not the letter - before the first unknown unit, or that there are none or too many before a known one. A floating time that the local clocks skip is shown in full. Apart from what the errors say, these are the results of the other properties.", "quantifier": "every text, every floating time, every time zone", "why_tests_cant": "all texts that are refused, with every fault at every place", "anchors": ["src/errors.rs: Error", "src/properties/date.rs: FromStr for DateTime and Date, TryFrom<DateTime> for chrono::DateTime<Local>", "src/lib.rs: parse_duration", "src/properties/trigger.rs: FromStr", "src/parser/timezone.rs: tzoffsetfrom, tzoffsetto"]}
{"id": "C98", "title": "Errors as values", "statement": "Two errors have the same Debug text, plain or pretty, exactly if they are equal (for an error that holds a date-time: one that can be read). The plain text is one line, even for a parser error, whose message has many. Among errors of one variant the message already tells which error it is; across variants it does not. An error has a source exactly if chrono or the standard library refused a date, an offset or an integer, and then its message is that of the source. The message of a parser error is the pretty Debug text of nom's error, and two refused texts give equal parser errors exactly if the parser stopped in the same way at the same rests.", "quantifier": "every pair of errors, every refused text", "why_tests_cant": "pairs of errors with arbitrary texts inside", "anchors": ["src/errors.rs: Error, From<nom::Err<VerboseError>>", "src/lib.rs: parse_duration", "src/properties/date.rs: TryFrom<DateTime> for chrono::DateTime<Local>"]}
{"id": "C99", "title": "RFC 5545 texts", "statement": "Of the texts that RFC 5545 allows: a content line other than BEGIN: and END: is read, with its name, its value and what its parameters say, if every parameter is one quoted string, or starts with a value without quotes and has no ; and : in the quoted values after it; and of a line whose parameters have different names only then. A line with several values of a parameter of which the first is quoted (such as MEMBER with two addresses) is not read, nor is any component or calendar with such a line. A colon in a quoted value after a value without quotes silently ends the parameters: the rest becomes the value of the line. ikal unfolds a text as RFC 5545 says exactly if no fold is made with a tab. A text without such folds and such lines, written as in RFC 5545 3.6 (lines, then parts), is read as a to-do, journal entry, free/busy time, alarm, standard or daylight saving time, event, time zone or calendar exactly if this is what its lines and parts say; so alarms in to-dos and components of other kinds in a calendar are never read.", "quantifier": "every content line and every tree of components of the grammar of RFC 5545, any folding with spaces, any text after it", "why_tests_cant": "all trees of lines, of any depth and length", "anchors": ["src/parser/mod.rs: content_line, param, params", "src/content_line.rs", "src/parser: all components", "src/lib.rs: FromStr"]}
{"id": "C100", "title": "What is written is RFC 5545 text", "statement": "Whenever a component whose texts have no control characters other than line feeds, whose parameters have names that are tokens and values without double quote, semicolon and colon, which has at most one component of each kind inside and not components as well as extension properties, is written, the text unfolds (as RFC 5545 3.1 has it: CRLF and a blank are removed) to the text of a component of the RFC: BEGIN, content lines of the grammar with the parameters unquoted, the components inside, END. This holds for alarms (by themselves), events without alarms, to-dos, journal entries, free/busy times, the parts of time zones, time zones and calendars without alarms of their own. In a text of the RFC, unfolded, there is no carriage return but in line ends and no line that does not begin with a name: so a text with a carriage return and a calendar with two journal entries are written as something else. And whatever the texts are: an event with alarms, a time zone with two parts of a kind or with parts and extension properties, and a calendar with alarms, two components of a kind, an event or a time zone of these sorts, or with components and extension properties is never written as text of the RFC, not even as that of another component.", "quantifier": "every component that meets the conditions, any text of any length, with parameters and extension properties", "why_tests_cant": "all values of all fields, every fold position", "anchors": ["src/ser.rs: ical, field, fold", "derive/src/component.rs: ical", "src/components: all"]}
{"id": "C101", "title": "Saving and loading again and again", "statement": "What a component that is written and read back n times in a row has become, for every n. A text has n more backslashes before each semicolon and comma, and its line breaks are a backslash and n from the first save on; so it grows by n times the number of its semicolons and commas and never comes to rest, unless it has neither. Parameters are kept. An empty optional text and a single empty text of a list are gone. Several texts of a list become one text without parameters, joined by commas, at the first save; resources and categories are split at their commas. Extension properties become one at the first save and get the name of that field in front at each save. A floating time loses its fraction of a second, an instant moves by the offset of the local zone each time (by n times the offset where it never changes). A duration is kept if it is whole seconds and else becomes zero; an offset loses its seconds; numbers, statuses and dates stay. A classification of one's own is put in capitals each time, and becomes the standard one of that name; an ASCII one comes to rest at once. A position stays, and can be saved exactly if neither coordinate is minus infinity. A component with recurrence dates cannot be saved and loaded even once. An event with alarms, a calendar with alarms, one with two components of a kind, or with components and extension properties, cannot be saved once. An alarm is, from the first save on, of the kind that its action names. A component that meets the conditions of C46 stays as it is, however often it is saved.", "quantifier": "every component whose texts have no carriage return, every number of saves, every time zone", "why_tests_cant": "histories of any length", "anchors": ["src/ser.rs: ical, escape, field, fold", "derive/src/component.rs: ical, FromStr", "src/components: all", "src/properties: Display"]}
{"id": "C102", "title": "The local time zone", "statement": "What the local time zone of the machine can change. Reading a component: nothing, on every text: machines alike except for their zones read the same component, or refuse it with the same error. Writing: only the instants (the times written with Z): a component is written alike in two zones whose offsets agree at each instant in it, in particular everywhere if it has none, and an instant is written alike only in zones with the same offset at it. Comparing days and floating times, and selecting by them, is the same in all zones; comparing instants is if the offsets at them agree. Iterating is the same in all zones if start and end are days or floating times, or instants with a rule of weeks or shorter and no UNTIL; months and years after an instant are counted by the local clocks. A date, time or trigger read alone, not in a component, is the same in all zones unless its text ends in Z: then, unlike in a component, it is the instant at which the local clocks show that time, and a panic if there is none or more than one.", "quantifier": "every text, every component, every two machines that differ only in their zones, however irregular, every call of the iterators", "why_tests_cant": "it compares two machines, and tests run in one zone", "anchors": ["src/properties/date.rs: Display, FromStr, Ord, naive", "src/parser/datatype.rs: date_time, date_or_dt", "src/properties/recur.rs: Add", "src/iter.rs: next, between, at, after"]}
{"id": "C103", "title": "Reading takes linear time", "statement": "However a text is made, reading a component from it looks at characters of it at most 14 times as often as the text has characters, and 17 times more, whether the component is read, refused or the call panics: nested components, alternatives that are tried in vain, lines that are no content lines and quotes that are not closed do not add up. (Counted are the comparisons of characters by the parsers of lines and components; not counted are the removal of folded line breaks before and the conversion of the values after.) No character that is consumed is left out of the count.", "quantifier": "every text, of any length", "why_tests_cant": "a bound for all lengths; the worst texts are not known beforehand", "anchors": ["src/parser/mod.rs: content_lines, param, quoted_param", "src/parser/components.rs: all", "derive/src/component.rs: FromStr"]}
{"id": "C104", "title": "Texts cut short", "statement": "A file of which the end is missing (the program that wrote it was interrupted, the disk was full, it has not arrived yet) is not taken for a whole one. If a text is read as a component and every quotation in it that is closed is closed on its line, then whatever the text is cut to, at any character, is refused with the parser error or read as the same component, never as another one. If the text ends with the END line of the component, anything less than the whole is refused; of a calendar only the last line break may be missing. The same holds, whatever quotes there are, for the texts of RFC 5545, in particular for what the library wrote itself. Such texts of RFC 5545, with some of them missing, are never read as a component, even if the whole text cannot be read either. (It is no protection when a file is written over in place: a mix of the new and the old text can be read as neither.)", "quantifier": "every text that is read as a component, every place to cut it", "why_tests_cant": "it ranges over every text and every crash point in it", "anchors": ["src/parser/components.rs: all", "src/parser/mod.rs: content_lines, parse_lines, quoted_param", "derive/src/component.rs: FromStr"]}
{"id": "C105", "title": "Saving what was read does not blow up", "statement": "There is a number such that, whatever text is read as a component, the text that is written for the component is at most that many times as long as the text that was read: backslashes, folds, values that are written in a longer form, attributes and properties that are nested or repeated make the text longer by a factor at most, never quadratically, however deep the components are nested and however many properties, parameters and values they have. So n saves, one after the other, multiply the length by at most the n-th power of the number. The number is the same for all machines whose numbers and capital letters are written with boundedly many characters and whose zone is less than a day from UTC, and with 32-bit floats the first is always so.", "quantifier": "every text that is read as a component, of any length, every number of saves, every machine", "why_tests_cant": "a bound for all lengths and all values", "anchors": ["src/ser.rs: ical, escape, field, fold, split", "derive/src/component.rs: ical, TryFrom", "derive/src/serialize.rs", "src/components/valarm.rs: Serialize", "src/parser/components.rs: all", "src/properties: Display"]}
{"id": "C106", "title": "Editing a text", "statement": "What another program, or a hand, changes in a file changes only that in what is read from it. If the lines of one property of a component are added, removed, changed or moved in an RFC 5545 text, and both texts are read, then every field is read as before except that of the property, and of the properties that are not known only the one of that name (the kind of an alarm is its ACTION and changes with it). If some of the alarms of an event, parts of a time zone or components of a calendar are changed, removed or added, then all other fields and all other parts are read as before, in the same order. Such an edit of the lines of a property that is not known never makes a text unreadable. So an edit of one property of one component of a calendar changes one field of one component. And if one field of a component is given another value and it is written again, then only the lines of that field change in the text: before and after them it is the same, character by character, so a file that is kept under version control shows what was changed and nothing else.", "quantifier": "every RFC 5545 text of each component, every edit of the lines of one property or of parts in one place, wherever the texts are folded; every component that can be written, every field and every value of it", "why_tests_cant": "it compares two texts, over all edits", "anchors": ["derive/src/component.rs: TryFrom, FromStr, ical", "src/parser/components.rs: all", "src/parser/mod.rs: content_lines", "src/ser.rs: ical, field"]}
