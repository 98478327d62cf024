# Formal model of sanpii/ikal in Lean 4

## What is modelled, and where

All of `src/` and the code generated by `derive/src/{component,serialize}.rs`
is modelled, function by function, by total computable Lean functions. Strings
are `List Char` (Lean's `Char` is a Unicode scalar value, as Rust's `char`);
octet lengths are sums of UTF-8 sizes. Panics are explicit results
(`Res.panic`). A loop that may not terminate takes fuel, and running out of
fuel is a separate result; theorems quantify over all fuels.

| Lean module | models |
|---|---|
| `Verif/Basic.lean` | `src/errors.rs`, `Result` with panic as a value, strings, sorted maps |
| `Verif/Nom.lean` | the nom combinators used by `src/parser` |
| `Verif/Num.lean` | Rust integer `FromStr`/`Display`, nom's `i8` |
| `Verif/Chrono.lean` | the part of chrono 0.4 that ikal calls |
| `Verif/Ser.lean` | `src/ser.rs` |
| `Verif/Line.lean` | `src/content_line.rs`, `src/parser/mod.rs` |
| `Verif/Values.lean` | `src/properties/*.rs`, `src/parser/{datatype,recurrence,misc,...}.rs`, `src/lib.rs: parse_duration` |
| `Verif/Format.lean` | `DateTime::format`, `Date::format` (`src/properties/date.rs`) and the strftime items of chrono |
| `Verif/Derive.lean` | `derive/src/component.rs` as a function of the field table |
| `Verif/Generate.lean` | the macros of `derive/src/{component,serialize}.rs` themselves, as generators of code from declarations; the declarations of `src/components/*.rs` and `Recur` |
| `Verif/Equality.lean` | `PartialEq` of values and components |
| `Verif/Float.lean` | 32-bit floats: `nom`'s `float`, `{}` and `{:.1}` (IEEE 754 binary32) |
| `Verif/Orders.lean` | `Ord` of frequencies and weekdays |
| `Verif/Messages.lean` | `src/errors.rs`, the messages of errors |
| `Verif/Trace.lean` | the errors of nom (`VerboseError`) in all parsers of `src/parser`, and `src/errors.rs:33-37` |
| `Verif/Cost.lean` | the number of characters the parsers of lines and components look at (`src/parser/mod.rs:60-148`, `src/parser/components.rs`), with nom's combinators |
| `Verif/Debug.lean` | `Debug` (`{:?}` and `{:#?}`) of every public type: `src/content_line.rs:14-21`, `derive(Debug)` in `src/components/*.rs`, `src/properties/*.rs` and `derive/src/macros.rs` |
| `Verif/Reasons.lean` | the payloads of the errors (`src/errors.rs:7-17`): `std`'s integers, chrono's `format::parse` and `FixedOffset::from_str`, `src/lib.rs:126-181`, `src/properties/date.rs:71-83,110-124,189-199`, `src/properties/trigger.rs:24-34` |
| `Verif/Failure.lean` | `src/errors.rs:3-37`: `Error` with all payloads, equality, `Debug`, `Display`, `source`, conversions |
| `Verif/Components.lean` | `src/components/*.rs`, `src/parser/components.rs` |
| `Verif/Iter.lean` | `src/iter.rs` |
| `Verif/Macros.lean` | `derive/src/macros.rs`, `valarm!` of `src/lib.rs` |
| `Verif/TestPlatform.lean` | a concrete platform, for the examples only |
| `Verif/Conformance/*.lean` | the repository's own tests, replayed on the model |

Specifications are in `Verif/Spec/*.lean`; they mention the model's data types
but none of its functions, except where a specification is *about* a function
that another property pins down (for instance "the text written for x"). Helper
lemmas are in `Verif/Lemmas/*.lean`, the property theorems, named `Cnn_...`, in
`Verif/Props/*.lean`. Each property file ends with an `Examples` section that
shows a concrete case meeting the hypotheses.

### What is a parameter

`class Platform` collects what the program gets from its environment and what
is not worth modelling. Every theorem holds for every instance.

* `F32`, `floatParse`, `floatShow`, `floatShow1`: 32-bit floating point numbers
  with their textual forms (`GEO`, `REQUEST-STATUS`). Nothing is assumed about
  them; where a round trip needs `parse (show x) = x` it is a hypothesis about
  the value.  `Verif/Float.lean` has what they are, IEEE 754 binary32 with Rust's
  and nom's texts (`ieee P`, for any platform `P`), and C94 says which values meet
  these hypotheses.  There is one NaN in it, and exponents are not limited.
* `tzOffset`, `tzLocal`: the local time zone (`chrono::Local`): the offset of a
  UTC instant, and the none/single/ambiguous answer for a wall-clock time.
* `upperNonAscii`: `char::to_uppercase` outside ASCII.
* `overflowChecks`: whether the crate is built with overflow checks (debug) or
  wraps (release); theorems hold for both unless they say otherwise.

`class Centuries` (only in `Verif/Format.lean` and C84) is what the formatting
directive `%C` writes for years outside 0 to 9999: it differs between versions of
chrono 0.4.  The other directives are those of chrono 0.4.40 and later.

`class FloatEq` (only in `Verif/Equality.lean` and C86) is `==` on `f32`, assumed
symmetric and transitive. Round-trip theorems use identity of model values, which is
stronger.

`class Payloads` (only in `Verif/Messages.lean` and C89) is the text inside the
errors the model keeps no payload of (chrono's, nom's, `ParseIntError`).

`class FloatTrace` and `class DebugChars` (only in `Verif/Trace.lean`, `Verif/Debug.lean`, `Verif/Reasons.lean`, C95 to C97) are the
entries of nom's `float` when it fails, which differ between versions of nom, and the
table of characters outside ASCII which `Debug` writes as they are.  `class FloatDebug`
(C96) is `Debug` of `f32`; the hypothesis `LawfulFloatDebug` on it is proved for the floats
of `Verif/Float.lean` (`C96_float_tells`).

`TryFrom<String>` and `TryFrom<&str>` of every type are `value.parse()`, so what is proved of `FromStr` holds of them;
they have no definition of their own in the model.

### What is not modelled

* In the component macros (`derive/src/macros.rs`, modelled in
  `Verif/Macros.lean`), expressions of `syn::Expr` other than literals, negated
  literals, names and enum variants with a string.  What the Rust compiler does
  with the expansion (type checking, `into`, `parse`, `?`) is modelled for the
  types of the crate and is part of the trusted base.
* `Clone` and `Hash` derivations.
* Allocation failure, stack overflow, and the depth limits of the machine.
* The contents of error values from chrono, of `ParseIntError` and of nom are not in the
  main model, which keeps only the variant, and the payload where the enum carries a value
  such as `Error::Priority(n)`. They are in `Verif/Trace.lean` (nom) and
  `Verif/Reasons.lean` (chrono, integers, durations, local times), proved to be the same
  programs; what chrono says about a value inside a calendar never reaches the user, as it
  becomes nom's `MapRes`.
* All range checks of chrono (dates, instants, wall-clock times shown at the ends of
  the range, and the one after `with_year`) are modelled, as panics or failures.

## Proof plan per property

| id | what is modelled | how it is proved |
|---|---|---|
| C01 | `field`, `fold`, `unfold` on characters with UTF-8 lengths | chunk induction; the proviso is shown necessary by a counterexample theorem |
| C02 | same | chunk induction on octet lengths; refutation of the RFC bound |
| C03 | same; slicing inside a character is a panic | `iff` by arithmetic on prefix lengths |
| C04, C05 | `escape` | structural induction; independent RFC unescaping in `Spec/Text` |
| C06 | writer + property parser | `iff`, through C01 and C07 |
| C07-C10 | content line parser built from nom combinators | `iff` against an existential grammar in `Spec/Line` |
| C11, C12 | `many0` of lines | well-founded induction on the remaining length |
| C13-C18 | derive macro as a function of a field table | one induction over the table, instantiated for each of the eleven components; `C14_X_iff` is a complete characterisation, `C14_X`, `C15_X`, `C16_X` spell out its clauses; `C15_X_commas` says what the values of comma separated lines are |
| C19-C21 | component parsers | `iff` against `Spec/Document` |
| C22 | all value parsers | panic `iff` per parser |
| C23-C30 | names, numbers, rules | `iff` against the grammar in `Spec/Rule`, `Spec/Num`; induction on digits |
| C31-C34 | durations and offsets | arithmetic; grammar `Spec/Duration` with both directions |
| C35-C37 | chrono dates, strftime-like formats | `Spec/Calendar`, `Spec/DateText`; `omega` |
| C38-C42 | periods and comparisons | direct; refutations where the code breaks the law |
| C43 | derived serialiser | table induction |
| C44 | `field` | direct, then through the table and the parser (`C44_X_read`) |
| C45, C46 | writer then parser | line level round trip lifted through the table and nesting |
| C47 | writer then parser, on *tidy* components | what the text is read as is determined; multi-component text shown unreadable by a guard invariant (`Lemmas/Guard`) on folded texts |
| C48-C55, C62, C64 | `Recur::next` as a fuelled loop over a state | invariants over all runs |
| C56-C61, C65 | `Add` for rules | closed forms from the calendar lemmas |
| C63 | `between`, `at`, `after` | list induction over unfoldings of the iterator |
| C66 | day arithmetic | against an inductive "tomorrow" |
| C67 | writer then parser on nested components | uniqueness of reading, piece by piece |
| C68 | `Date`/`DateTime` conversions and operators | against wall-clock order and seconds, for every consistent zone |
| C69 | `Serialize::attr` of dates, triggers, lists; value parsers | written line read back; independence of parameters |
| C70 | all value parsers of `src/parser` | iff with declarative grammars (Spec/Grammar) |
| C71 | `derive/src/macros.rs` (parsing, expansion), the Rust types of all fields, evaluation of the expansion | refinement of an independent meaning relation (Spec/Macros), by induction on values; uniqueness of the meaning |
| C72 | the same, `None` of the evaluator is a compile error | iff theorems over all structs and fields; per-field facts by case analysis of the finite table of fields, values universally quantified |
| C73 | `next`, `between` as in C48–C63 | the progression of dates leaves the calendar (C56–C58), so by induction on its length every run stops; panics are located by the year of the position, starts and ends keep their distance |
| C74 | `Display`/`to_string` of every value | equality with an independent description of the text (Spec/Output) |
| C75 | `Serialize` of every component | iff with an independent description of the lines (Spec/Output); `panic` iff no text fits |
| C76 | `FromStr` of every component | `ofStr s = .ok v` iff the unfolded text is related to `v` by the grammar in Spec/Reading, which uses no reader of the model |
| C77 | `FromStr` of every component, failing | `ofStr s = .panic` iff the independent description in Spec/Failing; `.err .parser` iff neither it nor the grammar of C76 |
| C78 | writing then `FromStr` of every component | for tidy `v` with `ical v = .ok t`: `ofStr t = .ok w` iff `Back.XProps v w` (Spec/Echo: text of the value per Spec/Output, line, value read per Spec/Reading), and for components with components `Back.XBack`; for an alarm of any action `Back.AnyKind` (Spec/Kinds) |
| C79 | `Range` (`between`, `at`, `after` with std's `SkipWhile`, `TakeWhile`), `next` | iff-characterisations of `Selects`, `SelectsThenPanics` in terms of runs of `next` (`C79_..._comparable`: and `dropWhile`, `takeWhile` on lists, where every comparison is possible); determinism by monotonicity in the fuel; fate from C73; interval 0 by induction on the fuel |
| C80 | everything that reads (C76) | the grammars of C76 imply the predicates `ReadX` of `Spec/Sound.lean` property by property; then C60, C63 and C73 for the iterations |
| C81 | everything that reads and writes | C80 and the predicates `KeptX` give the hypotheses of C45 and C46 |
| C82 | everything that reads and writes | predicates `AsciiX` on components; each serializer keeps ASCII and an ASCII line can always be folded (one octet per character); the grammar of C75/C76 only gives parts of the text |
| C83 | `next` | iff-characterisations of the four outcomes by the dates of the steps (Spec/Call), by induction on the rounds |
| C84 | `DateTime::format`, `Date::format` with chrono's strftime items | format texts as a prefix-free code (Spec/Format lists the directives); per directive against numerals, the calendar (weeks by the first Sunday or Monday of the year, ISO 8601 by the Thursday of the week) and the clock; what `%C` writes outside four-digit years is a parameter |
| C85 | the derive macros as functions from declarations to code, and a meaning for that code | the code made from each of the eleven declarations (as written in `src/components`) compiles and equals the table-driven model that the other theorems are about: one lemma per kind of field, chained along the table; naming, kinds and arms for any declaration by induction |
| C86 | `#[derive(PartialEq)]` of all components, equality of floats as a parameter (`class FloatEq`: symmetric, transitive) | iff with an independent description (same but for floats); equality is respected by the operations of `Recurring`, so by induction by all calls |
| C87 | the five `Add` operators of `Recur` | iff with relations on the calendar (days counted from a fixed day, months by their index, years) that do not mention the operators |
| C88 | `between`, `at`, `after`, as complete runs (`Selects`) | from C80's description by take/drop-while of the occurrences: splitting lemma for prefixes, then induction over bounds or days; counterexample for mixed bounds |
| C89 | `Error` and its `Display`; all readers and writers | case analysis of the readers' results: which variants each function can return; messages computed |
| C90 | `Ord` of `Freq` and `Weekday`, steps of two rules | from the closed forms of C56-C58; a month is at least four weeks, also after clipping (induction over months) |
| C91 | `generate`, `Code.compile` and `Program` of C85 for any declaration; a struct is given by lawful getters and setters (`StructOf`) | the compiled code projected to the table of fields commutes with the table's own step (`Program.Fits.tryFrom`), then C13-C18's generic theorem; the declared parsers are those of the crate (`parserOf`) |
| C92 | the same, with `Res.err e`/`Res.panic` as outcomes; `VAlarm.tryFrom` for the dispatch on `ACTION` | `FirstFault` (`Spec/Faults.lean`) names the first fault; `Field.Faults` relates each field of the table to its declaration, induction over the fields for the struct literal and over the lines for the loop, transferred by `Program.Fits.tryFrom`; the errors of the properties by cases over the table of parsers |
| C93 | `Recur.add` and `next` as before | `InSet` (`Spec/Rfc.lean`) describes the set of RFC 5545 by membership, without stepping; the steps of the rule enumerate it in order (`set_seq`, from C56, C57, C58), then C54; `FewerThan` is said with duplicate-free lists and proved by counting; the deviation from C57's clamped months |
| C94 | `F32`: floats by sign and bits, `nearest` (rounding of any fraction), `parse` (nom's `float` and `str::parse`), `shortest` and `decimalText` (`{}`), `display1` (`{:.1}`), `eq` | the specification has IEEE 754's value of bits, the nearest float by distance to all floats, and the grammar of numbers; rounding is proved from the two neighbours of a number (`nearest_bounds`), the shortest decimal from monotonicity of rounding, round trips from both, exactness from the density of floats compared with decimals |
| C95 | the parsers again, with the entries of their errors (`Traced`), and the pretty `Debug` rendering of `nom::Err<VerboseError<&str>>` | forgetting the entries gives the other model of each parser (`Sim`, combinator by combinator); the entries are then characterised by `iff` against where reading stops (`Stops` and the specifications of the values); the message is injective because escaped characters are a prefix code |
| C96 | `Debug` of every type (`Dbg`): the calls of the builders of `core::fmt`, the plain and the pretty text they make, `Debug` of chrono's types and of `f32` | both renderings are injective on well-formed trees of calls (by recursion on the tree, with a set of texts that may follow; the pretty one through the inverse of indentation); the calls tell the value, type by type, for values that were read (C80); the forms of the texts against `Verif/Spec/Debug.lean` |
| C97 | the readers of integers, dates, date-times, offsets, durations, triggers and local times once more, with the payloads of their errors (`Told`); chrono's `format::parse` item by item | specification of what is said (`Spec/Reasons.lean`): the first missing part; induction on the items of a format, on the digits of an integer and on the units of a duration; forgetting the payloads gives the readers of the other properties (a morphism of monads) |
| C98 | `Error` with all payloads: derived equality and `Debug`, `Display` and `source` of thiserror, `From` of nom's error (`CrateError`) | injectivity of the `Doc` of an error and of its text (C96); the hand-written `{:#?}` of nom's error equals the generic builder output, line by line |
| C99 | content lines, folding and component trees of RFC 5545 3.1 and 3.6 as syntax trees (`Spec/Abnf`), against the readers of all components | texts of trees against the grammar that C76 proves to be what is read: uniqueness of `LinesText`, induction on parts; determinism of repeated parameters for the refused lines |
| C100 | what is written (C75) against the syntax trees of `Spec/Abnf`; which components can be written so: `Spec/Fine` | the form of each property (C75) is a content line; pieces of a fold unfold to the line because a carriage return is only at its end; unfolding commutes with concatenation when the next text begins with a name; induction on the list of properties; `Props/Shape`: the lines of any RFC text are nonempty and after `END` only `BEGIN` or `END` follows, against the empty line that every list of components leaves after unfolding |
| C101 | `n` steps of writing and reading, as an inductive relation (`Spec/Saves`); what becomes of each property after `n` steps, without reference to the steps between | one step is C78; induction on the number of steps: the relation of `n` steps followed by one step is that of `n + 1`, and the conditions of C78 (no carriage returns) are kept by a step, which needs that the platform writes no line breaks in numbers and upper-case letters (`OneLinePlatform`, proved for the numbers of Rust: `C101_platform`); closed forms for classifications, positions and recurrence dates in `Props/SavesValues.lean` (positions with the floats of IEEE 754, from C94) |
| C102 | two platforms that differ only in the two functions of the local zone (`Spec/Zones`: `elsewhere`), with no assumption on them; the same component on the other platform, field by field (`carry`, needed because the types of values with floats mention the platform), and the instants in it | each parser commutes with `carry`, from the combinators up; each field is written alike where the offsets at its instants agree; one call of the iterators by induction on the fuel |
| C103 | the parsers of lines and components once more (`Verif/Cost.lean`), each with the number of characters it looks at; forgetting the count gives the parsers of the model (`C103_*`, first part) | a bound for each combinator; the search for a closing quote is paid for by a potential, the length of the text if a quote is left in it: if the search fails, the quote it began with is consumed as plain text and none is left; a failed last attempt to read a line or a component is cheap if the closing line follows, and otherwise the component is refused and nothing is read twice |
| C104 | nothing new: the readers of the components on a prefix of a text (`Spec/Torn.lean` says when quotes are closed) | every parser of a component, on a text it reads and that is cut within what it consumed, fails, stops at the cut or returns the same (`Lemmas/Torn.lean`); folding commutes with cutting but for the last three characters (`Lemmas/TornText.lean`); `C104_rfc_*` and `C104_written_*` use the trees of C99 and C100 instead of the condition on quotes; `C104_never_*` and `C104_unfinished_*` do without the hypothesis that the whole can be read, by following the tree of the text line by line and part by part (`Lemmas/Never.lean`) |
| C105 | nothing new: `Spec/Size.lean` says what is asked of the platform (a number that is read is shown with at most `K` times the characters it was read from, an upper case letter has at most `K` characters, the zone is less than a day from UTC) | a bound for the text and attribute of a value (`Small`), for every property parser in terms of the content line it reads, carried through the field tables of the derive macro, folding (each chunk is not empty) and the blocks of components, with one constant for each level of nesting (`Lemmas/Size.lean`, `Lemmas/SizeValues.lean`, `Lemmas/SizeParts.lean`); the constant is chosen before the platform and the text; `C105_platform` shows the hypothesis for IEEE floats |
| C106 | nothing new: edits are stated on the trees of `Spec/Abnf.lean` (C99), the fields are those of `Macros.lean` (C71); `Spec/Edit.lean` says what is kept | each field depends on the lines of its name only (`Lemmas/Edit.lean`, from C14); what a tree says is unique, so the parts before and after the edit are read as before; `C106_*_written` from C75: each field determines its lines (`Props/EditWritten.lean`); `C106_*_unknown`: lines of no known name are never rejected (`Lemmas/EditUnknown.lean`) |

Properties the code violates are stated in the form that holds (with the
violation as part of the statement), and the violation is proved as a theorem.
No property had to be left out as inexpressible.

## Disagreements between the code and what one would expect

Found while proving; each is a theorem or part of one.

* C02 continuation lines have up to 76 octets (leading space not counted), and
  the final CR LF itself can be split by a fold.
* C05, C06 the backslash is not escaped, and nothing unescapes when reading:
  each write/parse cycle adds backslashes. A carriage return makes the output
  unreadable; an empty text is not written at all.
* C09 a parameter without `:` swallows the next line.
* C18 earlier bad lines of a required property are ignored.
* C20 text after a component matters if it begins with a space or contains a
  double quote.
* C22 rule without `FREQ`, period without `/`, alarm without `ACTION`, and
  over-long durations panic; `Audio`, `Display`, `Email` have a `FromStr` that
  is `unreachable!()` for other components.
* A `FREEBUSY` line directly in a calendar is not an error: it is kept as an
  IANA property. `VJournal` requires `DTSTART`.
* C31-C33 fractional seconds are read as zero, numbers over 63 bits are
  silently ignored, trailing text is ignored; the macro syntax concatenates
  digits of earlier units, and lacks weeks.
* C35 the date parser accepts blanks, signs and short fields; years outside
  0-9999 do not round trip.
* C37 a UTC date-time moves by the local offset when written and read.
* C39 a period over a leap second; C40 `cmp` against `==`; C41 mixed dates are
  not weakly ordered; C42 start/duration order opposite to period order.
* C45 the kind of an alarm is decided by the text of its action.
* C47 alarms, two sub-components of a kind, two values of a repeatable
  property, RDATE and extension properties do not survive: several values are
  joined by commas and read as one, extension properties come back as a single
  `X-PROP`/`IANA-PROP` entry, and since they are written after the parts a
  component with parts and extension properties is unreadable. A priority above
  9 is written but not read.
* C55 an occurrence followed only by excluded dates up to UNTIL is lost.
* C57, C58 a monthly step onto an ambiguous local time panics; a yearly rule on
  29 February panics on the first call of `next`.
* C56, C59 a rule that starts in a leap second goes on from the second before it,
  so that the first occurrence is one second shorter than the others.
* C59 monthly occurrences vary in length; C60 hourly rules on a date start with
  two equal occurrences, and go back in local time when the clocks do.
* C39–C42, C63, C79 a local date-time so close to the end of chrono's range that the
  clocks show a day beyond it can be stored and yielded, but comparing it panics.
* C61 interval 0 is the default, and with an excluded start `next` never
  returns.
* C63 `at` panics on the last representable day; an hourly rule on a date yields
  its 1:00 occurrence for `after(2:00)`, because the first one is not skipped.
* C88 consecutive selections overlap if a bound is a day and another a time.
* C89 the errors for a bad priority, weekday or alarm action exist, with their
  own messages, but the parser's error hides them.

## Trusted base

* Lean's kernel. Axioms: `propext`, `Classical.choice`, `Quot.sound` only, for
  every theorem (checked by `vcheck`). No axiom is added, nothing is compiled
  into a proof (`decide +kernel` is kernel evaluation).
* The reading of `/repo`: every definition of the model cites the file and
  lines it models. As a check of that reading, `Verif/Conformance` replays the
  repository's own tests on the model, in a platform with the zone of its CI
  (`TZ: CET`): all 74 `.ics` files of `/repo/tests` against their recorded
  `{:#?}` renderings (58 are reproduced exactly, the 16 without one are
  rejected), and the assertions of all `#[test]` functions of `src/` (writing,
  content lines, request statuses, macros, iterators; the three that read the
  clock with a fixed time). Each is an `example` evaluated by the kernel. These
  are tests of the model, not part of any proof.
* The stated behaviour of what is not in `/repo`: chrono 0.4 (proleptic
  Gregorian calendar, format items `%Y %m %d %H %M %S`, `TimeDelta` bounds,
  `Months`), nom 8 (`tag`, `alt`, `many0` and its error on empty progress,
  `map_res`, ...), and the Rust standard library (integer parsing, `BTreeMap`
  order, string slicing panics). They are modelled in `Chrono.lean`,
  `Nom.lean`, `Num.lean`, `Basic.lean` from their documented behaviour; the
  entries of nom's errors (nom 8.0, nom-language 0.1) in `Trace.lean`; the kinds of
  chrono's and `std`'s errors (the order of the checks in `format::parse`,
  `scan::number`, `Parsed::set_*`, `scan::timezone_offset` and `from_str_radix`) in
  `Reasons.lean`.
* That the specifications in `Verif/Spec` say what the English says.
