# Formal model of metaf in Lean 4

Source: `/repo/include/metaf.hpp`, a header-only C++ library that parses METAR and TAF reports. Also six programs built on it: `/repo/examples/summary.cpp` (lines 14 to 700), the summary of the current weather, `/repo/examples/explain.cpp`, the explanation of each group as an HTML table, `/repo/examples/tutorial.cpp`, the list of the groups of a report, `/repo/performance/main.cpp`, the performance check, and the scripts of two web pages: `/repo/examples/shellfiles/summary_shell.html`, which shows the summaries of several stations, with its bindings to `summary.cpp`, and `/repo/examples/shellfiles/explain_shell.html`, which shows the explanation of a report. The model under `lean/Verif` follows them function by function, and every definition cites the lines it models. The properties are listed in `properties.jsonl`, their status and theorems in `MANIFEST.json`.

## Layout

- `lean/Verif/Base.lean`: `std::string` operations, the `Fault` outcome.
- `lean/Verif/Float.lean`, `Ieee.lean`: floating point as rounded rationals; a concrete IEEE 754 rounding that satisfies the laws.
- `lean/Verif/Regex.lean`: `std::regex` as an ordered backtracking matcher over a syntax tree.
- `lean/Verif/Model/*`: the code. `Basic`, `Distance`, `Amounts`, `Phenomena` hold the value types (`Runway`, `MetafTime`, `Temperature`, `Speed`, `Distance`, `Direction`, `Pressure`, `Precipitation`, `SurfaceFriction`, `WaveHeight`, `CloudType`, `WeatherPhenomena`); `GroupsA` to `GroupsD` the group classes; `Report` the metadata and results; `Parser` the tokenizer, status machine, `parse` and `Visitor`; `Summary` the example program `summary.cpp`; `ExplainText` and `Explain` the example program `explain.cpp`; `Tutorial` the example program `tutorial.cpp`; `Performance` the program `performance/main.cpp`; `Page` the functions by which the page `summary_shell.html` shows reports, `PageOptions` those which keep the options in its address, `PageRequests` its requests and what it shows meanwhile, `PageDistance` the distance of stations; `ExplainPage` the page `explain_shell.html`.
- `lean/Verif/Spec/*`: specifications, written without use of the model's functions: decimal numerals, words and delimiters, the report grammar, how each kind of group is written and what it means.
- `lean/Verif/Proofs/*`: helper lemmas. `lean/Verif/Props/*`: the property theorems, each with a concrete case beside it that meets its hypotheses.
- `seeded/LOG.jsonl`: mutation tests. `conformance/`: scripts that compare the model with the expectations in the unit tests of `/repo`.

## Trusted base

- Lean 4.33.0 kernel, with the axioms `propext`, `Classical.choice`, `Quot.sound` at most (listed per theorem at the end). No own axioms, no `sorry`, no `native_decide`, no `bv_decide`.
- The transcription of the C++ source into `lean/Verif/Model`. It was checked, besides reading, against the test suite in `/repo/test` read as text: 844 real reports (expected report type, error and group kinds) and 6055 expectations of the unit tests of the value types and groups agree with the evaluated model (`conformance/real.py`, `conformance/acc.py`).
- Strings: `std::string` is `List Char`, a byte `b` being the character with code `b`. Theorems range over all `List Char`, a superset of all byte strings. `char` is signed (x86 ABI): bytes from 0x80 are negative, hence delimiters for the tokenizer.
- `unsigned int` is 32 bits: kept as `Nat` with an explicit reduction modulo 2^32 where arithmetic may wrap.
- `std::regex` (ECMAScript). Trusted: that the library implements ECMAScript matching priority. The syntax trees are not trusted to be transcribed correctly: `Verif/RegexSyntax.lean` reads ECMAScript literals, and `Verif/Proofs/RegexSyntax.lean` proves for every regular expression of the model that it runs as the literal of the source does (theorems `source_*`). What remains trusted there is the reader `Rx.read` and that the literals quoted in those theorems are those of the cited lines. Not modelled: the recursion depth of the library's matcher.
- Floating point: `float` and `double` values are rationals; the result of an operation is the exact result passed through a rounding function. The rounding functions are parameters (`class FloatSem`) with the laws of IEEE 754 round-to-nearest: monotone, error bound, exact on integers up to 2^24 (2^53), idempotent. `Ieee.lean` shows that round-half-even with the binary32 and binary64 formats satisfies them, so the theorems are about every such rounding and are not vacuous. Infinities and NaN are not modelled; no operation yields them from finite reported values.
- `std::pow`: a parameter. C28 needs of it what the hypothesis `PowTen` says (accuracy of `pow(10, x)` on the range in use); `powTen_ieee` shows that this can be met. C29 concerns only the domain checks and needs nothing of it (values: C140). C92, C93 and C95 on the summary and C98 use `PowTen`, and C92 also `PowSmall` (the power in the formula of wind chill is at most 4000), met by `powSmall_ieee`. C140 and C141 use the one assumption `PowNear` (`pow(x, y)` is within one part in 2^40 of the power for 1 ≤ x ≤ 4000 and -6 ≤ y ≤ 6), met by `powNear_ieee`; `C140_assumption` derives `PowTen` and `PowSmall` from it.
- A moved-from `std::string` is taken to be empty (true of libstdc++ and libc++).
- Faults: out-of-range indexing, dereferencing an empty optional and (in the examples) converting a `float` which does not fit an `int` give the distinct outcome `Fault`, so that C01 means something. Loops without an evident bound (`parse`, the sector enumeration) take a number of iterations and have a distinct outcome (`Fault.timeout`, `none`) when it is used up.
- The performance check: the clock, the test data compiled into it and the sizes of the data types are parameters (`Env`). Files are a map from names to texts; a file can always be created and written. Counters of reports and groups are unbounded, times and rates are reduced modulo 2^64.
- The page with the explanation: `encodeURIComponent`, `decodeURIComponent`, the fragment of the address and the line breaks of a text field are modelled as ECMA-262, the URL standard and the HTML standard define them; that the browser does so is trusted. An exception ends the handler.
- The options of the page with the summaries: `Number` and the conversion of numbers to text are parameters with the laws `Numbers.Lawful` (ECMA-262: the text of a number is read as that number).
- The distance of a station: sine, cosine and arc cosine are those of real numbers; the rounding of JavaScript is not modelled there.
- The requests of the page with the summaries: each request is answered at any time, in any order, or never, and may fail; between events the handlers run to their end.
- The page with the summaries: numbers of JavaScript are rationals, and the texts of numbers are those of integers, tenths and hundredths, as they occur there. The clock, the time zone and the time of the server are parameters (`Device`).

## Not modelled

- Allocation failure and exceptions from the allocator, locale, copying cost, threads (the library has no shared mutable state besides constant tables).
- Unused private overloads, `operator==` defaults, the version constants and `metaf::Version`.
- The tests and the other web pages of the repository; of `summary_shell.html` and `explain_shell.html` the styles and the markup around the texts.

## Disagreements between documentation or expectation and code

Each is proved as a theorem about a concrete report or call.

- C07: one group of the report may yield two entries of the result, one of them without text (`C07_violated`). Happens in remarks, when a group is taken as beginning of a longer group, the continuation does not come, and the fallback is parsed once more.
- C15: the documentation says that the time span is empty for METAR; a time span group in the body of a METAR is copied to the metadata (`C15_violated`).
- C26: `dateBeforeRef` yields dates that do not exist, such as 31 February (`C26_violated`). `C26_exists` says exactly when.
- C35: `sectorCardinalDirToVector` does not end if exactly one end is `UNKNOWN` and the other an octant (`C35_violated`).
- C89: in the summary a few or scattered layer after a broken or overcast one makes the sky mostly clear (`C89_violated`): the condition `prev != OVERCAST || prev != MOSTLY_CLOUDY` always holds.
- C97: in the summary a pressure of 29.93 inches is given as 2992 hundredths (`C97_violated`): the product is cut, not rounded.
- C98: `explain` throws for a variable runway visual range without a runway, such as `R///////V0800` (`C98_violated`).
- C101: `explain` passes markup in the report on to the page (`C101_violated`).
- C104: `explain` cuts decimal numbers instead of rounding them and so shows `T0323` as 32.2 degrees, `A3013` as 30.12 inHg and `SLP123` as 1012.2 hPa (`C104_violated`). A density altitude of 1 000 000 feet or more is shown in exponential form (`C104_altitude_violated`).
- C106: the explanation of wind shear at a height has no line break before `Wind speed` (`C106_violated`), unlike that of all other winds.
- C107: two texts of `explain.cpp` are not what is meant, and the vocabulary has them as they are: `ACC` in the vicinity (altocumulus castellanus) is called `Altocumulus cloud(s)`, and the line on frozen precipitation of six hours lacks a space (`precipitationfor`).
- C108: `explain.cpp` does not show when undetermined precipitation, ice crystals, widespread dust or fog with a descriptor began or ended (`UPB05`, `BCFGE20`): `explainWeatherPhenomena` returns the fixed expression before it comes to the event.
- C109, not counted as violation but visible in the specification: a direction above 360 degrees is shown as `990 degrees(not reported)`, and rainfall `00.0` as `trace amount`, although for rainfall zero does not mean a trace.
- C112, not counted as violation: `summary.cpp` does not look at the part of the report, so cloud, temperature and pressure groups in the remarks of a METAR override those of the body (a trend in the body prevents it).
- C115: the performance check takes a file name with `-` as second character for an option and silently uses the internal data (`C115_violated`); `--nostats` has no effect.
- C116: of a file of 64000 lines or more the performance check leaves out the lines behind the last full batch of 64000 (`C116_violated`).
- C118, C119: in the same way groups not recognised and reports with errors behind the last full batch of 1000 are not listed (`C119_violated`).
- C120: the performance check has undefined behaviour for an empty line in the input file, an input file without line end, an empty last argument, and a measurement of zero microseconds (`C120_violated`, `C120_ends_partial`).
- C121: the performance check never measures weather groups (`C121_violated`).
- C122: `--help` and `--expint` with an input file also empty the files which the performance check writes.
- C124: the page does not mention calm wind, and calls wind which is not reported variable (`C124_violated`).
- C125: the page passes the date of the device to the library, not that of Greenwich; a report five minutes old may be shown as 744 hours 5 minutes old (`C125_violated`).
- C127: the page has no icon for snow grains, ice pellets and undetermined precipitation (`C127_violated`).
- C128: the widget shows visibility in kilometres and pressure in inches as 0 if they are not known (`C128_violated`); if the wind is not reported, the arrow has the style `rotate(nulldeg)`.
- C130: a report received without text hides its station and all those behind it, as an exception ends the loop; a station listed without site is called `undefined` (`C130_violated`).
- C131: the documentation (api_parser.rst) says that groups are parsed case-sensitively; what follows `LTG` is taken whatever it is, and from the seventh pair of letters on it is not looked at (`C131_violated`).
- C132: 24:00 does not qualify as the time of a six-hourly report, although 00:00 does (`C132_violated`). One hour after the full hour does not qualify although the documentation says within one hour before or after.
- The documentation (api_parser.rst) says that the default limit is 100 groups per report; in the code it is 200.
- C133: on the page which explains reports, the address of the empty text is the one without text, at which the sample report is shown (`C133_violated`). If the program is started before the page is loaded, `explain()` runs with the empty input and overwrites the address, so that the report of the link is lost (`C133_order_violated`).
- C136: the page with the summaries never shows its message `Unable to retreive weather data` (`C136_violated`): `fetchAndParseXML` ends with a `catch`, so its promise is never rejected. If a request fails the page says `Retreiving weather data...` for ever (`C136_failed`), also if only the names of the stations are missing.
- C138: `docs/sphinx/api_keywordgroup.rst` says that `RMK` is recognised in the header of a report; it is recognised in the body only (`C138_violated`). Right in front of the body, as in `METAR ABCD RMK`, the report is in error because its time is expected.
- C154: a mile is taken as 1609.347 metres, so in a metric summary `55SM` is 88514 metres, one too many (`C154_violated`). `C154_whole` says which whole numbers of miles are affected.
- Other differences between the documentation (docs/sphinx) and the code: `FM2215 TL2230` is said to have the type `FROM`, but has `TIME_SPAN` (C45, C79); `VRB06KT` is said to have a direction in degrees, but it is variable (C46); calm wind is said to have no speed in one place and the speed 0 in another, it is 0 (C78); a weather group is said to hold ten events, it holds twenty (C80); only part of a report is said to be parsed if there is an error, but with `UNEXPECTED_REPORT_END` all of it is (C10).
- Further on `explain.cpp`, visible in the model: `precipitationfor the last 6 hours`; a raw `>` in the text of phenomenal sea; a cloud type which is not reported would be called cumulonimbus.
- Further on the summary, visible in the specification `Spec/Summary.lean`: ice pellets are always summarised as showers of ice pellets (`C90_ice_pellets`); in a TAF every wind group counts as wind, also wind shear; only the last group with forecast temperatures counts; a METAR of the form NIL is accepted and hides the TAF; the date of release may not exist (C26); a direction such as 990 is shown as it is, as `isValid` is not asked.
- C44 as first written, minimum not above maximum, is false for labelled temperatures: `TX` below `TN` is stored as written and reported as invalid by `isValid`. The property was corrected to what the code promises.
- C05: the error REPORT_TOO_LARGE is given also to a report of exactly `limit` groups, and replaces an earlier error.
- C82: the documentation of `PrecipitationGroup::recent` says that it is used only for SNOW_INCREASING_RAPIDLY; it is also given for RAINFALL_9AM_10MIN.
- The comment in the source on descriptor TS lists the precipitation that may follow; the code accepts others (`TSDZ`). The specification of C41 follows the code.
- The documentation says that `isValid` of cloud types, precipitation and miscellaneous groups is always true; the code rejects octas outside 1..8 and incomplete groups (`C43`, `C56`, `C62`). It says that a minimum and a maximum temperature are valid if the minimum is not above the maximum; the code asks for strictly below (`C71_valid`), so that two equal forecast temperatures are rejected.
- The documentation says that `VisibilityGroup::sectorDirections` always returns an empty vector; it returns the directions for visibility in a sector (`C76_visibility`).
- A wind of 999 without gusts is not valid (`C71_valid`), because a gust speed which is not reported counts as 999.
- Numbers longer than nine digits wrap modulo 2^32 (`C22_number`); reachable only through `DENSITY ALT ...FT`.

## Mutation tests

`seeded/LOG.jsonl` holds one line per attempt: the definition of the model that was edited, the edit, the claim it breaks, the theorems that failed to build, and theorems tightened as a consequence.


## Properties, approach and theorems

For each property: what is modelled and how it is proved, then the theorems (all in namespace `Metaf.Props`, file under `lean/Verif/Props`) with what each states.

### C01 Parsing always terminates without undefined behaviour — proved

Parser::parse(report, groupLimit) returns a ParseResult for every byte string and every limit: its loops end, no fixed-capacity array or vector is indexed out of range, no empty optional is dereferenced and no substring position is out of range.

Approach: The whole parser is modelled in `Except Fault`; every indexing or dereferencing whose safety is not syntactically evident is a faulting operation. Invariant over the stored groups (cloud types non-empty, weather count positive) by induction over the words; termination from the decreasing rest of the text.

- `C01_parse_total` (Text.lean): For every report and every group limit parsing ends with a result: from some number of iterations on, the model of `Parser::parse` neither runs out of iterations nor reaches one of the modelled kinds of undefined behaviour, and the result does not depend on that number.

### C02 Everything after the report end indicator is ignored — proved

For all strings s and t, Parser::parse(s + "=" + t) gives the same ParseResult as Parser::parse(s + "="), and the indicator itself leaves no trace: the result also equals Parser::parse(s).

Approach: Tokenizer modelled with the remaining input as state; refined to a specification that splits at delimiters and stops at `=`.

- `C02_report_end` (Text.lean): The text from the report end indicator on has no effect.
- `C02_report_end_ignored` (Text.lean): in the form of the property: all three reports give the same result.

### C03 Layout of delimiters is irrelevant — proved

Two reports made of the same groups separated by different non-empty runs of delimiter characters, with different leading and trailing delimiters, give the same ParseResult.

Approach: Refinement of the tokenizer to the splitting specification; parsing depends on the list of words only.

- `C03_groups_only` (Text.lean): The result depends only on the groups of the report.
- `C03_layout` (Text.lean): Two texts made of the same words, separated by arbitrary runs of blanks and with arbitrary blanks in front and behind, give the same result. The words may contain the end indicator.
- `C03_groups_exist` (Text.lean): Every report has such a decomposition into groups, and only one.

### C04 No text is lost, invented or reordered — proved

Splitting the rawString of all groups of the result at spaces and concatenating gives, in order, exactly the groups of the report that were processed; when no error is reported this is the whole report, otherwise it is the part up to and including the offending group.

Approach: Invariant over the parser loop: the words of the raw strings are the words processed so far, in order.

- `C04_no_text_lost` (Text.lean): The words of the raw strings, in order, are exactly the first groups of the report: all of them when there is no error or only the end of the report is in error. Each raw string consists of its words separated by single spaces.
- `C04_characters` (Text.lean): The raw strings hold exactly the non-blank characters of the report before its end, in order, when there is no error.
- `C04_offending_group` (Offending.lean): If an error is raised at a group of the report, then the text of the result ends with this group: the words before it give no such error, and whatever follows it the result is the same.

### C05 The group limit is enforced — proved

At most max(1, groupLimit) groups of the report are processed, and at most that many entries with text are returned; REPORT_TOO_LARGE is only reported for a report with at least groupLimit - 1 groups, and always when the number of groups processed reaches the limit. The result has at most 2 * max(1, groupLimit) entries and at most twice as many entries as the text has groups, and the raw strings of all its entries together are at most twice as long as the text.

Approach: Counter invariant over the parser loop.

- `C05_group_limit` (Text.lean): The group limit: at most `max 1 limit` groups are processed; the error REPORT_TOO_LARGE is given only to reports with at least `limit - 1` groups, and always to those which run into the limit.
- `C05_entries` (Text.lean): The number of entries with text never exceeds the number of groups processed.
- `C05_size` (Sizes.lean): The size of the result. Whatever the text and the limit, the result has at most twice as many entries as the limit allows groups (at most two entries if the limit is zero), and at most twice as many as the text has groups. All its raw strings together have at most twice as many characters as the text.

### C06 Consecutive unrecognised groups are merged — proved

A ParseResult never holds two adjacent UnknownGroup entries.

Approach: Chain invariant over the entries of the result.

- `C06_unknown_merged` (Text.lean): No two adjacent entries are unknown groups.

### C07 One report group never yields several result groups — partial

Every entry of ParseResult::groups has a non-empty rawString, so no group of the report yields more than one entry (documented in the API reference of Parser).

Approach: Violated. Witness, and an invariant that characterises every entry without text.

Status: The code violates the property; a witness is proved and the exact exception is characterised.

- `C07_empty_text_partial` (Text.lean): part. The full property, that no entry has an empty raw string, is violated, see `C07_violated`. What holds: an entry with an empty raw string is no unknown group and is followed directly by an unknown group with text.
- `C07_violated` (Text.lean): is violated: this report gives an entry without text.

### C08 Report parts follow each other in order — proved

Along ParseResult::groups the report part is HEADER first, then only METAR or only TAF, then RMK; UNKNOWN can only stand at the very end, after NIL or CNL. METAR and TAF parts never occur in one result.

Approach: Invariant relating the status machine and the list of report parts; specification `Parts` says which part is due after which group.

- `C08_parts_in_order` (Grammar.lean): The first group is in the header and every other group is in the part due after the group before it.
- `C08_allowed` (Grammar.lean): No group stands in a part it does not belong to.
- `C08_parts` (Grammar.lean): as a whole: header, then one kind of body, then either remarks or, after NIL or CNL, groups which belong to no part.

### C09 Type of an accepted report is known — proved

If the error is NONE then the report type is METAR or TAF, unless the report is NIL.

Approach: Invariant over the status machine.

- `C09_type_known` (ReportType.lean): A report accepted without error is a METAR or a TAF, unless its last group is NIL.

### C10 Accepted reports follow the documented grammar — proved

The error is NONE exactly when the sequence of syntax elements of the report is in the documented grammar (type, COR/AMD, location, time, time span, body, remarks; NIL and CNL forms), and otherwise the error names the first deviation.

Approach: Declarative grammar over syntax elements (`Spec/Grammar`), equivalence with the status machine by induction over the words, both directions.

- `C10_grammar` (Grammar.lean): A report whose groups follow the grammar is accepted and has the type given by the grammar, and every accepted report follows the grammar. The grammar does not know the limit.
- `C10_accepted` (Grammar.lean): In accepted reports body and remarks hold no group of another part.
- `C10_errors` (Grammar.lean): What each error means: an empty report, the beginning of a report, or a first group with which no report can go on, for the documented reason.

### C11 AMD, CNL and the maintenance indicator are restricted to their report type — proved

If the error is NONE, then AMD or CNL found implies a TAF report and the maintenance indicator found implies a METAR report.

Approach: Consequence of the grammar.

- `C11_restricted_keywords` (ReportType.lean): In reports accepted without error AMD and CNL are found only in TAF, and the maintenance indicator only in METAR.

### C12 NIL and CNL are terminal — proved

In a report with error NONE a NIL or CNL group is the last group of the result; any group after them produces UNEXPECTED_GROUP_AFTER_NIL or UNEXPECTED_GROUP_AFTER_CNL.

Approach: Consequence of the grammar and of the run relation.

- `C12_terminal` (ReportType.lean): In a report accepted without error a NIL or CNL group is the last group of the result.
- `C12_after` (ReportType.lean): If the groups of a complete NIL report or of a cancelled TAF are followed by another group then the error is the one which says so, or the limit of groups is reached.
- `C12_after_text` (ReportType.lean): for text: a complete NIL report or a cancelled TAF followed by a further group fails.

### C13 Metadata flags agree with the groups — proved

Each keyword attribute of ReportMetadata (isSpeci, isNospeci, isAutomated, isAo1, isAo1a, isAo2, isAo2a, isNil, isCancelled, isAmended, maintenanceIndicator) is set exactly when the result holds the corresponding KeywordGroup.

Approach: Invariant: metadata of the groups so far equals the fold of the specification; keyword groups are never removed again.

- `C13_flags` (Metadata.lean): The attributes of the metadata which stand for a keyword are set exactly if the keyword is among the groups of the result.
- `C13_correctional` (Metadata.lean): The report is marked as correction exactly if it holds COR or a mark of correction with letter.
- `C13_correction_number` (Metadata.lean): The number of the correction is that of the last mark of correction (CCA is 1), or 0.

### C14 Metadata location and time come from the groups — proved

icaoLocation is the text of the location group of the result and reportTime the time of its report time group, and both are empty when there is no such group; if the error is NONE the location is a four-character ICAO code.

Approach: As C13, and the grammar for accepted reports.

- `C14_location_time` (Metadata.lean): Location and time of the metadata are those of the last location and of the last report time group of the result, and empty without such group.
- `C14_accepted` (Metadata.lean): A report accepted without error has exactly one location group, whose text is the ICAO location of the metadata, and at most one release time, which is the time of the metadata.

### C15 METAR reports carry no validity time span — partial

For a METAR or SPECI report timeSpanFrom and timeSpanUntil are empty; for a TAF accepted without error and not NIL or CNL they hold the validity period.

Approach: As C13. Violated for METAR: witness, the exact rule, and what holds for METAR without such a group.

Status: The claim about METAR is false in the code (witness proved): a time span in the body of a METAR is copied to the metadata. The exact rule and the claim about TAF are proved.

- `C15_metar_partial` (Metadata.lean): for METAR, in part. A METAR whose body holds no time span group carries no time span. The full claim, without the hypothesis on the body, is false: see `C15_violated`.
- `C15_first_span` (Metadata.lean): The time span of the metadata is that of the first time span group of the result, and empty without such group.
- `C15_taf` (Metadata.lean): for TAF. A TAF accepted without error and not NIL carries the validity period of its header: the times of the first time span group, which is in the header.
- `C15_violated` (Metadata.lean): is violated: a METAR whose body holds a time span carries a validity time span.

### C16 Report type detection — proved

A report that starts with METAR or SPECI is never typed TAF, one that starts with TAF is never typed METAR, and one that starts with a location is typed TAF exactly when the group after the release time is a time span.

Approach: Runs of the status machine on all report openings.

- `C16_type_detection` (ReportType.lean): The type of every report, accepted or not, by its first groups: METAR or SPECI; TAF; or, after a location, the groups after the release time.
- `C16_first_group` (ReportType.lean): Nothing but the words METAR and SPECI, or TAF, stands for these types: the text of the first group of a report decides on its type.

### C17 A syntax error freezes the result — proved

If parsing a report fails at some group, appending any further text to the report changes neither the error nor the groups nor the metadata.

Approach: The loop stops in the error state: prefix argument on runs.

- `C17_error_freezes` (Text.lean): If parsing fails at a group then no further groups have any effect.
- `C17_error_freezes_text` (Text.lean): for text: after a report which fails at a group any text may follow.

### C18 Earlier groups are never rewritten — proved

Extending a report only affects the last group of the result so far: an entry followed by two entries with text stays as it is, and an entry with text followed by one entry with text stays as it is except that an unknown group may get further text.

Approach: The step relation touches only the last entry (and the one before when it falls back).

- `C18_earlier_groups_kept` (Text.lean): Further groups leave the earlier entries of the result as they are: an entry followed by two entries with text does not change; an entry with text followed by one entry with text changes only if it is an unknown group, to which further text may be added.

### C19 Groups are recognised in a fixed priority order — proved

GroupParser::parse returns the first alternative of Group, in declaration order, that recognises the string, and UnknownGroup exactly when none does.

Approach: Characterisation of the alternative loop as first success in declaration order.

- `C19_priority` (ReportType.lean): The group recognised in a text is the first alternative of `Group`, in the order of declaration, that recognises the text, and it is an unknown group exactly if none does.

### C20 Structural keywords are never absorbed — proved

None of the groups absorbs RMK, NIL, CNL or another header keyword as its continuation: such a token always becomes its own KeywordGroup and is seen by the syntax check.

Approach: Case analysis of all append functions, each shown to refuse keywords; then invariant over results.

- `C20_not_absorbed` (ReportType.lean): No group other than an unknown group absorbs a keyword as its continuation, whatever its state.
- `C20_own_group` (ReportType.lean): In every result a word which is a keyword for the part of the report is a keyword group of its own.
- `C20_first_word` (ReportType.lean): In every result keywords of whatever part are found among the further words of a group only in unknown groups.

### C21 The end-of-report flush never extends a group — proved

Appending the empty string, done once at the end of the report, is accepted by no group other than UnknownGroup, so no rawString gets a trailing blank.

Approach: Case analysis of all append functions on the empty text; invariant over raw strings.

- `C21_empty_not_absorbed` (Text.lean): No group other than an unknown one accepts the empty text as its continuation.
- `C21_no_trailing_blank` (Text.lean): No raw string of a result begins or ends with a space.

### C22 Decimal fields are decoded exactly — proved

strToUint(s, pos, n) has a value exactly when s[pos..pos+n) lies in s and is all digits, and for n <= 9 the value is the decimal number written there.

Approach: Induction over digits against the positional decimal numeral of the specification; the 32-bit wrap is kept.

- `C22_number` (Numbers.lean): A number is read exactly when the characters asked for lie within the text and are the decimal form of a number; the value is this number, reduced modulo 2^32 if it does not fit.
- `C22_number_exact` (Numbers.lean): Up to nine digits the value is the number written.
- `C22_digits` (Numbers.lean): There is a value exactly when the text asked for is made of digits and is complete.
- `C22_decimal_unique` (Numbers.lean): Distinct numbers are written differently: the decimal form determines the number.

### C23 Fractions are decoded exactly — proved

fractionStrToUint recognises exactly strings of one or two digits, a slash, and one or two digits, and returns the two numbers.

Approach: Case analysis over the shape of the text.

- `C23_fraction` (Numbers.lean): A fraction is read exactly from one or two digits, a slash and one or two digits.

### C24 Runway designators round-trip — proved

Runway::fromString recognises exactly R or RWY, two digits and an optional L, C or R; number and designator are those of the text; validity means number up to 36 or one of the special codes 88 and 99 without designator.

Approach: Text-level characterisation, and the validity check against the table of codes.

- `C24_runway` (Values.lean): A runway is recognised exactly from R (or RWY where allowed), two digits and an optional designator; number and designator are those of the text.
- `C24_valid` (Values.lean): A runway is valid exactly with a number up to 36, or as one of the codes 88 (all runways) and 99 (repetition), which have no designator.
- `C24_codes` (Values.lean): The special codes.

### C25 Times round-trip — proved

MetafTime::fromStringDDHHMM and fromStringDDHH recognise exactly the documented digit formats and return the numbers written; isValid holds exactly for day 1..31, hour 0..24, minute 0..59.

Approach: Regular expressions replaced by their forms, digits by decimal numerals.

- `C25_ddhhmm` (Values.lean): The forms `DDHHMM` and `HHMM`.
- `C25_ddhh` (Values.lean): The form `DDHH`.
- `C25_valid` (Values.lean): Validity of a time: day 1 to 31 if given, hour 0 to 24, minute 0 to 59.
- `C25_round_trip` (Values.lean): Every valid time is read back from its text.

### C26 Completing a date relative to a reference — partial

dateBeforeRef gives a date with the stored day of month that is not later than the reference date and less than one month earlier, and it is a real calendar date whenever the reference is.

Approach: Against a small calendar specification. Violated: witness, and exact condition.

Status: The claim is false in the code (witness proved): a date such as 31 February is produced. Everything else is proved: the day is kept, the result is not after the reference date and in the same or the previous month.

- `C26_date_partial` (Values.lean): in part. The date keeps the stored day, is not later than the reference, is in the same or in the previous month, and no later date up to the reference has that day. Missing: it may be a date that does not exist, see `C26_violated`.
- `C26_no_day` (Values.lean): Without a stored day the reference is returned.
- `C26_exists` (Values.lean): Exactly when the date does not exist: for a valid stored day and an existing reference the date exists unless the previous month has no such day.
- `C26_violated` (Values.lean): is violated: the date need not exist. A report of the day 31 seen on 15 March is dated 31 February.

### C27 Temperatures are decoded exactly — proved

Temperature::fromString recognises exactly two digits with optional M, or //; the value and its sign, including minus zero, are those of the text. fromRemarkString gives exact tenths whatever the floating point rounding.

Approach: As C25; tenths are shown to survive any rounding that satisfies the laws.

- `C27_two_digits` (Values.lean): The two digit forms of a temperature, with M for minus, or not reported.
- `C27_remark` (Values.lean): The remark form: sign digit and three digits in tenths. The stored number of tenths is the one written, whatever the rounding of the floating point numbers it passes through, and the value counts as freezing exactly if it is below zero.
- `C27_value` (Values.lean): The value handed out: whole degrees exactly, tenths up to the precision of `float`.

### C28 Relative humidity stays in range — proved

Temperature::relativeHumidity is within (0, 100] for every reported pair with dew point not above temperature, and grows with the dew point.

Approach: Real error analysis of the expression for saturated vapour pressure under `FloatSem` and `PowTen`.

- `C28_available` (Climate.lean): relative humidity is available exactly if both temperatures are reported.
- `C28_range` (Climate.lean): relative humidity is within (0, 100].
- `C28_mono` (Climate.lean): relative humidity does not decrease when the dew point rises.
- `C28_strict` (Climate.lean): below saturation relative humidity rises with the dew point, and it is 100 when the dew point is above the temperature.
- `C28_saturated` (Climate.lean): relative humidity is 100 when the dew point is above the temperature, and when they are equal.
- `powTen_ieee` (Climate.lean): The assumptions about `std::pow` hold for the `pow` of `ieee`.

### C29 Heat index and wind chill are given only where defined — proved

heatIndex is reported only for temperature >= 27 C and humidity within 40..100 %, windChill only for temperature <= 10 C and wind speed >= 4.8 km/h.

Approach: Domain checks characterised with the rounding of the conversion to Celsius and km/h taken into account.

- `C29_heat_index` (Climate.lean): the heat index of a temperature and a humidity is reported exactly for temperatures from 27 C and humidity within 40..100.
- `C29_heat_index_dew_point` (Climate.lean): the heat index of a temperature and a dew point is reported exactly for temperatures from 27 C and relative humidity from 40.
- `C29_wind_chill` (Climate.lean): wind chill is reported exactly for temperatures up to 10 C and wind speed from 4.8 km/h.
- `C29_speeds` (Climate.lean): the wind speeds for which wind chill is given, unit by unit: from 3 knots, 2 m/s, 5 km/h or 3 miles per hour.

### C30 Speeds are decoded exactly — proved

Speed::fromString recognises exactly empty text, //, two digits or three digits without leading zero; the value is that of the text.

Approach: As C25.

- `C30_speed` (Values.lean): A speed is recognised exactly from no text or `//` (not reported), two digits, or three digits the first of which is not zero.
- `C30_unit` (Values.lean): The unit suffixes.

### C31 Unit conversion is coherent — proved

Converting a speed, distance, temperature, pressure or precipitation amount to its own unit gives the stored value; a value is available exactly when reported; conversion preserves order, and there-and-back conversion is within the stated relative tolerance.

Approach: Error bounds of each conversion against the definitions of the units as exact rationals; order from monotone rounding.

- `C31_speed_own` (Conversion.lean): speed: conversion to the own unit gives the stored value, and a value is available exactly if reported.
- `C31_speed_value` (Conversion.lean): speed: conversion agrees with the definition of the units, for every value the type can hold.
- `C31_speed_order` (Conversion.lean): speed: conversion preserves order.
- `C31_speed_back` (Conversion.lean): speed: the converted value converted back by the definition of the units is within 2 parts in 100000 of the stored value.
- `C31_distance_own` (Conversion.lean): distance: a value is available exactly if there is one, and conversion to the own unit gives the stored value.
- `C31_distance_value` (Conversion.lean): distance: conversion agrees with the definition of the units, for every value the type can hold.
- `C31_distance_order` (Conversion.lean): distance: conversion preserves order.
- `C31_distance_back` (Conversion.lean): distance: the converted value converted back by the definition of the units is within 2 parts in 100000 of the stored value.
- `C31_pressure_own` (Conversion.lean): pressure: a value is available exactly if reported, and conversion to the own unit gives the stored value.
- `C31_pressure_value` (Conversion.lean): pressure: conversion agrees with the definition of the units.
- `C31_pressure_order` (Conversion.lean): pressure: conversion preserves order.
- `C31_pressure_back` (Conversion.lean): pressure: conversion to another unit and back leads to the value within 5 parts in 100000.
- `C31_precipitation_own` (Conversion.lean): precipitation: a value is available exactly if reported, and conversion to the own unit gives the stored value.
- `C31_precipitation_value` (Conversion.lean): precipitation: conversion agrees with the definition of the units.
- `C31_precipitation_order` (Conversion.lean): precipitation: conversion preserves order.
- `C31_precipitation_back` (Conversion.lean): precipitation: conversion to another unit and back leads to the value within 5 parts in 100000.
- `C31_wave_height` (Conversion.lean): wave height: a value in either unit is available exactly if reported; feet agree with the definition of the foot and with metres.
- `C31_wave_height_order` (Conversion.lean): wave height: conversion preserves order.
- `C31_temperature_own` (Conversion.lean): temperature: a value is available exactly if reported; Celsius gives the stored value.
- `C31_temperature_value` (Conversion.lean): temperature: Fahrenheit agrees with the definition of the scale.
- `C31_temperature_order` (Conversion.lean): temperature: conversion to Fahrenheit preserves order.

### C32 Statute mile distances are decoded exactly — proved

Distance::fromMileString gives integer plus fraction as written, with the P and M modifiers, for every string of the documented format; an integer group and a following fraction group add up.

Approach: Forms of the two notations; the stored fixed-point value is the truncated fraction.

- `C32_miles` (Distance.lean): The distances in miles recognised in the body of a report: an optional `P` or `M`, a whole number or fraction and the unit; the stored value is the number of 1/10000 miles rounded down.
- `C32_miles_remark` (Distance.lean): The distances in miles recognised in remarks, without unit.
- `C32_exact` (Distance.lean): The fractions in use (halves, quarters, eighths, sixteenths) are stored without loss.
- `C32_truncated` (Distance.lean): For any other fraction the stored value is less than 1/10000 mile below the value written.
- `C32_sum` (Distance.lean): A whole number of miles and a following fraction add up, and the modifier of the whole number is kept.
- `C32_sum_only` (Distance.lean): Only a whole number of miles and a fraction of a mile without modifier are added.

### C33 Reported miles are table values and monotone — proved

Distance::miles returns only the reportable values of Table 6-1 of FMH-1, is never above the stored distance rounded to 1/16 mile, and a larger distance never gives a smaller result.

Approach: Table 6-1 as a specification; analysis of the lookup with rounding.

- `C33_reportable` (Distance.lean): `miles` gives only the values of table 6-1.
- `C33_available` (Distance.lean): `miles` gives a value exactly for distances with a value.
- `C33_mono` (Distance.lean): A larger distance never gives a smaller value.
- `C33_not_above` (Distance.lean): The value given is never above the distance rounded to 1/16 mile (with 1/100 of 1/16 mile of rounding error).
- `C33_round_trip` (Distance.lean): A distance of exactly a reportable value is given back as that value.

### C34 Degrees map to the nearest cardinal direction — proved

Direction::cardinal of a value in degrees from 0 to 360 is the octant whose centre is nearest, of a larger value NOT_REPORTED; the exact directions are reported only for 90, 180, 270, 360.

Approach: Against the distance on the circle.

- `C34_nearest` (Distance.lean): The cardinal direction of degrees up to 360 is the octant whose centre is nearest, that of larger values is not reported.
- `C34_exact` (Distance.lean): The exact directions are given only when asked for, and then exactly for 90, 180, 270 and 360 degrees; every other value gives the octant.
- `C34_other` (Distance.lean): Directions without a value keep their kind.

### C35 Direction sectors are enumerated clockwise and finitely — partial

sectorCardinalDirToVector terminates for every pair of directions and lists the octants clockwise from the first to the last, without repetition and at most eight.

Approach: Enumeration with a number of iterations; violated, witness for every number of iterations.

Status: The claim is false in the code for arguments a user can construct (witness proved): the enumeration does not end exactly when one end of the sector is UNKNOWN and the other one has a value within 0..360 degrees (C35_ends). The other theorems cover every other pair of arguments.

- `C35_sector_partial` (Distance.lean): for directions that are octants: the enumeration ends and lists the octants clockwise.
- `C35_other_partial` (Distance.lean): for the other directions: if one end is not an octant (variable, no direction, overhead, all quadrants, not reported) the enumeration ends with at most the two directions given.
- `C35_unknown_partial` (SectorEnds.lean): if both directions are the unknown one: the list has only the unknown direction.
- `C35_ends` (SectorEnds.lean): the enumeration ends exactly if it is not the case that one direction is unknown and the other one has a value within the circle.
- `C35_violated` (Distance.lean): is false in the code: the enumeration does not end if exactly one end is the unknown direction and the other one is an octant.

### C36 Pressure groups are decoded exactly — proved

The QNH, altimeter, SLP and QFE formats are recognised exactly as documented with the value written; SLP values always decode into 950.0..1049.9 hPa and distinct codes decode to distinct pressures.

Approach: As C25, with tenths and hundredths shown to survive rounding.

- `C36_pressure` (Amounts.lean): The QNH and altimeter setting forms: Q with hPa, A with hundredths of an inch, or not reported.
- `C36_forecast` (Amounts.lean): The form of the lowest altimeter setting in a forecast.
- `C36_slp` (Amounts.lean): The sea level pressure form.
- `C36_qfe` (Amounts.lean): The QFE form: three digits in mm Hg, which may be followed by four digits in hPa.
- `C36_tendency` (Amounts.lean): The form of a pressure tendency.
- `C36_inHg_value` (Amounts.lean): The values: hundredths of an inch, whatever the rounding.
- `C36_slp_value` (Amounts.lean): The values of the sea level pressure: tenths of hPa in the range 950.0 to 1049.9.
- `C36_distinct` (Amounts.lean): Distinct codes of the sea level pressure give distinct pressures, and so do distinct altimeter settings.
- `C36_tendency_value` (Amounts.lean): The values of a pressure tendency: tenths of hPa, whatever the rounding.

### C37 Runway deposit depth and rainfall are decoded exactly — proved

Precipitation::fromRunwayDeposits follows the documented code table (00..90 mm, 92..98 as 10..40 cm, 99 and // special) and rejects 91; fromRainfallString and fromRemarkString give the number written.

Approach: As C36, table of depth codes.

- `C37_deposits` (Amounts.lean): Depth of runway deposits. Code 91 is reserved, 99 means runway not operational.
- `C37_deposits_mono` (Amounts.lean): Deposit depths grow with the code, so distinct codes mean distinct depths.
- `C37_rainfall` (Amounts.lean): Rainfall: two or three digits, a point and one digit, or not reported.
- `C37_rain_value` (Amounts.lean): The values of rainfall: whole and tenth millimetres, whatever the rounding.
- `C37_remark` (Amounts.lean): Precipitation in remarks: three or four digits times the factor, or not reported where allowed.
- `C37_remark_value` (Amounts.lean): The values of precipitation in remarks: the number written in the unit of that remark, whatever the rounding.
- `C37_snincr` (Amounts.lean): Snow increasing rapidly: depth increase and total depth in inches.

### C38 Surface friction codes are decoded consistently — proved

SurfaceFriction::fromString maps 00..90 to the coefficient, 91..95 to braking action poor to good, 99 to unreliable, // to not reported and rejects 96..98; braking action derived from a coefficient is monotone.

Approach: As C36, table of braking actions.

- `C38_friction` (Amounts.lean): Surface friction: the coefficient in hundredths, a braking action, unreliable or not reported.
- `C38_action_code` (Amounts.lean): The braking action of a code 91 to 95 is the one the code stands for.
- `C38_action_mono` (Amounts.lean): A higher coefficient never means a worse braking action, and a reported coefficient always means some braking action.
- `C38_coefficient` (Amounts.lean): The coefficient handed out is the stored number of hundredths, whatever the rounding.

### C39 Wave height and state of surface agree — proved

WaveHeight::fromString of S followed by a digit reports that state of surface back, of H followed by 1-3 digits that height in decimetres; the derived state of surface is monotone in the height.

Approach: As C36, table of states of surface.

- `C39_wave_height` (Amounts.lean): The forms of a wave height: H with one to three digits in decimetres, S with the state of surface, or not reported.
- `C39_state_digit` (Amounts.lean): The state of surface written as a digit is reported back: digit 0 is calm, glassy and so on up to phenomenal.
- `C39_state_mono` (Amounts.lean): A greater wave height never means a calmer surface.

### C40 Weather phenomena packing is lossless — proved

Qualifier, descriptor, up to three weather codes and the event stored in a WeatherPhenomena are returned unchanged by its accessors.

Approach: Bit-level packing against components, by arithmetic on the fields.

- `C40_lossless` (Weather.lean): components packed into a phenomenon are returned unchanged.
- `C40_constructors` (Weather.lean): the same for the constructors from single codes.
- `C40_cut` (Weather.lean): more than three codes are cut; the packed number fits in 26 of 32 bits.

### C41 Weather strings decode into valid, duplicate-free phenomena — proved

Whatever WeatherPhenomena::fromString accepts has at most three distinct weather codes, is accepted by isValid, which never reads beyond the list of codes, and renders back to the text that was parsed.

Approach: A grammar of weather strings (`Spec/Weather`) generated from the tables, equality with the decoder for all strings.

- `C41_weather` (Weather.lean): the strings accepted are exactly the ways allowed weather is written, and each decodes into the components written.
- `C41_accepted` (Weather.lean): accepted weather has at most three codes, all different; it renders back to the text; it has no event and no time.
- `C41_valid` (Weather.lean): the validity check of accepted weather succeeds and does not read beyond the codes.
- `C41_unique` (Weather.lean): the text determines the phenomenon: different phenomena are never written the same.

### C42 Weather groups keep every phenomenon — proved

A WeatherGroup holds at most 20 phenomena. An append that is accepted adds exactly one phenomenon at the end and changes nothing else. A remark token of begin and end events yields one phenomenon for each event written, in order, up to the first 20.

Approach: Specification of events in remarks as a list; induction over the list, and over appends.

- `C42_events` (WeatherEvents.lean): Events in remarks: every event written is stored with its phenomenon, kind and time, in order, up to the first twenty; nothing else is recognised.
- `C42_event_fields` (WeatherEvents.lean): What the accessors of the stored events return.
- `C42_parse` (WeatherEvents.lean): Weather in the report itself.
- `C42_remark` (WeatherEvents.lean): Weather in remarks.
- `C42_append` (WeatherEvents.lean): A word is added to a weather group exactly when it is weather of the same kind (recent or not) and less than twenty are stored; exactly the word is added, at the end.
- `C42_words` (WeatherEvents.lean): The words that complete a group begun in remarks.
- `C42_unchanged` (WeatherEvents.lean): What is not added leaves the group as it was.
- `C42_limit` (WeatherEvents.lean): At most twenty phenomena are stored.
- `C42_recent` (WeatherEvents.lean): Recent weather is stored only in groups of recent weather, which store nothing else.

### C43 Cloud types groups keep every cloud type — proved

A CloudTypesGroup is recognised exactly for a cloud type with height, or for a run of cloud types each followed by its okta digit, and holds those written, in order, up to the first eight. An accepted append adds exactly one cloud type with height. Every group so built holds between one and eight cloud types.

Approach: As C42 for runs of cloud types; the iterated search is shown to enumerate the run.

- `C43_type` (CloudTypes.lean): The texts that are a cloud type, and which.
- `C43_parse` (CloudTypes.lean): Cloud types in remarks: one cloud type with height, or a run of cloud types with the eighths they cover. The first eight are stored, in the order written.
- `C43_all` (CloudTypes.lean): Up to eight cloud types are all stored.
- `C43_elsewhere` (CloudTypes.lean): Outside remarks there are no cloud types.
- `C43_append` (CloudTypes.lean): What follows cloud types becomes part of them exactly when it is one cloud type with height, the last one has a height too, and there are less than eight.
- `C43_count` (CloudTypes.lean): Between one and eight cloud types are stored, each with not more than nine eighths.
- `C43_valid` (CloudTypes.lean): Cloud types are valid exactly when each covers between one and eight eighths.

### C44 Minimum and maximum temperatures keep their values, order and times — proved

Two forecast temperatures without a letter form a MinMaxTemperatureGroup whose minimum is not above its maximum; TX and TN temperatures are the maximum and the minimum as marked, and a group where the minimum is not below the maximum is reported as not valid; each temperature keeps the time it was written with, in whichever order the two groups came; observed 6-hourly and 24-hourly temperatures are those written.

Approach: Forms of the forecast temperatures and all orders of append.

- `C44_parse` (MinMax.lean): in a TAF, the texts recognised are exactly the forecast temperatures, and the group holds the temperature and the time written as minimum (`TN`) or maximum (`TX`).
- `C44_ordered` (MinMax.lean): a second forecast temperature without a letter completes a first one: the lower temperature becomes the minimum and the other the maximum, each with its time, in whichever order they came.
- `C44_not_above` (MinMax.lean): the minimum of two temperatures without letters is not above the maximum.
- `C44_labelled` (MinMax.lean): `TX` and `TN` complete each other in both orders; the minimum is the one marked so, with its time.
- `C44_other` (MinMax.lean): every other text leaves the group as it is.
- `C44_complete` (MinMax.lean): a complete group is not changed any more.
- `C44_valid` (MinMax.lean): a group reported as valid is complete, and its minimum is below its maximum.
- `C44_observed` (MinMax.lean): in remarks, a 6-hourly maximum (`1`) or minimum (`2`), or a 24-hourly maximum and minimum (`4`), is recognised with exactly the temperatures written.
- `C44_six_hourly` (MinMax.lean): the second 6-hourly temperature completes the first; neither is changed.

### C45 Trend group times are those written — proved

TrendGroup accepts exactly the documented time formats for METAR and TAF; combining BECMG/TEMPO/INTER/PROB with time spans keeps every time written, and an accepted time is never overwritten.

Approach: Specification of trend words; the group is a fold over the words read; invariant over histories of append.

- `C45_parse` (Trend.lean): the texts recognised in each part of a report are exactly the words of trends which may be written there, and the group holds the type, the probability and the times written.
- `C45_times` (Trend.lean): a group produced from a sequence of words holds every time written in them, and no other: nothing written is lost or overwritten. The probability is the one written.
- `C45_type` (Trend.lean): the type of a group is the change indicator written; without one it is the type of the only word, or a period.
- `C45_append` (Trend.lean): which texts are appended: exactly the words which may continue the words read before. Every other text leaves the group as it is.

### C46 Surface wind groups round-trip — proved

A wind group written as direction, speed, optional gust and unit is recognised with exactly these components, and every recognised surface wind has such a form.

Approach: Form type for each wind notation with text and meaning, uniqueness of reading.

- `C46_wind` (Wind.lean): the texts recognised as wind in each part of a report, and the components the group holds.
- `C46_unique` (Wind.lean): a written wind has exactly one reading: different winds have different texts or mean the same group.
- `C46_sector` (Wind.lean): a wind sector is appended to a surface wind only; the group then holds the sector written and everything else as before.
- `C46_degrees` (DistanceText.lean): Wind directions: degrees in steps of ten, variable or not reported.
- `C46_degrees_valid` (DistanceText.lean): Wind directions in text are valid exactly up to 360 degrees.

### C47 Visibility and runway visual range round-trip — proved

A visibility in metres, or a runway visual range with runway, limits and trend, is recognised with exactly the components written.

Approach: As C46.

- `C47_metar` (Visibility.lean): Visibility in the body of a weather report: exactly the texts of whole miles, metres, miles and runway visual range, with the components written.
- `C47_taf` (Visibility.lean): Visibility in a forecast: as in a weather report, but no runway visual range.
- `C47_visibility_meters` (Visibility.lean): Visibility in metres: the value, and the direction if any.
- `C47_runway_visual_range` (Visibility.lean): Runway visual range is recognised with the runway, values, unit and trend written.
- `C47_fraction` (Visibility.lean): A whole number of miles followed by a fraction of a mile is the sum, and the group is complete then.
- `C47_fraction_needed` (Visibility.lean): If no fraction of a mile follows, a whole number of miles is not a visibility.
- `C47_remark` (Visibility.lean): The words which begin a remark on visibility.
- `C47_elsewhere` (Visibility.lean): Visibility is not looked for elsewhere.
- `C47_meters` (DistanceText.lean): Visibility in metres: four digits, where 9999 means more than 10 km, or not reported.
- `C47_kilometers` (DistanceText.lean): Visibility in kilometres.
- `C47_rvr` (DistanceText.lean): Runway visual range: four digits, possibly with `P` or `M`, in metres or feet.
- `C47_cardinal` (DistanceText.lean): Cardinal directions in text: the eight octants, no direction, and where allowed overhead, all quadrants and unknown.

### C48 Cloud layers round-trip — proved

A cloud layer written as amount, height and convective type is recognised with exactly these components, and nothing else is recognised as one. The okta value of every cloud group is the largest number of eighths for its amount and never above eight.

Approach: As C46.

- `C48_cloud` (Clouds.lean): Clouds in the body of a report: a clear sky, or a layer with the amount, height and convective type written, or vertical visibility.
- `C48_remark` (Clouds.lean): Clouds in remarks: the words, obscurations, and amounts of clouds that are recognised.
- `C48_ceiling` (Clouds.lean): The ceiling in remarks: a height, or two heights between which it varies.
- `C48_variable` (Clouds.lean): Variable amount of clouds: `V` and the next higher amount.
- `C48_obscuration` (Clouds.lean): Amount and height of an obscuration.
- `C48_where` (Clouds.lean): The runway or direction of a ceiling. What is neither ends the group without becoming part of it.
- `C48_place` (CeilingPlace.lean): a runway behind the height of the ceiling is taken as the place, otherwise a direction is, and anything else is left to be a group of its own.
- `C48_okta` (Clouds.lean): The okta value of a cloud group is the largest number of eighths for the amount of clouds, and is not above eight.
- `C48_height` (DistanceText.lean): Heights: three digits in hundreds of feet, or not reported.
- `C48_layer` (DistanceText.lean): Layers of turbulence and icing: three digits of base height in hundreds of feet and one digit of depth in thousands of feet.

### C49 Location and release time round-trip — proved

LocationGroup::parse accepts in the header exactly one capital letter followed by three capital letters or digits and toString returns that text; ReportTimeGroup::parse accepts exactly six digits and Z and holds these numbers.

Approach: As C46.

- `C49_location` (Location.lean): a location is recognised in the report header only, and exactly when the text is a capital letter and three capital letters or digits; `toString` returns the text.
- `C49_time` (Location.lean): a release time is recognised in the report header only, and exactly when the text is six digits and `Z`; the group holds the day, hour and minute written.
- `C49_time_valid` (Location.lean): a release time is valid exactly when there is a day, and day, hour and minute are valid.

### C50 Visitor dispatch — proved

Visitor::visit calls exactly the method for the alternative held by the group, with that group's report part and raw string, for every group of a result in order.

Approach: `Visitor` modelled as a record of methods over arbitrary type.

- `C50_dispatch` (Visitor.lean): Visiting a group calls the method for the alternative held by the group, and no other method, with the report part and the text given. The result of a method stands for its effect too: nothing is assumed about the type `T`.
- `C50_total` (Visitor.lean): Every group of a result is passed to one of the methods, with its own report part and text: the value returned for no alternative is never returned.
- `C50_in_order` (Visitor.lean): Visiting the groups of a result one after the other calls the methods in the order of the groups, once for each group, with its value, its report part and its text.

### C51 Temperature and dew point are those written — proved

TemperatureGroup::parse accepts in the body of a METAR exactly a temperature in degrees, a slash and possibly a dew point, and in remarks exactly T with values in tenths or the words T and TD that MISG must follow; the group returns the values written. A group is invalid exactly if both values are reported and the temperature is below the dew point.

Approach: Form types for degrees and tenths with text and meaning; equivalence for all strings through the regular expression.

- `C51_body` (Temperature.lean): temperature and dew point in the body of a weather report. The texts recognised are exactly a temperature, a slash and possibly a dew point, and the group holds the values written.
- `C51_remark` (Temperature.lean): temperature and dew point in remarks. The texts recognised are exactly `T` with temperature and possibly dew point in tenths, and the beginnings `T` and `TD` of a note that data are missing.
- `C51_elsewhere` (Temperature.lean): elsewhere temperatures are not looked for.
- `C51_missing` (Temperature.lean): the note that data are missing is completed by `MISG` and by nothing else; any other text undoes it. Temperature and dew point take no further text.
- `C51_complete` (Temperature.lean): complete notes take no further text.
- `C51_valid` (Temperature.lean): a group from the body of a report is valid unless temperature and dew point are both reported and the temperature is the lower one.
- `C51_valid_remark` (Temperature.lean): a group from remarks is valid unless temperature and dew point are both reported and the temperature is the lower one.

### C52 Pressure is that written — proved

PressureGroup::parse accepts in each report part exactly the pressure notations of that part (QNH, forecast QNH, SLP, QFE, SLPNO, PRES MISG) with the value and unit written; PRES is completed by MISG only.

Approach: Each notation characterised through C36; the parts are disjoint by their first letters and length.

- `C52_body` (Pressure.lean): pressure in the body of a weather report.
- `C52_forecast` (Pressure.lean): pressure in the body of a forecast.
- `C52_remark` (Pressure.lean): pressure in remarks.
- `C52_elsewhere` (Pressure.lean): elsewhere pressure is not looked for.
- `C52_append` (Pressure.lean): `PRES` must be followed by `MISG`, which completes it; any other text undoes it. No other pressure group takes further text.
- `C52_complete` (Pressure.lean): a complete pressure group takes no further text.

### C53 Pressure tendency is that written — proved

PressureTendencyGroup::parse accepts exactly the tendency notations in remarks and returns the type and difference written; trend() agrees with the code table.

Approach: As C51, with the code table as a list.

- `C53_tendency` (Pressure.lean): pressure tendency in remarks: rapid change, or `5` with code and difference of pressure.
- `C53_elsewhere` (Pressure.lean): elsewhere pressure tendency is not looked for, and it takes no further text.
- `C53_append` (Pressure.lean): 
- `C53_trend` (Pressure.lean): the trend told by the code: codes 1 to 3 mean a higher pressure than three hours before, 0 higher or the same, 4 the same, 5 lower or the same, 6 to 8 lower.

### C54 State of runways is that written — proved

RunwayStateGroup::parse accepts in the body of a METAR exactly SNOCLO, R/SNOCLO, or a runway, a slash and closed, cleared or deposits, extent, depth and friction, and returns what is written by the WMO code tables; the group is valid exactly if the runway is and the extent is not a reserved code.

Approach: Form type for the text after the runway; uniqueness of reading; tables as lists.

- `C54_state` (RunwayState.lean): a text in the body of a weather report is recognised as state of runways exactly if it is `SNOCLO`, `R/SNOCLO`, or a runway, a slash and one of the states, and the group tells what is written.
- `C54_elsewhere` (RunwayState.lean): elsewhere state of runways is not looked for, and it takes no further text.
- `C54_append` (RunwayState.lean): 
- `C54_valid` (RunwayState.lean): a recognised state of a runway is valid exactly if the runway is valid and the extent is none of the reserved codes 3, 4, 6, 7 and 8.

### C55 Sea surface is that written — proved

SeaSurfaceGroup::parse accepts in the body of a METAR exactly W, a temperature, a slash and height of waves or state of surface, and returns what is written.

Approach: Form type for the whole text, with C27 and C39 for the two values.

- `C55_sea_surface` (SeaSurface.lean): a text in the body of a weather report is recognised as sea surface exactly if it is `W`, a temperature, a slash and height of waves or state of the surface, and the group holds what is written.
- `C55_elsewhere` (SeaSurface.lean): elsewhere sea surface is not looked for, and it takes no further text.
- `C55_append` (SeaSurface.lean): 

### C56 Precipitation is that written — proved

PrecipitationGroup::parse accepts exactly the rainfall notation in the body and the words and codes of remarks, returns what is measured, amount and unit; the meaning of code 6 depends on the hour of the report. SNINCR takes one pair of numbers, ICG and PCPN are completed by MISG only.

Approach: Table of codes as specification; form type for the regular expression; uniqueness of reading; values through C37.

- `C56_remark` (Precipitation.lean): precipitation in remarks. The texts recognised are exactly the words of the list and the codes of the table followed by their number of digits or slashes, and the group tells what is measured with the amount written. What `6` measures depends on the hour of the report.
- `C56_amount` (Precipitation.lean): the number held is the number written in its unit, whatever the rounding: it differs by less than a thousandth, and rounding gives the digits back.
- `C56_rainfall` (Precipitation.lean): rainfall in the body of a weather report: `RF`, the rain of the last ten minutes, a slash and the rain since 9 in the morning.
- `C56_elsewhere` (Precipitation.lean): elsewhere precipitation is not looked for.
- `C56_append` (Precipitation.lean): what follows a group of precipitation. `SNINCR` takes one text with increase and depth; the words which say that data are missing are completed by `MISG` and undone by anything else; any other group takes nothing.
- `C56_append_once` (Precipitation.lean): once the amounts have been taken, or `MISG` has followed, nothing more is taken.
- `C56_valid` (Precipitation.lean): a group is valid exactly if it does not wait for `MISG`.

### C57 Icing and turbulence layers are those written — proved

LayerForecastGroup::parse accepts in a TAF exactly a kind of icing or turbulence and a layer, returns kind, base and top written, and the base is never above the top.

Approach: As C55, heights through C48.

- `C57_layer` (LayerForecast.lean): a text in a forecast is recognised as a layer exactly if it is a kind of icing or turbulence followed by a layer, and the group holds the kind, base and top written.
- `C57_elsewhere` (LayerForecast.lean): elsewhere layers are not looked for, and they take no further text.
- `C57_append` (LayerForecast.lean): 
- `C57_base_below_top` (LayerForecast.lean): the base of a recognised layer is never above its top.

### C58 Low, middle and high clouds are those written — proved

LowMidHighCloudGroup::parse accepts in remarks exactly 8/ and three codes and returns the clouds of the WMO code tables; a group is invalid exactly if a layer is reported above one which hides it.

Approach: Tables as lists.

- `C58_clouds` (SeaSurface.lean): a text in remarks is recognised as low, middle and high clouds exactly if it is `8/` and three codes, and the group tells the clouds of these codes, a slash being not observable.
- `C58_elsewhere` (SeaSurface.lean): elsewhere these clouds are not looked for, and they take no further text.
- `C58_append` (SeaSurface.lean): 
- `C58_valid` (SeaSurface.lean): a recognised group is valid exactly if nothing is reported above a layer through which one cannot see: after a slash only slashes follow.

### C59 Direction sectors are those written — proved

A direction sector is recognised exactly if it is the names of two or more octants (N, NE, E, SE, S, SW, W, NW) joined by dashes. The sector decoded goes from the first octant named to the last one, and listing its octants always ends with the clockwise sweep between them.

Approach: Induction over the repetitions of the middle part of the regular expression gives all its matches as dash-separated lists; a text determines its list, so the sub-matches are unique. Names accepted by the regular expression that are not octants (EW, WE, ...) are rejected by the decoder of cardinal directions, proved in C47.

- `C59_sector` (Sectors.lean): Sectors in text are the names of two or more octants joined by dashes; the sector decoded goes from the first to the last one.
- `C59_accepts` (Sectors.lean): Every such text is decoded.
- `C59_covered` (Sectors.lean): The octants covered by a sector decoded from text: the enumeration always ends.

### C60 Lightning is that written — proved

A sequence of texts in the remarks forms one lightning group exactly if it is: an optional frequency (OCNL, FRQ, CONS), LTG with type codes, any number of distances (DSNT, VC), and none, one or two directions or sectors (OHD, ALQDS and NDV included), with words AND after the first one. The group reports exactly that frequency, the types among the first six codes, the last distance and those directions, listed once each. A text that does not belong to the group leaves it unchanged, and invalidates it exactly if LTG is missing after the frequency.

Approach: Induction over the sequence of texts with the written form as invariant, in both directions. The loop over the type codes is proved to set exactly the flags of the codes present.

- `C60_history` (Lightning.lean): A sequence of texts is taken for one lightning group exactly if it is lightning as written, and the group has the values written.
- `C60_remark` (Lightning.lean): Lightning is recognised in remarks only.
- `C60_rejected` (Lightning.lean): A text that does not belong to the group leaves the group as it is, and makes it invalid exactly if the group is a frequency without the types of lightning.
- `C60_directions` (Lightning.lean): The directions listed for lightning are those of the directions and sectors written, without repetitions, the first one first; the list is always obtained.
- `C60_valid` (Lightning.lean): A lightning group is valid exactly if none of the first six codes after `LTG` is unknown.

### C61 Phenomena in the vicinity are those written — proved

A sequence of texts in the remarks forms one group for a phenomenon in the vicinity exactly if it is a beginning of: name of the phenomenon (ROTOR CLD for rotor clouds), optional distance (DSNT, VC or kilometres), one direction or sector, optionally AND and a second one, optionally MOV and a direction of movement. The group reports exactly what is written. When the next text does not belong to it, the group is valid if it has a distance or direction and does not end with AND or MOV, and is invalidated otherwise; its values never change.

Approach: Induction over the sequence of texts with the written form as invariant, in both directions.

- `C61_history` (Vicinity.lean): A sequence of texts is taken for one group exactly if it is a phenomenon in the vicinity as written, and the group has the values written.
- `C61_remark` (Vicinity.lean): Phenomena in the vicinity are recognised in remarks only.
- `C61_rejected` (Vicinity.lean): What happens to a group when a text does not belong to it. A name without distance and direction, AND without a second direction and MOV without a direction make the group invalid; any other group becomes valid. The values do not change in either case.
- `C61_complete` (VicinityEnds.lean): a group which is left as it is when a word does not belong to it has more than the name of the phenomenon and does not end with AND or MOV.
- `C61_directions` (Vicinity.lean): The directions listed are those of the directions and sectors written, without repetitions, the first one first; the list is always obtained.

### C62 Miscellaneous groups are those written — proved

Colour codes, corrected observations (CCA to CCZ), TAF issuers (FN, FS and five digits), sunshine minutes (98 and three digits), FROIN, density altitude (DENSITY ALT with feet or MISG) and hailstones (GR with inches and quarters) are recognised exactly in the parts of the report where they are allowed, exactly if spelled so, and the value reported equals the one written; hailstone sizes are exact multiples of a quarter inch between 1/4 and 9 3/4. A text that does not belong to the group leaves it unchanged and invalidates it exactly if it is incomplete.

Approach: All matches of the three regular expressions as decimal numbers; induction over the sequence of texts; quarters of inches are exact in binary floating point (IEEE 754 laws of Ieee.lean).

- `C62_history` (Misc.lean): A sequence of texts is taken for one group exactly if it is listed above, and the group has the values written.
- `C62_rejected` (Misc.lean): A text that does not belong to the group leaves the group as it is. It makes the group invalid exactly if the group is incomplete: density altitude without its value, or hailstones without quarters of an inch.
- `C62_density` (Misc.lean): Density altitude below 2^24 feet is kept exactly.
- `C62_hail` (Misc.lean): The value of a hailstone is never zero and at most 9 3/4 inches.

### C63 Wind groups of several texts are those written — proved

Exactly the following sequences of report groups become one wind group, with exactly the values written: surface wind or wind shear, alone or (surface wind only, not calm) followed by a variable sector; a variable sector alone; WSCONDS; WS ALL RWY; WS with a runway; WND MISG; PK WND with direction, speed and time; WSHFT with optional time and optional FROPA. A time of two digits is the minute in the hour of the report and needs a report time. A text which does not fit ends a finished group unchanged and discards an unfinished one. The group is valid exactly if directions, times and runways are possible, gusts exceed the speed, and shear is above ground.

Approach: Grammar of sequences `WindSequence` written as an inductive predicate; induction over the sequence with the last text split off; the peak wind expression is characterised by its form type. Validity by cases on the optional parts.

- `C63_history` (WindRemarks.lean): A sequence of texts is taken for one wind group exactly if it is wind, peak wind, wind shift, missing wind data or wind shear as written, and the group has the values written.
- `C63_rejected` (WindRemarks.lean): A text which does not continue the group: the group is discarded if it was left unfinished by a keyword which needs a continuation, and otherwise it is complete and stays as it was.
- `C63_valid_wind` (WindRemarks.lean): Which winds are valid: the direction is at most 360 degrees, gusts are not zero and exceed the wind speed, wind shear is not at ground level. (A speed of 999 without gusts counts as invalid.)
- `C63_valid` (WindRemarks.lean): Which peak winds, wind shifts and wind shears on runways are valid.

### C64 Remarks on visibility are read as written — proved

In remarks exactly the following sequences of report groups become one visibility group with exactly the values written: VIS MISG; VIS with a distance (whole miles, fraction, whole miles and fraction as separate groups, metres) or a range (minimum and maximum separated by V, each possibly split between groups), optionally followed by a runway; VIS with a direction or sector and a distance in miles or a range; SFC VIS and TWR VIS with a distance; RVRNO; RVR MISG; VISNO, alone or with a runway, direction or sector. A fraction added to whole miles gives exactly the sum. A text which does not fit discards a remark that is of no use without continuation and otherwise leaves it complete and unchanged. A complete remark is valid exactly if the runway is possible and the minimum does not exceed the maximum, compared as the exact rational values.

Approach: Grammar `VisRemark` (over `Amount`, `Minimum` and the texts of single distances) as inductive predicates; induction over the sequence with the last text split off; the readers tried in turn are shown to accept different kinds of text (`wordKind`), so their order does not matter. Order of distances: denominators are below 100, so numbers kept in 1/10000 mile and rounded to float compare like the rationals.

- `C64_history` (VisibilityRemarks.lean): In remarks, exactly the sequences of texts above are taken as one visibility group, and it holds exactly what they say: a missing visibility, the prevailing visibility or its range (in metres, or in miles with whole number and fraction as separate texts), the same for a runway, in a direction or a sector, at the surface or from the tower, missing runway visual range, and missing visibility on a runway or in a direction.
- `C64_rejected` (VisibilityRemarks.lean): A text which does not continue the remark: if the remark is of no use without a continuation (or the text is a range in a place where a range is not expected), the group is discarded; otherwise the group is kept as it is, it is complete, and the text begins another group.
- `C64_valid` (VisibilityRemarks.lean): A complete remark on visibility is valid exactly if the runway (if any) exists and the minimum visibility does not exceed the maximum one.

### C65 The raw strings of a result are a report with the same result — proved

Joining the raw strings of the groups of any result with spaces gives a report which, parsed with the same group limit, has exactly the same result: same report type, error and metadata, and the same groups with the same report parts and raw strings. So a caller may store the raw strings and parse them again, also when parsing stopped at an error, and results with the same raw strings are the same result.

Approach: From C04 the words of the raw strings are the groups processed; each group of a report is by itself a report of one group (a plus sign can only be its first or last character); the run over the processed groups ends in the same state because an error stops the run.

- `C65_reparse` (Reparse.lean): The raw strings of the groups of a result, joined by spaces, are a report which, parsed with the same group limit, has exactly the same result: the same metadata, the same error and the same groups with the same report parts and raw strings.
- `C65_raw_strings_determine` (Reparse.lean): Hence the joined raw strings determine the result: two reports whose results have the same raw strings in the same order have the same result.

### C66 At most one kind of group recognises a text — proved

In every part of a report and for all metadata of the report, at most one of the 21 kinds of groups recognises a given text, so the result of parsing a group does not depend on the order in which the kinds are tried, and a text becomes an unknown group exactly if no kind recognises it. The only exceptions are BLSN, BLDU, BLSA, FU and FG in remarks, which both CloudGroup and VicinityGroup recognise; they become a CloudGroup. A text that was recognised as the beginning of a longer group and is tried again, because the rest does not follow, becomes unknown, or with those five texts the group of the other kind.

Approach: For every kind and part a regular expression that covers the recognised texts (Verif/Proofs/Shapes.lean). A derivative procedure, proved sound for all texts, shows each pair of expressions to have no text in common (Verif/Proofs/RegexDisjoint.lean).

- `C66_one_kind` (Kinds.lean): A text in a part of the report is recognised as at most one kind of group. In remarks five texts are recognised both as an obscuration by `CloudGroup` and as a phenomenon by `VicinityGroup`.
- `C66_ambiguous` (Kinds.lean): The five texts are indeed recognised in both ways.
- `C66_order_free` (Kinds.lean): Whatever the order of trial, a text that some kind of group recognises is parsed as that group; only the five texts in remarks are taken as obscurations although they could be phenomena in the vicinity.
- `C66_unknown` (Kinds.lean): A text is parsed as an unknown group only if no kind of group recognises it.
- `C66_second_try` (Kinds.lean): A text that has been recognised as one kind and is then tried again becomes the group of another kind that recognises it, or unknown if there is none.
- `C66_second_unknown` (Kinds.lean): Except for the five texts in remarks the second try gives an unknown group.

### C67 In the body a group takes the next word only if it is of the same kind — proved

In the body of a METAR or TAF a group, made of any number of words, is neither extended nor changed by the next word if that word by itself is not recognised as a group of the same kind. The exceptions are the words after which the parser waits for more: WS, WS ALL and a whole number of one or two digits. Only these can turn out to be unknown because of the next word. A group which does not take a word is not changed by it.

Approach: Invariant on the groups that can arise in a body, by induction on the words (Verif/Proofs/Reading.lean, Verif/Proofs/Cut.lean), then a case analysis of the 21 append functions.

- `C67_other_kind` (Body.lean): A group in the body of a METAR or TAF, made of any number of words, is neither extended nor changed by the next word if that word by itself is not recognised as a group of the same kind. The exceptions are the words after which the parser waits for more.
- `C67_unchanged` (Body.lean): A group in the body which does not take the next word is not changed by it, of whatever kind that word is.
- `C67_unfinished` (Body.lean): An unfinished group which does not take the next word is unknown.

### C68 The groups of a report are those into which its words are divided from left to right — proved

Parsing a METAR or TAF with a complete header gives the header groups, each in its own word, followed by the groups into which the words of the body are divided: from left to right each group takes as many words as it can, words which are not recognised or turn out to be incomplete are unknown, and adjacent unknown words form one group. With remarks, RMK follows as a group of the body and everything after it is in the remarks; the body is not influenced by the remarks. The report type is that of the header and there is no error.

Approach: An inductive specification of the division (Verif/Spec/Reading.lean), shown to exist for every sequence of words and to be followed by the parser loop: induction over the division, with the last group possibly still open (Verif/Proofs/Cut.lean, Header.lean, Remarks.lean).

- `C68_cut_exists` (Body.lean): Every sequence of words in the body of a report can be divided into groups.
- `C68_body` (Body.lean): The result of parsing a report without remarks: the groups of the header, each in its own word, and then the groups into which the words of the body are divided.
- `C68_remarks` (Body.lean): The result of parsing a report with remarks: the groups of the header and of the body, which is divided as if `RMK` followed, then `RMK` as a group of the body, and then only groups of the remarks.

### C69 The body of a report is divided into groups by its text alone — proved

Which words of a METAR or TAF body make up one group, and what the group then says, is given by a table of texts: keywords, trend sentences, wind with and without a sector, visibility, clouds, weather, temperature, pressure, runway state, sea surface, forecast temperatures, rainfall, icing and turbulence layers, and miscellaneous codes. It does not depend on the metadata of the report. The same words are never two different groups. Every body can be divided from left to right into groups that take as many words as they can, in exactly one way, and the result of parsing a report with a complete header has exactly these groups, whatever the remarks say.

Approach: The table is an inductive relation between words and groups (Verif/Props/Written.lean) that collects the specifications of the single kinds. It is shown equal to what parse and append do by induction on the words. The division (Verif/Props/Division.lean) mentions only the table; it is shown equivalent to the division followed by the parser loop.

- `C69_written` (Written.lean): The words which make up one group in the body of a report, and the group, are exactly those which the table of texts says.
- `C69_unique` (Division.lean): The words determine the group.
- `C69_exists` (Division.lean): Every sequence of words can be divided.
- `C69_division_unique` (Division.lean): The division is unique.
- `C69_body` (Division.lean): The result of parsing a report without remarks, in terms of its text only: the header, and then the groups into which the words of the body are divided.
- `C69_remarks` (Division.lean): The result of parsing a report with remarks: the header and the groups into which the words of the body are divided, which do not depend on the remarks, then `RMK`, and then only groups of the remarks.

### C70 What is written is read back — proved

A report which is written as a header (METAR or SPECI, optionally COR, location and time; or TAF, optionally COR or AMD, location, optionally time, and period of validity) followed by any sequence of groups, each in the words that express it, is decoded into exactly these groups: one for each, in the right part of the report, with the words as raw string, and no error. It is enough that groups of the kinds which can have several words (trend, wind, weather, forecast temperature) are not followed directly by a group of the same kind. The words may be joined by single spaces, or by any blanks, and may be followed by the end sign and any other text. Remarks do not disturb the groups before them.

Approach: Neighbouring groups of different kinds are not confused (C66, C67), groups of the kinds with one word take no further word, and so the groups are the unique division of C69. That each word is one token is proved by a syntactic check of the regular expressions of all kinds (Verif/Proofs/Words.lean).

- `C70_groups` (Decoding.lean): Groups written one after the other, each finished and such that neighbours are not confused, are the groups into which their words are divided.
- `C70_layout` (Decoding.lean): A report which is written as a header and a sequence of groups is decoded into exactly these groups: for each of them the result has one group, in the part of the report where it is written, with the text as it is written. The words of the report are separated by any blanks.
- `C70_report` (Decoding.lean): What is written is read back. The words of a header and of a sequence of groups, joined by spaces, and possibly followed by the end sign and anything else, are a report that is decoded into exactly these groups.
- `C70_remarks` (Decoding.lean): The same for a report with remarks: whatever is written in the remarks, the header and the body are decoded into the groups of which they are written, and everything after `RMK` belongs to the remarks.

### C71 Validity of the groups of a report body — proved

For every group written in the body of a METAR or TAF, isValid() gives an answer, and the answer is false exactly in these cases: the words are not complete (WS, WS ALL, a whole number of miles, a lone probability, a forecast temperature not marked as minimum or maximum); a trend contains a time with a day outside 1..31, an hour above 24 or a minute above 59; wind from beyond 360 degrees, gusts of zero or not above the wind speed, wind shear at height zero, or a wind speed of 999 without gusts; a sector beyond 360 degrees; a runway that does not exist (number above 36 other than 88 and 99 without designator) in wind shear, runway visual range and runway state; a variable runway visual range whose minimum is missing or above its maximum; a dew point above the temperature (minus zero counts as below zero); a reserved code of contamination; a forecast temperature at a time that cannot occur, or a minimum that is not below its maximum. All other groups are valid.

Approach: The faulty texts are listed in an inductive predicate which mentions only texts. Each faulty text is a group that is not valid (with C69_unique), and each group of the table of C69 is valid unless it is in the list; both by cases.

- `C71_valid` (Validity.lean): The check of validity of a group of a report body always gives an answer, and the answer is no exactly if the group is faulty.

### C72 The language of remarks — proved

In the remarks of a report, a sequence of words makes up one group exactly if it is listed in a table of the remark phrases, written as texts: keywords; one-word remarks (PWINO, TSNO, SLPNO, PNO, FZRANO, PRESRR, PRESFR); words saying that something is missing, with or without MISG; wind (WND MISG, PK WND, WSHFT); visibility (VIS, VISNO, SFC VIS, TWR VIS, RVR, RVRNO); clouds (CLD MISG, CIG, CHINO, obscurations, variable amounts); beginning and end of weather events; TS/LTNG TEMPO UNAVBL; temperature to tenths; pressure; six-hourly and daily extremes; precipitation; snow increasing rapidly; pressure tendency; cloud types; low, middle and high clouds; lightning; phenomena in the vicinity; miscellaneous. The table gives the resulting group. The words determine the group, except that BLSN, BLDU, BLSA, FU and FG alone may be an obscuration or a phenomenon in the vicinity. A word continues a remark just if the words with it are in the table. Otherwise the group is complete and stays as it is (only the note that more is expected is dropped), unless the words are in a list of beginnings that are of no use alone; those are rejected.

Approach: Inductive predicates over texts for every kind of remark, put together in one table. Soundness by induction on the words taken (`Reads`), completeness by cases on the table using the theorems for the single kinds (C46-C64). The unusable beginnings are a second list of texts; each is shown to be rejected, and each rejection to be in the list.

- `C72_clouds` (CloudRemarks.lean): In remarks, exactly the sequences of texts above are taken as one cloud group, and it holds exactly what they say.
- `C72_clouds_rejected` (CloudRemarks.lean): A text which does not continue the remark: if the remark is of no use without a continuation, the group is discarded; otherwise it is complete and stays as it was.
- `C72_remark` (RemarkTable.lean): In the remarks of a report words make up a group if and only if they are one of the listed remarks, and the group is the one listed.
- `C72_unique` (RemarkEnds.lean): The words determine the remark, except that the name of an obscuration alone may also be the beginning of a phenomenon in the vicinity.
- `C72_continues` (RemarkEnds.lean): A word continues a remark just when the words of the remark and this word are a remark.
- `C72_rejected` (RemarkEnds.lean): If no remark begins with the words of a remark and the next word, the remark is complete as it is, or the words are of no use.

### C73 How the remarks of a report are divided into groups — proved

The words after RMK in a METAR or TAF are divided into groups from left to right in exactly one way, given by their texts and the hour of the report time in the header alone. Each remark (in the sense of C72) takes as many words as it can; words that are of no use without the continuation they lack, and words that are no remark, are unknown, and adjacent unknown words are put in one group. A lone BLSN, BLDU, BLSA, FU or FG is an unknown group after an empty group for a phenomenon in the vicinity. The result of parsing the whole report is the groups of the header, those of the body, RMK and those of the remarks.

Approach: `DividedRemarks` describes the division by the table of remarks of C72 and the list of unusable beginnings. By induction on it the parser's fold over the words gives these items; the words of one remark are handled by induction on their number, with the second reading of an ambiguous word as a separate case. That words of a rejected remark are unknown at the second try follows from the kinds of texts being apart also when only the first word is compared. Existence by induction on the number of words, uniqueness because the longest remark is unique.

- `C73_exists` (RemarkDivision.lean): Every sequence of words can be divided into remarks.
- `C73_unique` (RemarkDivision.lean): The division is unique.
- `C73_report` (RemarkDivision.lean): The result of parsing a report with remarks: the groups of the header, those into which the words of the body are divided, `RMK`, and those into which the words of the remarks are divided.

### C74 Which groups of a whole report are valid — proved

For every group in the result of parsing a METAR or TAF, isValid() gives an answer, and the answer is no exactly if the text of the group is faulty. In the header only a report time or forecast period with a day, hour or minute that does not exist is faulty. In the body the faults are those of C71. In the remarks they are: a peak wind with direction above 360 degrees, speed 999 or a time that does not exist; a wind shift or weather event at such a time; a visibility range with the lower bound not below the upper; a runway which does not exist; dew point above temperature; maximum temperature not above the minimum; cloud layers of 0 or 9 oktas; middle or high clouds reported although hidden by lower ones; an unknown lightning type; and the empty group left by a lone BLSN, BLDU, BLSA, FU or FG. Unknown groups are always valid.

Approach: `RemarkFaulty` and `HeaderFaulty` list the faulty texts. By cases on the table of remarks each group is valid, faulty, or one of the phrases which the division turns into unknown groups; the converse by the uniqueness of C72. `C74_report` follows from the division of C69 and C73: an entry of the result is unknown, a group of the header, body or remarks, or the empty group before an ambiguous word, and its words are recovered from its text.

- `C74_remark` (RemarkValidity.lean): The check of validity of a complete remark always gives an answer, and the answer is no exactly if the remark is faulty.
- `C74_header` (RemarkValidity.lean): The check of validity of a group of the header always gives an answer, and the answer is no exactly if it is a time or a period which cannot be.
- `C74_body` (RemarkValidity.lean): In the result of parsing a report without remarks, the check of validity of a group always gives an answer, and the answer is no exactly if the group is faulty.
- `C74_report` (RemarkValidity.lean): In the result of parsing a report with remarks, the check of validity of a group always gives an answer, and the answer is no exactly if the group is faulty.

### C75 Every group of every result says what its text says — proved

Whatever text is parsed, with whatever limit on the number of groups, and whether or not an error is reported, every group of the result either is an unknown group or says exactly what its own text says in its part of the report: in the header a keyword, location, time or period; after NIL or CNL only the maintenance indicator; in the body of a METAR or TAF one of the phrases of C70, complete; in the remarks one of the phrases of C72, complete, read with the hour which the metadata of the result gives as report time. The only other group is the empty one left in the remarks before a lone BLSN, BLDU, BLSA, FU or FG. Consequently isValid() gives an answer for every group of every result, and the answer is no exactly if the text is faulty in the sense of C71 and C74.

Approach: Invariant over the reachable states of the parser: all groups but the last are settled, the last one is closed or a phrase of the part the parser is in, and while the parser is in the header all groups are words of the header, so that the hour of the report may still change. The step uses the outcome of appending one word (C67, C69, C72, C73); a final empty text has the same effect in all parts. Validity follows from C71 and C74.

- `C75_said` (AnyReport.lean): Whatever the text and whatever the limit of the number of groups, every group of the result is an unknown group or says what its own text says in its part of the report.
- `C75_header` (AnyReport.lean): A word of the header is valid unless it is a time or a period which cannot be.
- `C75_valid` (AnyReport.lean): Whatever the text and whatever the limit of the number of groups, the check of validity of every group of the result gives an answer, and the answer is no exactly if the group is faulty.

### C76 The type of a visibility group tells what its accessors give — proved

For every visibility group of every result: minVisibility() and maxVisibility() are reported only for the VARIABLE_ types, visibility() only for the others; maxVisibility() always is for the VARIABLE_ types, and so is minVisibility() except for a variable runway visual range; visibility() always is for SURFACE, TOWER, RUNWAY and SECTOR and never for VIS_MISG, RVR_MISG, RVRNO and VISNO. runway() is given only for RUNWAY, VARIABLE_RUNWAY, RVR, VARIABLE_RVR and VISNO, always for the first two, and a runway visual range without a runway has no value (at most a maximum). direction() is given only for PREVAILING_NDV, DIRECTIONAL, VARIABLE_DIRECTIONAL and VISNO, always for the first three, for PREVAILING_NDV being NDV. sectorDirections() always returns, lists no direction twice, is not empty only for SECTOR, VARIABLE_SECTOR and VISNO, always for the first two, and then there is neither a runway nor a direction; there are never both a runway and a direction. trend() other than NONE is given only for runway visual range. The distances given are those written in the text of the group: a single value is what visibility() gives, and of a range minVisibility() gives the first and maxVisibility() the second.

Approach: C75 gives the phrase the group was read from; the phrases of C70 and C72 are gone through one by one, leaving out those which are of no use without a continuation. The same cases give the distances (Props/AccessorValues.lean). Sectors are listed by C35 (its proved part covers all sectors which can be written).

- `C76_visibility` (Accessors.lean): For every visibility group of every result, the type tells which accessors give what.
- `C76_values` (AccessorValues.lean): The distances which the accessors of a visibility group give are the ones its text says: a single value, or a minimum and a maximum, or none.

### C77 The type of a cloud group tells what its accessors give — proved

For every cloud group of every result: amount() is one of NONE_CLR, NONE_SKC, NCD, NSC exactly for NO_CLOUDS, OBSCURED exactly for VERTICAL_VISIBILITY, and NOT_REPORTED for ceilings and missing data. height() is reported only for CLOUD_LAYER, CEILING and OBSCURATION, always for the last two; minHeight() and maxHeight() are both reported exactly for VARIABLE_CEILING; verticalVisibility() only for VERTICAL_VISIBILITY; all of these are in feet when reported. convectiveType() other than NONE is given only for CLOUD_LAYER. runway() and direction() are given only for CEILING, VARIABLE_CEILING and CHINO, and never both. cloudType() is given exactly for CLOUD_LAYER, CEILING, VARIABLE_CEILING and OBSCURATION; its height is the height of the group (the least height for variable ceiling) and its okta the largest which the amount allows; its type is cumulonimbus or towering cumulus as the convective type says, or for OBSCURATION one of the six named ones. The heights given are those written in the text of the group: a single height is what height() gives (verticalVisibility() after VV), and of a range minHeight() gives the first and maxHeight() the second.

Approach: As C76: C75 gives the phrase the group was read from, and the phrases of C70 and C72 are gone through one by one.

- `C77_clouds` (Accessors.lean): For every cloud group of every result, the type tells which accessors give what.
- `C77_values` (AccessorValues.lean): The heights which the accessors of a cloud group give are the ones its text says: a single height, the vertical visibility, a minimum and a maximum, or none.

### C78 The type of a wind group tells what its accessors give — proved

For every wind group of every result: PEAK_WIND, WIND_SHIFT, WIND_SHIFT_FROPA and WND_MISG are exactly the types of remarks, WSCONDS is found only in forecasts, WIND_SHEAR_IN_LOWER_LAYERS only in the body of weather reports. direction() is reported only for SURFACE_WIND, SURFACE_WIND_WITH_VARIABLE_SECTOR, WIND_SHEAR and PEAK_WIND, windSpeed() for these and SURFACE_WIND_CALM, whose speed is zero without direction and gusts. A peak wind always has a direction in degrees, a speed in knots and a time. gustSpeed() is reported only for surface wind and wind shear, in the unit of the wind speed. height() is reported exactly for WIND_SHEAR, in feet. varSectorBegin() and varSectorEnd() are multiples of ten degrees for the two types with variable sector and not reported otherwise. eventTime() is given only for wind shifts and peak wind, without a day. runway() is given exactly for WIND_SHEAR_IN_LOWER_LAYERS.

Approach: C75 gives the phrase the group was read from; `every_group` turns this into a principle: what holds of the groups of all phrases of C70 and C72 which need no continuation holds of all groups of all results. The phrases are gone through one by one.

- `C78_wind` (Contents.lean): For every wind group of every result, the type tells which accessors give what.

### C79 The type of a trend group tells what its accessors give — proved

For every trend group of every result: it is in a body, or it is a TIME_SPAN in the header; NOSIG, UNTIL and AT are found only in weather reports, PROB and probabilities only in forecasts. NOSIG has no contents; PROB has a probability and no time; FROM, UNTIL and AT have no probability and just the one time they name; TIME_SPAN has both a beginning and an end; BECMG never has a probability. timeAt() is never given together with timeFrom() or timeUntil(). Times have a day except in weather reports.

Approach: C75 gives the phrase the group was read from; `every_group` turns this into a principle: what holds of the groups of all phrases of C70 and C72 which need no continuation holds of all groups of all results. The phrases are gone through one by one.

- `C79_trend` (Contents.lean): For every trend group of every result, the type tells which accessors give what.

### C80 The type of a weather group tells what its accessors give — proved

For every weather group of every result: EVENT, PWINO, WX_MISG, TSNO and TS_LTNG_TEMPO_UNAVBL are exactly the types of remarks. weatherPhenomena() is not empty exactly for CURRENT, RECENT and EVENT and has at most twenty elements. The qualifier of the phenomena is RECENT exactly in groups of type RECENT, and they have an event and a time exactly in groups of type EVENT; the time has no day.

Approach: C75 gives the phrase the group was read from; `every_group` turns this into a principle: what holds of the groups of all phrases of C70 and C72 which need no continuation holds of all groups of all results. The phrases are gone through one by one.

- `C80_weather` (Contents.lean): For every weather group of every result, the type tells which accessors give what.

### C81 The types of temperature, pressure, sea surface and minimum/maximum groups tell what their accessors give — proved

For every such group of every result. Temperature: found in weather reports and remarks; the _MISG types are found only in remarks and give nothing; temperature and dew point are in tenths of a degree exactly in remarks; in remarks there is no dew point without temperature; relativeHumidity() is given exactly if both are reported. Pressure: FORECAST_LOWEST_QNH is exactly the type of forecasts, OBSERVED_QFE, OBSERVED_SLP, SLPNO and PRES_MISG are found only in remarks; the last two give no pressure; the others except OBSERVED_QNH always do, and the unit is fixed by the type (QNH in hectopascal or inches). The group is always valid. Sea surface: only in weather reports; temperature from 0 to 99 degrees, never freezing; waves below a hundred metres; a state of the surface has one of ten heights. Minimum/maximum: FORECAST is exactly the type of forecasts, the others of remarks; times are given exactly with forecast temperatures and have a day; a forecast has at least one temperature, OBSERVED_24_HOURLY both; observed temperatures are in tenths, forecast ones in degrees.

Approach: C75 gives the phrase the group was read from; `every_group` turns this into a principle: what holds of the groups of all phrases of C70 and C72 which need no continuation holds of all groups of all results. The phrases are gone through one by one.

- `C81_temperature` (Measurements.lean): For every temperature group of every result, the type tells which accessors give what.
- `C81_pressure` (Measurements.lean): For every pressure group of every result, the type tells which accessors give what.
- `C81_seaSurface` (Measurements.lean): For every sea surface group of every result, the type tells which accessors give what.
- `C81_minMax` (Measurements.lean): For every minimum/maximum temperature group of every result, the type tells which accessors give what.

### C82 The types of precipitation, runway state, layer forecast and pressure tendency groups tell what their accessors give — proved

For every such group of every result. Precipitation: RAINFALL_9AM_10MIN is found in weather reports, all other types in remarks; PNO, FZRANO, ICG_MISG and PCPN_MISG give no amount; recent() is reported only for SNOW_INCREASING_RAPIDLY (exactly if the total is) and RAINFALL_9AM_10MIN; the unit is millimetres exactly for rainfall and for accumulation since the last report, else inches; the group is always valid. Runway state: only in weather reports; AERODROME_SNOCLO is said of runway 88; deposits, extent and depth are given only for RUNWAY_STATE (the first two also if the runway is not operational), depth in millimetres; a closed runway has no friction; unreliable friction has no coefficient. Layer forecast: only in forecasts; both heights are given in feet, the top not below and at most 9000 ft above the base, or neither. Pressure tendency: only in remarks; no difference for rapid changes; the unit is hectopascal.

Approach: C75 gives the phrase the group was read from; `every_group` turns this into a principle: what holds of the groups of all phrases of C70 and C72 which need no continuation holds of all groups of all results. The phrases are gone through one by one.

- `C82_precipitation` (Measurements.lean): For every precipitation group of every result, the type tells which accessors give what.
- `C82_runwayState` (Measurements.lean): For every runway state group of every result, the type tells which accessors give what.
- `C82_layerForecast` (Measurements.lean): For every layer forecast group of every result, the type tells which accessors give what.
- `C82_tendency` (Measurements.lean): For every pressure tendency group of every result, the type tells which accessors give what.

### C83 The types of cloud type, lightning, vicinity and miscellaneous groups tell what their accessors give — proved

For every such group of every result. Cloud types, lightning, vicinity groups and low/middle/high cloud codes are found only in remarks. Cloud types: one to eight, the type always known, all with a height in feet or none, less than ten oktas. Lightning: distance() has no value, at most DISTANT or VICINITY; directions() always returns and lists no direction twice; the group is complete. Vicinity: distance() is in metres or DISTANT or VICINITY; directions() always returns and lists no direction twice; a direction of movement is given only with directions; a valid group has a distance or a direction. Miscellaneous: sunshine, density altitude, hailstone size and FROIN are found only in remarks, corrections only in weather reports, issuer identifications exactly in forecasts; data() is given exactly for the types other than colour codes and FROIN, except that density altitude may be missing; it is never negative; a hailstone size is a positive number of quarters of an inch below ten inches.

Approach: C75 gives the phrase the group was read from; `every_group` turns this into a principle: what holds of the groups of all phrases of C70 and C72 which need no continuation holds of all groups of all results. The phrases are gone through one by one.

- `C83_cloudTypes` (Measurements.lean): For every cloud types group of every result, the type tells which accessors give what.
- `C83_cloudCodes` (Measurements.lean): Groups of low, middle and high cloud codes are found only in remarks.
- `C83_lightning` (Measurements.lean): For every lightning group of every result, the type tells which accessors give what.
- `C83_vicinity` (Measurements.lean): For every vicinity group of every result, the type tells which accessors give what.
- `C83_misc` (Measurements.lean): For every miscellaneous group of every result, the type tells which accessors give what.

### C84 The whole result of parsing is determined by the words of the text — proved

For every text whatsoever and every limit, parse() returns exactly the entries (group, part and text of each), the report type and the error which the words of the text mean under a written-out specification: header words up to the first which cannot follow, with the error it causes; NIL and CNL and what may not follow them; the body and the remarks divided into the longest phrases of C70 and C72; unfinished phrases, unknown words merged; the maintenance indicator in a TAF; the limit, which ends reading with the word that reaches it. Every list of words has exactly one outcome for every limit.

Approach: The loop is simulated on each form of the specification: header by induction over `Opening`, body by C68/C69 (`fold_cut`), remarks by C73 (`fold_divided`), the remarks of a TAF by a twin run of a METAR. The limit is handled by comparing the runs with limits M and M+1 step by step. Existence is a case analysis over all lists of words, uniqueness follows from the determinism of the loop.

- `C84_outcome` (Outcome.lean): Parsing gives the entries, the type and the error which the words of the text mean.
- `C84_exists` (Outcome.lean): Every list of words has an outcome, with every limit.
- `C84_unique` (Outcome.lean): It has only one.
- `C84_meaning_unique` (Outcome.lean): The words of a report have only one meaning.

### C85 The metadata of every result is what its groups say — proved

For every text and every limit each of the nineteen fields of the metadata is a fixed function of the groups of the result, its type and its error: the last location and time, the flags of the keywords present, the number of the last correction mark, the first period. Together with C84 the complete ParseResult is determined by the words of the text.

Approach: From C13, C14 and C15_first_span field by field; C85_result combines this with C84.

- `C85_record` (Outcome.lean): The metadata of every result is what its entries, its type and its error say.
- `C85_result` (Outcome.lean): The whole result is determined by the words of the report and the limit.

### C86 Exactly which texts are parsed without error — proved

A text is parsed without error as a report of a given type if and only if its words are: an incomplete header up to location or time and NIL; a complete header and NIL; the header of a TAF and CNL; a complete header and a non-empty body without NIL, CNL and RMK (and $ in a TAF); the same with a possibly empty body, RMK and any remarks (without $ in a TAF); or a location, a time and a body or remarks without type, the first word of which is no period (a METAR) - and fewer words than the limit are counted, where the last form counts one more.

Approach: Reads the error off the cases of C84; the division of body and remarks always exists (C69, C73).

- `C86_accepted` (Accepted.lean): A text is parsed as a report of type `ty` without error exactly if its words are one of the forms of `Accepted` and the words counted are fewer than the limit.

### C87 The summary of a METAR report says what the report says before its first trend — proved

getCurrentWeather (examples/summary.cpp) given a text which parses without error as a METAR returns, whatever the TAF text and the date: the direction, speed and gusts of the last surface wind group that has them, the prevailing visibility, the cover of the sky by the rule of the code, storm clouds exactly if a layer has cumulonimbus, the codes of the current weather groups in order, temperature, humidity and sea level pressure of the last groups that have them, and the temperature felt computed with the wind written before it. Groups from the first trend on have no effect.

Approach: Induction over the groups with an accumulator: after each prefix the members are a fold of the prefix; then the fold is rewritten to `last group that has a value`. Ranges of the values (`Modest`) come from C83, what groups of results can contain.

- `C87_metar` (Summary.lean): with an accepted METAR report, the members are what the groups before its first trend say, whatever the TAF report and the date.

### C88 The summary of a TAF report says what the report says before its first change — proved

Without a METAR text that parses, wind, visibility, sky and weather are those of the groups of the TAF before its second trend (its first is the period of validity), and there is no temperature, humidity and pressure. The highest and lowest temperature always are those of the last group of the TAF on them, and missing without a TAF.

Approach: As C87, with the count of trends as a second accumulator.

- `C88_taf` (Summary.lean): without an accepted METAR report, the members on wind, visibility, sky and weather are what the groups before the second trend of the TAF report say; there is no temperature, humidity and pressure.
- `C88_high_low` (SummaryMembers.lean): the lowest and highest temperature are those of the last group of the TAF report on them, whatever the METAR report.
- `C88_no_high_low` (SummaryMembers.lean): without a TAF report there is no lowest and highest temperature.

### C89 The sky of the summary is the greatest cover reported — partial

The cloud member of the summary is the greatest amount of cloud of the layers reported before the first trend (METAR) or first change (TAF).

Approach: Fold over the covers; the general result is the greatest cover from the last few or scattered layer on, which is the greatest cover if amounts do not decrease.

Status: The code violates it: the condition on the previous cover for few and scattered layers always holds, so BKN010 SCT020 gives MOSTLY_CLEAR. C89_violated is the witness; the partial theorems hold when no few or scattered layer follows a broken or overcast one. C89_exact says what it is for every report, C89_fails_iff exactly when the claim fails.

- `C89_sky_partial` (SummaryMembers.lean): What is missing: the member on the cover of the sky is the greatest cover said only if no lesser amount follows a greater one; see `C89_violated`.
- `C89_sky_taf_partial` (SummaryMembers.lean): the same for a TAF report.
- `C89_exact` (Exceptions.lean): The cover of the sky for every METAR report: the greatest cover said from the last few or scattered layer on, whatever is said before it.
- `C89_exact_taf` (Exceptions.lean): the same for a TAF report.
- `C89_fails_iff` (Exceptions.lean): The claim fails exactly if there is a few or scattered layer and the greatest cover, broken or overcast, is said only before the last one of these.
- `C89_violated` (SummaryMembers.lean): does not hold: a broken layer at 1000 feet and a scattered one at 2000 feet give a sky which is mostly clear, because the condition at summary.cpp:168 holds whatever the cover before.

### C90 Weather is summarised by the code of each phenomenon — proved

For every combination of qualifier, descriptor and list of kinds of weather, the list of codes is that of a written-out table: one code for each kind in order, preceded by the code of a thunderstorm, with recent and vicinity treated as the table says. The codes 39 to 41 (ice pellets) are never given; apart from ice pellets different entries have different codes.

Approach: The complete table is compared with the switches by kernel computation over all values of the three finite types, and lifted to lists by induction.

- `C90_codes` (SummaryCodes.lean): a weather phenomenon is summarised by the codes of its kinds of weather in the order written.
- `C90_ice_pellets` (SummaryCodes.lean): the codes of ice pellets without showers (39, 40 and 41) are never given: ice pellets are summarised as showers of ice pellets.
- `C90_inverse` (SummaryCodes.lean): apart from ice pellets, the code tells the text it stands for.

### C91 Which report the summary is made of — proved

A METAR text accepted takes precedence: the TAF then has an effect on the highest and lowest temperature only. A text refused has no effect at all, whatever it is. Without an accepted text the summary is empty. The METAR has no effect on the highest and lowest temperature. Two METAR texts with the same groups before the first trend have the same summary but for the time.

Approach: From the structure of getCurrentWeather and C87, C88.

- `C91_metar` (SummaryMembers.lean): with an accepted METAR report, the TAF report has an effect on the forecast of temperatures only.
- `C91_no_metar` (SummaryMembers.lean): a text which is not accepted as a METAR report has no effect.
- `C91_no_taf` (SummaryMembers.lean): a text which is not accepted as a TAF report has no effect.
- `C91_nothing` (SummaryMembers.lean): without an accepted report all members are those of an empty summary.
- `C91_high_low` (SummaryMembers.lean): the METAR report has no effect on the highest and lowest temperature.
- `C91_trend` (SummaryMembers.lean): what follows the first trend of the METAR report has no effect, but for a time of release.

### C92 The summary is made of every input without undefined behaviour — proved

getCurrentWeather returns a summary for all texts, all dates (also negative or non-existent ones) and both systems of units: no conversion from float to int is out of range, no vector is accessed out of range, no optional without value is read.

Approach: Each conversion in the model is checked (`Fault.conversion`); bounds on all values of groups of results (C83), and error bounds of float arithmetic through heat index, wind chill and humidity.

- `C92_total` (SummaryTotal.lean): the summary is made of every two texts, for every date and both systems of units.

### C93 The choice of units changes the numbers only — proved

The summaries of the same texts in metric and imperial units agree in direction, sky, weather, humidity, storm clouds and time of release; a speed, visibility, temperature or pressure is missing in one exactly if it is in the other.

Approach: Both runs are described by C87 and C88, C95.

- `C93_units` (SummaryMembers.lean): the choice of units has an effect on speed, visibility, temperature and pressure only.
- `C93_reported` (SummaryMembers.lean): a value reported in one system of units is reported in the other.

### C94 The time of release is the latest one matching the report — proved

The hour and minute of the summary are those of the report it is made of. Year, month and day are the latest date with the day written which is not after the date given. Without a time all five members are missing.

Approach: Induction over the groups to the last time, then C26_date_partial for the date.

- `C94_metar` (SummaryMembers.lean): with an accepted METAR report, the time of release is that of this report: the hour and minute written, and the latest date with the day written which is not after the date given.
- `C94_taf` (SummaryMembers.lean): without one, it is that of the TAF report.

### C95 A missing value is told from every value — proved

A member of the summary is -250 exactly if no group has a value for it: no value computed is -250. This holds for direction, speeds, visibility, temperature, humidity, pressure and highest and lowest temperature.

Approach: Ranges of all values: speeds, visibility, pressure and humidity are not negative, temperatures are above -250 in both units.

- `C95_metar` (SummaryMembers.lean): in the summary of a METAR report a member is −250 exactly if no group before the first trend has a value for it.
- `C95_taf` (SummaryMembers.lean): the same in the summary of a TAF report.
- `C95_high_low` (SummaryMembers.lean): the lowest and highest temperature are −250 exactly if the last group of the TAF report on them has none.

### C96 Numbers of the summary are the whole part of the true value — proved

Wind and gust speed in the unit chosen, temperature of the air, and highest and lowest temperature are exactly the whole part of the true value of what is written, for all units of the report: the rounding of float arithmetic never moves a value past a whole number. Visibility in metres is given as written in metric units, and as the whole part of the true number of miles in imperial units; visibility in miles as whole miles.

Approach: Error bounds from the laws of rounding where the true value is away from whole numbers, and exactness of rounding near representable numbers (`f32_snap`) where it is whole; the distance to whole numbers is checked by integer arithmetic for all values.

- `C96_celsius` (SummaryExact.lean): temperature in degrees Celsius, the fraction dropped.
- `C96_fahrenheit` (SummaryExact.lean): temperature in degrees Fahrenheit, the fraction dropped.
- `C96_speed` (SummaryExact.lean): a speed is given as the whole part of the true value.
- `C96_metres` (SummaryExact.lean): visibility in metres is given as it is.
- `C96_miles` (SummaryExact.lean): visibility in miles is given as whole miles.
- `C96_metres_to_miles` (SummaryExact.lean): visibility in metres is given as whole miles.
- `C96_metar` (SummaryExact.lean): in the summary of a METAR report, speed of wind and gusts and temperature of the air are the whole part of the true value.
- `C96_taf` (SummaryExact.lean): in the summary of a TAF report, speed of wind and gusts are the whole part of the true value.
- `C96_high_low` (SummaryExact.lean): the lowest and highest temperature are the whole part of the true value.

### C97 Pressure of the summary is the pressure written — partial

A pressure in hectopascals is given as written in metric units, and a pressure in hundredths of an inch as written in imperial units.

Approach: Error bound of the float product, and evaluation of the witness.

Status: The code violates it: A2993 gives 2992 in imperial units, since the product 29.93 * 100 is cut and not rounded (C97_violated). Proved: the value is the number written or the one before; C97_exact lists, with the arithmetic of IEEE 754, the pressures from 27 to 32 inches given wrong.

- `C97_hectopascals` (SummaryExact.lean): a pressure in hectopascals is given as it is.
- `C97_inches_partial` (SummaryExact.lean): What is missing: a pressure written as hundredths of an inch is given as the number written or the number before it, see `C97_violated`; it should be the number written.
- `C97_exact` (Exceptions.lean): With the arithmetic of IEEE 754, exactly these pressures from 27 to 32 inches of mercury are given wrong.
- `C97_violated` (SummaryExact.lean): does not hold: a pressure of 29.93 inches is given as 2992 hundredths.

### C98 Every text is explained — partial

explain (examples/explain.cpp) returns a page for every text: no empty optional is read, no float outside the range of int is converted, no enumeration of directions runs forever.

Approach: Every operation that may fail has a distinct outcome in the model. The accessors offered by each type of group (C76 to C82), bounds on distances of groups of results (Props/Heights.lean) and on humidity give that nothing else fails.

Status: The code violates it: the text of a variable runway visual range reads the runway, which is empty for R///////V0800 (C98_violated). C98_total_partial: all other texts are explained. C98_stray: exactly those texts fail, and only in this way. Assumes PowTen as C92.

- `C98_total_partial` (ExplainTotal.lean): (partial: the explanation of some texts fails). An explanation is made of every text in which no group is a variable runway visual range without a runway.
- `C98_stray` (ExplainTotal.lean): For all other texts the value of an empty `std::optional` is taken, and nothing else goes wrong.
- `C98_violated` (ExplainTotal.lean): The text `R///////V0800`, which the parser recognises, makes `explain` throw an exception.

### C99 The page has one row for each group, in order — proved

The page returned by explain consists of the head of the table, a row with the detected type, a row with the error exactly if there is one, and one row for each group of the result of Parser::parse in order. A row has the raw text of the group and the text of the visitor with <br> for each line break. The page does not depend on earlier calls or on freeMemory.

Approach: Induction over the groups; the search and replace loop is proved equal to a map over the characters (replaceBreaks_eq).

- `C99_page` (ExplainTable.lean): The page shows the detected type, the error if there is one, and one row for each group of the result in order: its raw text, and the text the visitor gives for it with `<br>` for each line break.
- `C99_history` (ExplainTable.lean): The page depends on the text only, not on calls made before.

### C100 A group which is not valid is marked, and only such a group — proved

The text of the visitor for a group begins with the line `Data in this group may be errorneous, incomplete or inconsistent` if and only if isValid() of the group is false.

Approach: Each text for a valid group is shown to differ from the warning at some place of its constant beginning.

- `C100_warning` (ExplainTable.lean): For every group: what is written about it begins with the warning if and only if the group is not valid.

### C101 The report cannot add markup to the page — partial

All tags in the page are those of the table and of line breaks.

Approach: Each text of the visitor is shown to consist of printable characters other than <, and of characters of the raw text; characters of raw texts are those of the report (C04).

Status: The code violates it: the raw text is not escaped, and a text <script> is passed on (C101_violated). C101_markup_partial: it holds for texts without the character <. C101_characters: for every text the page is one line of printable characters and characters of the text.

- `C101_markup_partial` (ExplainMarkup.lean): (partial: a text with `<` in it can add tags). In the page for a text without the character `<` all tags are those of the table and of the line breaks.
- `C101_characters` (ExplainMarkup.lean): For every text: all characters of the page are printable ASCII characters or occur in the text, and the page is a single line.
- `C101_violated` (ExplainMarkup.lean): A tag in the text is passed on to the page.

### C102 The page determines the result of the parser — proved

If explain returns the same page for two texts without the character <, then Parser::parse gives the same result for both: same groups with the same contents, same metadata, same error.

Approach: The rows are read back from the page; the row of the error cannot be mistaken for the row of a group; equal raw texts give equal results (C65).

- `C102_determines` (ExplainMarkup.lean): The page determines the result of the parser: if two texts without the character `<` give the same page, then the parser gives the same result for both.

### C103 Quantities are shown with the right values in all units — proved

The text explain shows for a speed has the reported whole number with its unit and then in brackets the speed in each other unit. The text of a temperature has degrees Celsius and Fahrenheit; that of a pressure hPa, inHg and mmHg; that of an amount of precipitation mm and inches; that of a wave height metres and feet; that of a distance whole metres, miles with a fraction, and whole feet, own unit first. Each decimal number is a numeral with the fixed number of decimals and differs from the exact conversion of the value by less than one unit of the last decimal (numbers are cut, not rounded) plus the error of the binary numbers; the unit after it is the one its value is given in.

Approach: Proofs/Numerals.lean shows which rational the text of roundTo denotes: the value cut after the last decimal. With the accuracy of unit conversion (C31) this gives the bound.

- `C103_speed` (ExplainNumbers.lean): A speed is shown as in the report, followed by the speed in each other unit.
- `C103_temperature` (ExplainNumbers.lean): A temperature is shown in degrees Celsius and Fahrenheit. In front of zero degrees written without decimals it says on which side of the freezing point the temperature was.
- `C103_pressure` (ExplainNumbers.lean): A pressure is shown in hectopascals, inches and millimetres of mercury.
- `C103_precipitation` (ExplainNumbers.lean): An amount of precipitation other than a trace is shown in millimetres and inches.
- `C103_wave_height` (ExplainNumbers.lean): A wave height is shown in metres and feet.
- `C103_distance` (ExplainNumbers.lean): A distance is shown in its own unit and then in the other units: whole metres and feet, and miles with a fraction.

### C104 The number of the report is shown exactly — partial

explain shows each reported number unchanged in the unit of the report: whole degrees and tenths of degrees, hectopascals, hundredths of inches, friction, wave height, precipitation, minutes of sunshine, sizes of hailstones, density altitude, whole metres and feet, and the fractions of miles in use.

Approach: The float nearest to the decimal number is shown to lie above it by at most a small amount, or so close that the small constant added by roundTo lifts it; then cutting gives the decimal number back.

Status: A density altitude of a million feet or more is shown in exponential form with six digits (C104_altitude_violated); sunshine, hailstones and density altitudes below are exact. The code violates it, as numbers are cut instead of rounded: T0323 is shown as 32.2 degrees, A3013 as 30.12 inHg and SLP123 as 1012.2 hPa (C104_violated). It holds for temperatures in whole degrees or up to 32.2 degrees, whole hectopascals, friction, wave heights below 16 metres, precipitation in whole units, below 8 inches in hundredths or up to 32.2 in tenths, distances in metres, feet and usual fractions of miles. Speeds: C103_speed. C104_temperature_exact, C104_sea_level_exact and C104_inches_exact say, with the arithmetic of IEEE 754, exactly which temperatures and pressures are shown wrong (one unit of the last decimal too small): 136 of 1000 temperatures, 400 of 1000 sea level pressures and 292 of the 500 altimeter settings from 27 to 32 inches.

- `C104_temperature_partial` (ExplainExact.lean): A temperature given in whole degrees, or in tenths up to 32.2 degrees, is shown exactly.
- `C104_hectopascal` (ExplainExact.lean): A pressure in whole hectopascals is shown exactly.
- `C104_friction` (ExplainExact.lean): A coefficient of friction is shown exactly.
- `C104_wave_height_partial` (ExplainExact.lean): A wave height below 16 metres is shown exactly.
- `C104_whole_precipitation` (ExplainExact.lean): An amount of precipitation given in whole units is shown exactly.
- `C104_hundredths_partial` (ExplainExact.lean): An amount of precipitation of less than 8 inches given in hundredths is shown exactly.
- `C104_tenths_partial` (ExplainExact.lean): An amount of precipitation up to 32.2 given in tenths is shown exactly.
- `C104_distance` (ExplainExact.lean): A distance of whole metres or feet is shown exactly in its own unit, and so is a distance in miles that is one of the values used for visibility.
- `C104_violated` (ExplainExact.lean): A temperature of 32.3 degrees is shown as 32.2, an altimeter setting of 30.13 inches as 30.12 and a pressure at sea level of 1012.3 hPa as 1012.2: the text of the number is cut after the last decimal.
- `C104_sunshine` (ExplainData.lean): The duration of sunshine is shown as written; if it is none, this is said.
- `C104_hailstones` (ExplainData.lean): The size of hailstones is shown as written, in inches and quarters of an inch.
- `C104_altitude_partial` (ExplainData.lean): A density altitude below 1 000 000 feet is shown as written. What is missing: greater ones, see `C104_altitude_violated`.
- `C104_altitude_violated` (ExplainData.lean): a density altitude of 1 000 000 feet or more is shown in exponential form and cut to six digits.
- `C104_temperature_exact` (ShownNumbers.lean): Exactly which temperatures with tenths of a degree, as in `T03231023`, are shown wrong: from 32 degrees on, above or below zero, one in five, and these are one tenth nearer to zero.
- `C104_sea_level_exact` (ShownNumbers.lean): Exactly which pressures at sea level, as in `SLP123`, are shown wrong: two in five, and these are one tenth too small.
- `C104_inches_exact` (ShownNumbers.lean): Exactly which pressures in inches of mercury, as in `A3013`, are shown wrong, from 25.50 to 32 inches: more than half of them, and these are one hundredth too small.

### C105 Different values are explained with different words — proved

The words explain uses for the values of one enumeration (types of reports, errors, keywords, units, cloud amounts and types, layers of clouds, phenomena, probabilities, deposits, extents, braking action, pressure trends, phenomena in vicinity, frequencies of lightning, and so on) are all different. Texts of two runways, two times, and of two keywords, stations, times of release or groups of cloud layers are the same only if the values are.

Approach: Tables of words are compared as a whole; texts with several parts are split at the first character which the part before it cannot contain.

- `C105_words` (ExplainWords.lean): The words for two values of one kind are never the same.
- `C105_runway` (ExplainWords.lean): Different runways are shown differently.
- `C105_time` (ExplainWords.lean): Different times are shown differently.
- `C105_keyword` (ExplainWords.lean): Different keywords are explained differently.
- `C105_location` (ExplainWords.lean): Different stations are explained differently.
- `C105_report_time` (ExplainWords.lean): Different times of release are explained differently.
- `C105_layers` (ExplainWords.lean): Different cloud layers are explained differently.

### C106 Which lines the explanation of each group has — partial

The text explain writes on a group consists of a fixed list of lines in a fixed order: the warning if the group is not valid, then a title for the type of the group, then one line for each value the type offers, and a line for an optional value if and only if it is reported (gusts, times of trends, probability, convective type, humidity, events of wind shift, extremes of temperature, depth and extent of deposits, directions, movement, ...). Nothing else is written, and the page shows these lines separated by <br>.

Approach: The specification lists lines with conditions for all types. Both sides are reduced to the same sequence of pieces, for each type and each combination of missing values.

Status: The code violates it for wind shear at a height, whose text lacks the line break before 'Wind speed' (C106_violated; C106_shear says what is written instead). It holds for all other groups. The lines are specified in Spec/Explanation.lean; the texts of single quantities in them are those of C103 and C104, the words those of C105.

- `C106_lines_partial` (ExplainLines.lean): The explanation of every group other than of a wind shear layer consists of the lines of the specification, in their order, after the warning if the group is not valid.
- `C106_page_partial` (ExplainLines.lean): The page: the row of each group which is not a wind shear layer shows the lines of the specification.
- `C106_cell` (ExplainLines.lean): In a cell of the page, lines are separated by `<br>`.
- `C106_shear` (ExplainLines.lean): What is written on wind shear: the text of the speed continues the line of the direction.
- `C106_violated` (ExplainLines.lean): does not hold for wind shear: the text of the speed follows that of the direction without a line break.

### C107 Every code is explained in the words for it — proved

For every code in the tables of the report formats - header words, trends, states of the sky, cloud amounts, compass directions, designators of runways, all single weather phenomena with all intensities and descriptors, deposits, extents, special depths and friction codes of runway states, states of the sea, colour codes, icing and turbulence, reports of missing sensors and data, low, middle and high clouds, pressure tendencies, lightning, phenomena in the vicinity, obscurations, traces of precipitation - explain writes exactly the lines which mean this code, whatever else the report says.

Approach: C75 says what each group of any result is; the group of a code of the vocabulary is unique (C69, C72) and evaluated once for each code. The hour of the report stays a variable; the one code which depends on it (6-group) is treated by cases.

- `C107_words` (ExplainVocabulary.lean): Whatever the report, the explanation of a group which is a code of the vocabulary of its part of the report consists of the lines which the vocabulary has for the code.
- `C107_body` (ExplainVocabulary.lean): Every code of the vocabulary of the body of a report is a group there.
- `C107_remark` (ExplainVocabulary.lean): Every code of the vocabulary of remarks is a remark.

### C108 Weather is explained in words for every combination of codes — partial

Weather in the body of a report is explained by a title (weather phenomena or recent weather) and one line for each code in the order of the report. The line has the expression for the code if it has one (shallow fog, tornado, diamond dust, ...), otherwise the intensity, the descriptor, the names of all phenomena in their order with `mix` for rain next to snow, showers or thunderstorm, and the vicinity. No warning is shown. A remark on beginning and ending of weather is explained by a line for each event with the phenomenon, whether it began or ended, and the time, the hour being that of the report if only minutes are written; the warning is shown exactly if a time of day does not exist.

Approach: C75, C69 and C72: the group in the result is the one the words mean. C106: its lines. The table of expressions of the code is a lookup in the table of the specification; without an expression each piece of the text is a word of the specification. Induction on the phenomena for the names, on the events for the limits of times.

Status: Violated for events of phenomena with an expression of their own: explainWeatherPhenomena returns the expression before it writes the event, so that `UPB05` is explained without `began` and the time (C108_violated, C108_special for all such events). C108_events_partial is the claim for all other phenomena. C108_weather has no such restriction. C108_all_events says exactly what is shown for every sequence of events.

- `C108_weather` (ExplainWeather.lean): Whatever the report, the explanation of weather in the body of the report is the title and a line with the text of each phenomenon in the order in which they are written. It never begins with the warning.
- `C108_events_partial` (ExplainWeather.lean): for phenomena without an expression of their own. Whatever the report, the explanation of the beginning and ending of weather in the remarks is the title and a line for each event with the text for the phenomenon, whether it began or ended, and the time; after the warning exactly if one of the times cannot be. Missing: phenomena which have an expression of their own, where it does not hold (`C108_special`, `C108_violated`).
- `C108_special` (ExplainWeather.lean): What is shown for an event of a phenomenon with an expression of its own: the expression alone.
- `C108_all_events` (Exceptions.lean): All events, whether or not their phenomena have expressions of their own, in any mixture: exactly the lines of the phenomena with such an expression lack the time and whether the phenomenon began or ended.
- `C108_violated` (ExplainWeather.lean): the time at which undetermined precipitation began is not shown.

### C109 Every value of every report is shown right in the explanation — proved

In the explanation of any report every time, runway, direction, speed, distance, temperature, pressure, amount of precipitation, surface friction and state of the sea is shown right: a time as day, two digits of the hour and two of the minute; a runway by number and side; a direction in degrees with the point of the compass within 22.5 (or 45) degrees; speeds, distances, pressures and amounts as reported and converted to the other units within the accuracy of the display; temperatures also in Fahrenheit, minus zero as slightly less than zero. What is not reported is shown as not reported. The explanation begins with the warning about erroneous data exactly if the text of the group says something impossible or is incomplete.

Approach: C75: every group of the result says what its text says; by the written forms all numbers are within the limits of C103 and C104 (walk over all forms of body, header and remarks), and within these limits each value is shown as specified. The warning: C106 with C75_valid, and no other text begins like the warning.

- `C109_values` (ExplainValues.lean): Every value of every group of a report, whatever the report is, is shown right.
- `C109_warning` (ExplainValues.lean): The explanation of a group begins with the warning that data may be erroneous just if the text of the group is faulty.
- `C109_page` (ExplainValues.lean): In the page each row has the explanation of its group: the lines of the specification, with the warning first just if the text is faulty, and with all values shown right.

### C110 The limit on the number of groups only cuts the result short — proved

If a result is not cut short by the limit on the number of groups, then every greater limit gives the same result. Any two limits greater than the number of groups in the text plus one give the same result. If a result is cut short, its entries are the first entries of the result with any greater limit: an entry followed by two entries with text is the same, an entry followed by one is the same or, if it is a group which was not recognised, has more text.

Approach: C84: the result is described by the words and the limit alone. A result cut short is that of a report which ends there, so C18 applies; the report without a type cut short at its third group is examined apart.

- `C110_greater` (Limits.lean): A result which is not cut short by the limit is the result with every greater limit.
- `C110_enough` (Limits.lean): The limit does not matter if it is greater than the number of words and one.
- `C110_beginning` (Limits.lean): The entries of a result with a limit are kept with every greater limit, just as C18 says of a report with further text: an entry followed by two entries with text is the same, and an entry with text followed by one entry with text is the same unless it is an unknown group, to which text may be added.

### C111 Remarks do not change what is before them — proved

Take any report without RMK that is parsed without error and is neither NIL nor cancelled. With RMK and any further text appended, the result has the same groups, followed by the group RMK and groups of the remarks. The type is the same. There is no error, except that `$` in the remarks of a TAF is an error. In the metadata everything else is the same but the marks for AO1, AO1A, AO2, AO2A, NOSPECI and maintenance: times, location, correction number, the flags for SPECI, AUTO, AMD, COR, NIL and CNL cannot be changed by remarks.

Approach: C84 and C85: the meaning of the body is extended by a meaning of the remarks, which always exists (remarks_all); the metadata are a function of the groups, and by a walk over all written forms of remarks no group of the remarks is a time, location, trend or one of the other flags.

- `C111_remarks` (WithRemarks.lean): If a report without remarks is read without error and is neither missing nor cancelled, then the same report with any remarks has the same result, followed by the group of `RMK` and groups of the remarks. The type is the same, and the only error there can be is the maintenance indicator in a TAF.
- `C111_metadata` (WithRemarks.lean): Of the metadata, remarks can only change whether there is an error, the kind of automated station, whether no special reports are made and whether maintenance is needed. Nothing else changes.

### C112 What remarks can change in the summary of a METAR — proved

Appending RMK and any remarks to a METAR report changes nothing in the summary of the current weather but the cover of the sky, the temperature, the perceived temperature, the humidity and the pressure. Wind, gusts, visibility, storm clouds, weather, highest and lowest temperature and time of the report are the same. If the report has a trend before the remarks, nothing changes at all. All five members can change.

Approach: C111 gives the groups; by a walk over all written forms of remarks which are not left incomplete, no group of the remarks is a surface wind, prevailing visibility, present weather, cumulonimbus, trend or report time; the loop over the groups is then followed to the end.

- `C112_remarks` (SummaryRemarks.lean): Remarks of a METAR report change nothing in its summary but the cover of the sky, the temperature, the perceived temperature, the humidity and the pressure: wind, gusts, visibility, weather, storm clouds, the forecast of the temperature and the time of the report are the same with and without remarks. If there is a trend before the remarks, they do not change anything.
- `C112_changes` (SummaryRemarks.lean): Remarks can change the cover of the sky, the temperatures, the humidity and the pressure.

### C113 What the program of the tutorial prints — proved

The program of the tutorial prints something for every report. If the report has no line break, it prints the report, the text for the error, the text for the type, the number of groups, and then one line for each group of the result in their order, with the name of its kind, a colon and its text. If the report is parsed without error, the words after these colons are the words of the report: nothing is lost, repeated or moved. Different errors, different types and different kinds of groups have different texts.

Approach: The result is that of Parser::parse (C01, C04); the dispatch of the visitor is followed for each kind; the texts of groups have no line break because words are printable (tokens).

- `C113_total` (Tutorial.lean): Something is printed for every report.
- `C113_lines` (Tutorial.lean): What is printed for a report without line breaks: a line with the report, a line with the error, a line with the type, a line with the number of groups, then one line for each group of the result, in their order, with its kind and its text.
- `C113_words` (Tutorial.lean): No text of an accepted report is lost: the words after the colons of the lines for the groups are the words of the report.
- `C113_distinct` (Tutorial.lean): The printed texts tell errors, types and kinds of groups apart: different errors have different texts, so have different types, and different kinds of groups have different names.

### C114 Inserting a group or an unknown word — proved

Take a report which is parsed without error and is neither missing nor cancelled, and a place directly after its complete header or after a group of its body which was recognised. If the words of a group are inserted there, and they do not continue the group before nor are continued by the next word, the result has this group at that place, all other groups are the same, the type is the same and there is no error. If a word which is no group is inserted, and the next group is not unknown, the result has one unknown group at that place, all other groups and the whole metadata are the same. The same holds for a word inserted in the remarks, if it is no remark and does not belong to the remark before it.

Approach: From the meaning of all reports (C84): the division of the words into groups (C69, C73) with one more item is a division of the words with the insertion; the places between entries are places between items unless the entry before is unknown; metadata from C85.

- `C114_group` (Insertion.lean): A group inserted in the body. Let a report be read without error, and let it be neither missing nor cancelled. Let `ga` and `gb` be its groups before and after a place in the body, where the last group of `ga` is not unknown. If `v` is written for the group `g`, and neither does the first word of `v` continue the group before it nor the next word of the report continue `v`, then the report with the words `v` at this place has the same groups with `g` between them. Its type is the same and there is no error.
- `C114_unknown` (Insertion.lean): An unknown word inserted in the body. Under the same conditions on the report and the place, where also the group after it is not unknown: a word which is written for no group is one unknown group there. It changes no other group, and the metadata is the same.
- `C114_remark` (Insertion.lean): An unknown word inserted in the remarks. Under the same conditions, at a place in the remarks: a word which is no remark and does not continue the remark before it, where that remark needs no further word, is one unknown group there. It changes no other group, and the metadata is the same.
- `C114_first` (FirstReplacement.lean): A group inserted directly after the header. Let a report with a complete header be read without error, and let it be neither missing nor cancelled. If words `v` of a group are inserted after the header, and they are not continued by the next word, the report has this group after the header and all other groups are the same. Its type is the same and there is no error.
- `C114_first_unknown` (FirstReplacement.lean): A word which is no group, inserted directly after the header before a group which is not unknown, gives one unknown group after the header and changes nothing else, the metadata included.

### C115 Arguments of the performance check — partial

What the performance check prints and writes depends on the command line only by the options which occur in it and by the input file, which is the last argument unless it is an option. The order of the options, their repetition, arguments which mean nothing and the option --nostats have no effect.

Approach: The loop over the arguments sets each flag if and only if its option occurs, by induction; the rest of the program reads the parameters only, and none of it the flag of --nostats.

Status: Violated: a file whose name has '-' as second character is not read, the internal data are used instead (C115_violated). Command lines with an empty last argument read behind its end and are excluded (C120_failures).

- `C115_arguments_partial` (Performance.lean): in part. What the program does depends on the arguments only by the options which occur and by the input file: the order of options, repetitions, other arguments and `--nostats` have no effect. Missing: a file whose name has `-` as second character is not taken for the input file; see `C115_violated`.
- `C115_violated` (Performance.lean): is violated: the reports of an existing file are ignored if its name has `-` as second character.

### C116 The performance check counts what it processes — partial

The performance check processes every report given: each of the internal data 300 times, each line of the input file once. It prints the number of reports and groups processed after each batch and at the end, the time measured and the rate.

Approach: Induction over the batches read from the file with getline; the state after the reports is related to the list of all results; the output of each section is computed from it.

Status: Violated for files of more than 64000 lines: those behind the last full batch are not processed (C116_violated, C116_lost). What is printed is specified to the last character (printedText), for all sections.

- `C116_processed` (Performance.lean): The reports and results of a run are determined, and exist if the input file exists.
- `C116_printed` (Performance.lean): All that is printed: the first section tells how many reports and groups were processed and how long it took, with a line for each batch.
- `C116_web` (Performance.lean): the web version: only the first section, without progress.
- `C116_all_partial` (Performance.lean): in part: each report of the internal data is processed 300 times, and each line of a file once if the file has less than 64000 lines or a multiple of 64000. Missing: other files; see `C116_violated`.
- `C116_lost` (Performance.lean): what is lost: with 64000 lines or more, those behind the last full batch.
- `C116_violated` (Performance.lean): is violated: of a file with 64001 reports one is not processed.

### C117 Files of the performance check — proved

After a run with an input file there is for each kind of groups and each part of the report a file with the texts of all such groups of the reports processed, once for each occurrence and in their order, and a file with the reports which have an error. No other file is changed; without input file none is.

Approach: Invariant of the archive by induction over batches, reports and groups; the names of the files are pairwise different, over the whole table.

- `C117_files` (Performance.lean): After a run with an input file, the files of the program hold the text of every group of every report processed, in the file for its kind and part, once for each occurrence and in their order, and the reports with errors. No other file is changed, and none at all without input file.
- `C117_part_names` (PartNames.lean): 
- `C117_part_numbers` (PartNames.lean): 

### C118 List of groups not recognised — partial

The performance check lists the text of each group not recognised once, with the number of its occurrences in the reports (the internal data counted once), the most frequent first.

Approach: The frequencies after a list are the counts, by induction; sorting gives the order; the five parts are a division of all groups.

Status: C118_exact: what is counted for any number of them. Proved for the internal data, and for a file if fewer than 1000 such groups are in each part of the reports; otherwise those behind the last full thousand are not counted (C119_violated).

- `C118_unknown_partial` (Performance.lean): in part. The third section of what is printed (see `C116_printed`) lists each text of groups not recognised once, with the number of its occurrences in the reports (of the internal data once), the most frequent first. Missing: more than 1000 such groups in one part of the reports of a file; see `C118_violated`.
- `C118_exact` (PerformanceExact.lean): What is listed for a file with any number of groups not recognised: of each part of the reports, if there are 1000 or more, only the full thousands are counted.
- `C119_violated` (Performance.lean): and C119 are violated: a file has 1001 reports with an error, each with a group not recognised. All of them are processed and counted, but only 1000 are listed and the group is said to occur 1000 times.

### C119 List of reports with errors — partial

The performance check tells the number of reports with an error and lists each of them behind the name of its error, in their order.

Approach: From the archive (C117), read again in batches.

Status: C119_exact: what is listed for any number of them. Proved for the internal data and for fewer than 500 such reports of a file; with 1001 the header says 1001 and 1000 are shown (C119_violated).

- `C119_errors_partial` (Performance.lean): in part. The second section of what is printed (see `C116_printed`) tells the number of reports with an error and lists each of them behind the name of its error, in their order. Missing: 500 or more such reports from a file; see `C119_violated`.
- `C119_exact` (PerformanceExact.lean): What is listed for a file with 500 reports with errors or more: their number is told right, but only the first of them are listed, so many as are full five hundreds.
- `C119_violated` (Performance.lean): C118 and C119 are violated: a file has 1001 reports with an error, each with a group not recognised. All of them are processed and counted, but only 1000 are listed and the group is said to occur 1000 times.

### C120 When the performance check ends — partial

The performance check ends without undefined behaviour for every input. It never fails because of the library, an index or an endless loop.

Approach: Each step either ends with the specified state or fails under a condition stated for it; the conditions are collected along main.

Status: Violated, e.g. by an empty line in the input file (C120_violated). C120_ends_partial says exactly when it ends: the file has a line end, no empty line and text is to be written, and time passes in each measurement with groups.

- `C120_ends_partial` (Performance.lean): in part. The program ends well exactly if the size of the test set is not zero, no empty text has to be written, and time passes while there is something to measure. Otherwise it divides by zero or asks for the last character of an empty text. Missing: there are inputs for which it does not end well; see `C120_violated`.
- `C120_missing` (Performance.lean): files which do not exist: an exception.
- `C120_failures` (Performance.lean): the ways in which the program may fail, whatever the input is: the library never does, no index is out of range and every loop ends.
- `C120_violated` (Performance.lean): is violated: an empty line in the file.

### C121 Groups measured by kind — partial

For each kind of groups the performance check gives the number of groups of this kind in the reports and the time to parse them.

Approach: Counting of texts by kind and part; the lines are those of printedText (C116).

Status: C121_exact: how many are measured for a file with any number of them. Violated for weather: it is never measured (C121_violated), as it is left out of the list of kinds tested. For the other kinds proved for the internal data and for fewer than 1000 groups in each part of the reports of a file.

- `C121_kinds_partial` (Performance.lean): in part. The fourth section of what is printed (see `C116_printed`) has for each kind of groups except weather and groups not recognised the number of these groups with text in all reports. Missing: weather groups, see `C121_violated`, and more than 1000 groups in one part of the reports of a file.
- `C121_exact` (PerformanceExact.lean): How many groups of a kind are measured for a file with any number of them: of each part of the reports, if there are 1000 or more, only the full thousands.
- `C121_violated` (Performance.lean): is violated: for weather groups there is neither a number nor a time, whatever the reports are.
- `C116_printed` (Performance.lean): C116. All that is printed: the first section tells how many reports and groups were processed and how long it took, with a line for each batch.

### C122 Export and help of the performance check — proved

With --expint the lines of the file written are the reports of the internal data, each once for each occurrence, and used as input file it gives a test of these reports. With --help the text printed names every option which has an effect.

Approach: The text written is the file of the list of METARs followed by the TAFs, a permutation of the reports.

- `C122_export` (Performance.lean): The data exported are the internal data: the lines of the file exported are the reports of the internal data, in another order. No file but this one and those of the program itself is changed.
- `C122_again` (Performance.lean): the way back: the file exported, used as input, gives a test with each report of the internal data once.
- `C122_help` (Performance.lean): the help names all options with an effect; nothing is done with the reports.

### C123 Text of the page on a station — proved

The text which the page writes on a station consists of lines in a fixed order, each there if and only if what it is about is known: each weather phenomenon and the sky by their names, remarks on heat, cold and wind, temperature, felt temperature, wind, gusts, humidity, visibility and pressure, and the time of release. Each number is that of the summary, in the units chosen, as a decimal with at most the digits needed.

Approach: The text is a list of lines each followed by a break; the members of the summary decide on each line; the numbers are shown through lemmas on the decimal texts of JavaScript.

- `C123_lines` (PageText.lean): for every two texts, the page writes on the summary of them these lines, and no others.
- `C123_unique` (PageText.lean): the text determines its lines.

### C124 What the page says on the wind — partial

The page says that the wind is variable if it is, names the point of the compass and the direction in degrees if there is one, and gives the speed and the gusts; it says that it is calm if it is; it says nothing if the wind is not reported.

Approach: The sixteen sectors are compared over the whole table of degrees with the points of the compass as intervals around multiples of 22.5 degrees.

Status: Violated: calm wind is not mentioned, and wind which is not reported is called variable (C124_violated). Proved if there is a direction or the wind is variable. C124_no_direction says what the page shows in the other cases.

- `C124_wind_partial` (PageText.lean): the lines on the wind are as expected if there is a direction or the wind is variable. (Missing: wind without a direction which is not variable, see `C124_violated`.)
- `C124_no_direction` (PageExceptions.lean): The lines on the wind in the cases left out in `C124_wind_partial`: without a direction, wind which is not variable is called variable if its speed is not known, and is not mentioned if it is known, whatever the gusts.
- `C124_violated` (PageText.lean): calm wind is not mentioned, and wind that is not reported is called variable.

### C125 How old a report is by the page — partial

The page shows the time of release by the clock of the device and how long ago that was by the time of the server, whatever the time zone of the device and however wrong its clock is. If the time of release is not known, it shows neither.

Approach: The number of days of a date is specified by the rules of the calendar (Calendar); the differences of times in milliseconds are bounded by linear arithmetic.

Status: Violated: the date given to the library is that of the device; west of Greenwich a report five minutes old may be shown as 744 hours 5 minutes old (C125_violated). Proved with respect to the date of release in the summary, up to one and a half minutes. C125_true_age_partial: for a report released up to 27 days before the date of the device, and not after it, the age shown is the true one.

- `C125_updated_partial` (PageTime.lean): if the date and the time of the release are known, there is one line on them. The time shown is that of the clock of the device at the release, and the duration shown is the time since the release by the clock of the server, up to one and a half minutes; a wrong time zone or a wrong clock of the device makes no difference. `gmt` is the time of the server in milliseconds since 1970. (Missing: the date of the release in the summary may be wrong, see `C125_violated`.)
- `C125_true_age_partial` (TrueAge.lean): For a report released up to 27 days before the date of the device, and not after it, the page shows one line on its time, with the true time since the release by the clock of the server, up to one and a half minutes, and the time of the release by the clock of the device. The time of release is that written in the report on the date `released`. (Missing: reports with a date after that of the device, see `C125_violated`, and older reports, the text of which does not tell their month.)
- `C125_missing` (PageTime.lean): if something on the time of the release is missing, there is no such line.
- `C125_violated` (PageTime.lean): the date given to the library is that of the device. West of Greenwich it may be the day before that of Greenwich; then a report released five minutes ago is dated a month back.

### C126 Icon of a station — proved

The icon shown for a station is that of the first rule which applies, in the order of a fixed list, from thunderstorm over kinds of precipitation, fog and storm to heat, cold, wind and the sky. The order of the weather phenomena and their repetition make no difference.

Approach: The conditions of the program on codes are those of the rules on names over the whole table of codes; then induction over the chain of conditions.

- `C126_icon` (PageIcon.lean): the icon is that of the first rule which applies.
- `C126_unique` (PageIcon.lean): There is only one such icon.
- `C126_order` (PageIcon.lean): the order and repetition of the weather make no difference, nor do other members of the summary.

### C127 No dry icon with precipitation — partial

If the summary tells of precipitation, the icon is not one for dry weather.

Approach: Each name of precipitation is in one of the rules before those for dry weather, over the whole table; the first rule which applies is then one of them.

Status: Violated: snow grains, ice pellets and undetermined precipitation have no icon and are shown as the sky alone (C127_violated). Proved for all other precipitation.

- `C127_precipitation_partial` (PageIcon.lean): with precipitation, the icon is not one for dry weather. (Missing: snow grains, ice pellets and undetermined precipitation, see `C127_violated`.)
- `C127_violated` (PageIcon.lean): snow grains under an overcast sky are shown as an overcast sky.

### C128 Widget of a station — partial

The widget of a station shows the icon of its weather, and in an element of its own, whose class tells the unit, each of: temperature, felt temperature, lowest and highest temperature, speed of wind and of gusts, humidity, pressure and visibility, with the number of the summary, or two equality signs if it is not known. The arrow has the direction of the wind; if the wind is variable there is a sign for that instead. There is no other element.

Approach: A general theorem says which tags a text made of tags contains (tagIn_iff); the text of the widget is such a text; the classes in its tags are computed.

Status: Violated: visibility in kilometres and pressure in inches which are not known are shown as 0 (C128_violated), as null divided by a number is 0. Proved if they are known. C128_exact: what is shown for every summary.

- `C128_fields_partial` (PageWidget.lean): the elements of the widget, besides the icon of the weather and the arrow of the wind, are those specified and no others. (Missing: pressure in inches and visibility in kilometres which are not known, see `C128_violated`.)
- `C128_exact` (PageExceptions.lean): All elements of the widget for every summary: those specified, where a pressure in inches and a visibility in kilometres which are not known are shown as 0.
- `C128_icon` (PageWidget.lean): the icon of the widget.
- `C128_arrow` (PageWidget.lean): the arrow of the wind has its direction, if there is one and the wind is not variable; if it is variable there is no arrow.
- `C128_violated` (PageWidget.lean): visibility which is not known is shown as 0 km, and pressure which is not known as 0 inches.

### C129 Stations of the page — proved

The stations shown are those of the METAR and TAF reports received, each once, in the order in which they first occur. For each the last METAR and the last TAF count, the position of the last METAR or else of the first TAF, and the site named last.

Approach: Invariants of the map by induction over the lists: its keys are the identifiers so far in the order of their first occurrence, and its values are determined by the last element with the key.

- `C129_order` (PageStations.lean): the stations shown are those of the METAR and TAF reports received, each once, in the order in which they first occur, the METAR reports before the TAF reports.
- `C129_data` (PageStations.lean): what is shown for a station is what was received last on it.

### C130 The whole page — partial

The page shows the error messages received, the number of stations, and behind it for each station one item, in the order of C129, with its name, its distance rounded to whole kilometres or miles, the widget (C128) and the text (C123) of the summary of its last METAR and TAF.

Approach: C92 (the library makes a summary of every two texts) excludes all other reasons to stop; induction over the list of stations; C123, C128 and C129 for the parts.

Status: Violated: one report without text hides its station and all those behind it, and a station listed without site is called undefined (C130_violated). C130_shown says exactly how far the page goes for all data; C130_all_partial is the claim for reports which all have a text.

- `C130_shown` (PageWhole.lean): above the stations the page shows the errors and the number of stations. Then it shows the stations in the order in which they first occur, each once, up to the first one whose last METAR or TAF has no text.
- `C130_all_partial` (PageWhole.lean): if all reports received have a text, all stations are shown. (Missing: a report without text, which hides its station and all those behind it, see `C130_violated`.)
- `C130_violated` (PageWhole.lean): a METAR without text hides all stations behind it, although they are counted. A station which is listed without a site is called `undefined`.

### C131 Case-sensitive recognition — partial

Groups are recognised case-sensitively: the words of a group which is not unknown consist of capitals, digits and the characters / + - $ and full stop only. In a report parsed without error each word which has a small letter or another character is in an unknown group.

Approach: By cases over the specifications of what is written in the header (C49), the body (C71), the remarks (C72): every text is put together from tables, decimal numbers and signs. C75 carries it to every group of every result, C04 to every word of the text.

Status: Violated: in the remarks whatever follows LTG is taken as types of lightning, small letters included, and after the sixth type it is not even looked at, so that the group is valid (C131_violated). Proved for all other words, and that these words in the remarks, and no others, are recognised, with or without an error, and exactly when their group is valid (C131_exact, C131_valid).

- `C131_characters_partial` (Characters.lean): Whatever the report and the limit, the words of a group which is not unknown consist of capitals, digits and the characters `/ + - $ .`. The types of lightning are the exception: see `C131_violated`.
- `C131_unknown_partial` (Characters.lean): In a report without errors a word which has a small letter, or any other character than those of reports, is in an unknown group, unless the word begins with `LTG`.
- `C131_exact` (OtherCharacters.lean): Exactly which words with a small letter or another character than those of reports are recognised, whatever the report, the limit and the error: those in the remarks which begin with `LTG`. All others are in unknown groups.
- `C131_valid` (OtherCharacters.lean): When the group with such a word is valid: exactly if its first six types are known, whatever follows.
- `C131_violated` (Characters.lean): does not hold without the exception: lightning is recognised whatever the characters of its types; after the sixth type the group is even valid.

### C132 Times of three-hourly and six-hourly reports — partial

A valid time qualifies as that of a three-hourly report if it is at most one hour before, or less than one hour after, 03, 09, 15 or 21 hours, and as that of a six-hourly report if it is so for 00, 06, 12 or 18 hours, where the clock goes on at midnight. No time qualifies as both.

Approach: The distance in minutes on the clock is a linear condition with an unknown number of days; reduced to the hour by linear arithmetic.

Status: Violated: the time 24:00, which is valid and is midnight at the end of a day, does not qualify as six-hourly (C132_violated); proved for all other valid times. The documentation says within one hour before or after; the full hour after is not included by the code.

- `C132_three_hourly` (ReportHours.lean): A valid time qualifies as a three-hourly one exactly if it is at most an hour before, or less than an hour after, 03, 09, 15 or 21 hours.
- `C132_six_hourly_partial` (ReportHours.lean): A valid time before 24:00 qualifies as a six-hourly one exactly if it is at most an hour before, or less than an hour after, 00, 06, 12 or 18 hours; for 23 hours this is the midnight to come.
- `C132_exact` (PageExceptions.lean): Exactly which valid times qualify as six-hourly: those of the claim but for 24:00 and the minutes after.
- `C132_not_both` (ReportHours.lean): No time at all qualifies as both.
- `C132_violated` (ReportHours.lean): 24:00 is midnight at the end of the day and a valid time, but does not qualify as six-hourly, unlike 00:00 of the next day.

### C133 A link to the explanation of a report — partial

The page which explains reports keeps the text in its address: after every change of the text the address is the text in percent-encoding (UTF-8; letters, digits and -_.!~*'() are left as they are), different texts have different addresses, and opening the page at that address shows the same text and the same table. The table is the explanation of the text by the library up to the first zero character, also if there are characters beyond ASCII. A link which stands for a text in another way of writing (hexadecimal digits in lower case, characters escaped without need) shows this text too, and a link which stands for no text shows the empty text.

Approach: encodeURIComponent and decodeURIComponent are modelled as ECMA-262 defines them; the specification uses Lean's own UTF-8 encoder. Round trip by induction over the characters with linear arithmetic on the code points; the state after any events by induction over the events. Octets of characters beyond ASCII are delimiters as the characters are, so the groups are the same.

Status: Violated in two ways: a link copied after the input was cleared shows the sample report instead of the empty text (C133_violated), and if the program is started before the page is loaded the text in every link is lost and the table does not belong to the text shown (C133_order_violated). C133_link_partial is proved for all other texts and the usual order. C133_any_link and C133_no_text: what is shown for every link, also one which is written differently (small hexadecimal digits, characters escaped without need or not escaped). C133_broken: a malformed link is wiped.

- `C133_address` (ExplainPage.lean): After the visitor typed something, at whatever address the page was opened and whatever happened before, the address is the one of the text in the input field, and the table, if the program is ready, is the explanation of this text up to the first zero character.
- `C133_link_partial` (ExplainPage.lean): A link to the page shows the text and the explanation which were shown when the link was copied, and the address stays as it is, for every text but the empty one, if the page is loaded before the program is started. What is missing: the empty text and the other order, see `C133_violated` and `C133_order_violated`.
- `C133_unpaired` (ExplainPage.lean): If the text in the input field has an unpaired surrogate, so that it is not a text of characters, the address stays as it was before and the table is empty.
- `C133_distinct` (ExplainPage.lean): Different texts have different addresses.
- `C133_plain` (ExplainPage.lean): The address contains only letters, digits and `-_.!~*'()%`.
- `C133_sample` (ExplainPage.lean): A page opened without a text in the address shows the sample report and its explanation, and puts it into the address.
- `C133_broken` (ExplainPage.lean): A link whose text cannot be decoded shows the empty text, and is wiped from the address.
- `C133_any_link` (AnyLink.lean): A page opened at any link which stands for a text without carriage returns, however it is written, shows this text and its explanation, and the address becomes the one the page itself gives the text.
- `C133_no_text` (AnyLink.lean): A page opened at a link which stands for no text shows the empty text, and the link is wiped.
- `C133_violated` (ExplainPage.lean): is violated by the empty text: a link to the page copied after the input was cleared shows the sample report, whatever happened before.
- `C133_order_violated` (ExplainPage.lean): is violated if the program is started before the page is loaded: the text in the link is lost, for every link, the sample report is shown, and the table is the explanation of the empty text.

### C134 Units and distance are kept in the address of the page — proved

The page with the summaries reads units and distance from its address, 30 miles and metric units if there are none. Each link to units keeps the distance, also one which is not offered, and each link to a distance keeps the units; after any number of links the last choice of each kind is in use. The option which is in use, and no other, is marked, the same for the options and for the data; the captions give the miles and, to within one kilometre, the kilometres.

Approach: The address of a setting is split at & and = by lemmas on texts without these signs and read back by the law of ECMA-262; the sequence of links by induction.

- `C134_marked` (PageOptions.lean): The options are shown exactly if the address can be read, and then they are marked as the data are requested and shown: one of the units is marked, the one in use, and of the distances the one in use, if it is offered; the captions give the miles and the kilometres.
- `C134_link` (PageOptions.lean): A link of the page changes what it says and nothing else: following a link to units keeps the distance, also one which is not offered, and following a link to a distance keeps the units.
- `C134_history` (PageOptions.lean): However many links are followed from whatever address, the last choice of each kind is in use.
- `C134_default` (PageOptions.lean): Without parameters the distance is 30 miles and the units are metric.
- `C134_one_marked` (PageOptions.lean): From the page without parameters on, one of the units and one of the distances are marked, whichever links are followed.
- `C134_kilometres` (PageOptions.lean): The kilometres in the captions differ from the miles by less than one kilometre.
- `C134_unreadable` (PageOptions.lean): If units or distance cannot be decoded neither the options nor the data are shown.
- `C134_reads` (PageOptions.lean): Of the parameters in an address, in whatever order they are written and whichever others there are, the last one with the name is taken and decoded; if one with the name cannot be decoded the script ends with an exception.

### C135 Ranges and units of the values in the result — proved

Whatever the report, every value in the groups of the result is in its range: hours, minutes and numbers of runways up to 99, speeds up to 999 and never in miles per hour, directions in tens of degrees up to 990 or one of the eight octants, distances up to 200 miles or 110000 metres or feet, temperatures between -100 and 100 degrees, pressure and precipitation from 0 to 10000, friction up to 100 and waves up to 99.9 metres. A direction without a value has 0 degrees, and the ends of a sector of visibility are octants.

Approach: From the description of all groups of any result (C75) by cases of how each group is written.

- `C135_values` (Ranges.lean): Every value in the result is in its range, and no speed is in miles per hour.
- `C135_sectors` (Ranges.lean): The ends of every sector of the horizon are octants.

### C136 The page tells what it waits for and what failed — partial

The page with the summaries says that it looks for the position, then that it retrieves data, and when all three answers have come shows the data, in whatever order the answers come: what is shown depends only on the answers and on the moment of the last one. Data are requested once for each kind, for the distance chosen and a position rounded to hundredths of a degree. If the position or the data cannot be had the page says so.

Approach: A transition system with the position and the three requests as events. That each request depends on its own answers only, and that a settled request stays so, give the state after any list of events by induction.

Status: Violated: fetchAndParseXML catches its errors, so Promise.all is never rejected and the message on data which cannot be retrieved is never shown, whatever happens (C136_violated); if a request fails, also that for the names of the stations only, the page says for ever that it is retrieving data (C136_failed). All other parts are proved. The parser of XML and the distance are parameters; an invalid date header is left out.

- `C136_locating` (PageRequests.lean): While the position is not known the page says so, and nothing is requested.
- `C136_no_position_partial` (PageRequests.lean): the part for the position: if it cannot be found the page says so, whatever comes after it, and nothing is requested. What is missing: the same for the data.
- `C136_waiting` (PageRequests.lean): While one of the requests is under way the page says so, whatever the order of the other answers.
- `C136_data` (PageRequests.lean): When all answers have come, in whatever order, the page shows the data of these answers for the position and in the units chosen, by the clock at the moment of the last of them; what happens later does not matter.
- `C136_failed` (PageRequests.lean): If one of the requests fails the page goes on saying that data are being retrieved, whatever comes after it.
- `C136_order` (PageRequests.lean): The order of the answers does not matter: if the same happened to each request, and the last of it at the same moment, the page shows the same.
- `C136_requests` (PageRequests.lean): Once the position is known the three kinds of data are requested, each of them once, for the distance chosen and for a position within half a hundredth of a degree of it.
- `C136_unreadable` (PageRequests.lean): If units or distance in the address cannot be decoded the page stays as it was written, and nothing is requested.
- `C136_violated` (PageRequests.lean): does not hold: there is a message for data which cannot be retrieved, but it is never shown, whatever happens.

### C137 Distance of a station — proved

The distance between two positions by the page with the summaries is the length of the great circle between them on a sphere with a radius between those of the earth to the poles and to the equator. So it is not negative, the same in both directions, 0 only for the same place, at most half the way round the earth, not longer than any detour, independent of whole turns of the longitude, and along a meridian in proportion to the difference of latitudes.

Approach: The sum of products in the script is the inner product of the two places as unit vectors, so the arc cosine is the angle between them; the triangle inequality of angles is Mathlib's.

- `C137_great_circle` (PageDistance.lean): The distance is the angle between the two places, as seen from the middle of the earth, times its radius.
- `C137_metric` (PageDistance.lean): Distances are not negative, the same in both directions, and a detour is not shorter.
- `C137_zero` (PageDistance.lean): The distance is 0 only between a place and itself.
- `C137_farthest` (PageDistance.lean): No place is farther than half the way round the earth; places opposite each other are that far apart.
- `C137_turns` (PageDistance.lean): A longitude may be given with any number of turns.
- `C137_meridian` (PageDistance.lean): Along a meridian the distance is in proportion to the difference of latitudes.
- `C137_radius` (PageDistance.lean): The radius is that of the earth (6357 km to the poles, 6378 km to the equator), and a degree of a meridian is 111.2 km.

### C138 In which parts of a report each kind of group is found — partial

Each kind and type of group is found in certain parts of reports only, and in each of these parts in some report: location and report time in the header, runway state and recent weather in the body of a weather report, icing, turbulence and probabilities in the body of a forecast, cloud types, lightning and tendencies in remarks, and so on for all 22 kinds and all their types. Keywords are found where the documentation says.

Approach: What a group says is known for every group of every result (C75 to C83); for each way of saying it the part is in the table. The converse is by reports which together have all entries of the table, evaluated by the kernel for any floating point arithmetic.

Status: Violated: the documentation of keywords says that RMK is recognised in the header; it never is (C138_violated). All else is proved, also for reports read without error alone.

- `C138_places` (Places.lean): Every group of every result is in one of the parts where groups of its kind and type are found.
- `C138_found` (Places.lean): In each of these parts a group of the kind and type is found in the result of some report.
- `C138_accepted` (PlacesAccepted.lean): Every group of a report read without error is in one of these parts.
- `C138_accepted_found` (PlacesAccepted.lean): In each of these parts a group of the kind and type is found in some report read without error.
- `C138_documented_partial` (Places.lean): A keyword other than `RMK` is found in a part of a report, other than after the end of a report, just if the documentation says so. `RMK` is found where it says so except in the header.
- `C138_violated` (Places.lean): `RMK` is never found in the header, although the documentation says that it is recognised there.

### C139 Removing and replacing groups — proved

In a report read without error, which is neither missing nor cancelled, some consecutive groups of the body, also the first ones after the header, can be removed or replaced by any other words. Only these groups change: the groups before and after are the same, and instead of those taken away there are the groups into which the new words are divided. This holds if no group goes on over the ends. Without an unknown group, also the metadata is the same. The report without its remarks has the groups before the remarks.

Approach: By C84 the result is determined by the division of the words. Divisions can be taken apart and put together between groups which do not continue each other; likewise the entries between groups which are not both unknown.

- `C139_replaced` (Replacement.lean): Groups of the body replaced. Let a report be read without error, and let it be neither missing nor cancelled. Let `gm` be some groups of its body, `ga` those before and `gb` those after them, where the last group of `ga` is in the body and not unknown. Let `v` be any other words, without the words which end the body, and `iv` the way in which words `v` of the body are divided into groups. Suppose that no group goes on over the ends: the first word after `ga` does not continue its last group, the first word after `v` does not continue the last group of `iv`, and unknown words are apart. Then the report with `v` instead of the words of `gm` has the groups `ga`, those of `iv`, and `gb`. Its type is the same and there is no error.
- `C139_removed` (Replacement.lean): Groups of the body removed. Under the same conditions on the report and on `ga`, `gm` and `gb`: if the first word after the words of `gm` does not continue the last group of `ga`, then the report without the words of `gm` has the groups `ga` and `gb`. Its type is the same and there is no error.
- `C139_unknown` (Replacement.lean): An unknown group of the body removed. Under the same conditions, the metadata is also the same.
- `C139_remarks` (Replacement.lean): The remarks removed. Let a report be read without error, and let it be neither missing nor cancelled. Let `ga` be its groups before the first group of `RMK`, with some word after the header among them. Then the report of the words before this `RMK` has the groups `ga`. Its type is the same and there is no error.
- `C139_first` (FirstReplacement.lean): The first groups after the header replaced. Let a report with a complete header be read without error, and let it be neither missing nor cancelled. Let `gm` be the first groups after the header (possibly none) and `gb` those after them. Let `v` be any other words, without the words which end the body, and `iv` the way in which words `v` of the body are divided into groups. Suppose that no group goes on over the end, that unknown words are apart, and that some word is left after the header. Then the report with `v` instead of the words of `gm` has the groups of the header, those of `iv`, and `gb`. Its type is the same and there is no error.

### C140 Humidity, heat index and wind chill follow the published formulas — proved

The relative humidity given for a temperature and a dew point is within a hundredth of a percent of 100 times the quotient of the saturation vapour pressures by the formula of Magnus and Tetens. The heat index given for a temperature and a humidity is the value of the regression of Rothfusz (the formula of the National Weather Service in degrees Fahrenheit, converted) rounded to tenths of a degree Celsius, and the heat index for a dew point is that for the corresponding humidity. The wind chill is the value of the formula of 2001 for the temperature in degrees Celsius and the wind in km/h, rounded to tenths, whatever the unit of the wind.

Approach: The published formulas on exact rationals and on real powers (`Spec/Climate`); a calculus of values with an error and a bound carried through every rounded operation; Bernoulli's inequality for the powers.

- `C140_humidity` (Perceived.lean): relative humidity: within a hundredth of a percent of the formula.
- `C140_heat_index` (Perceived.lean): heat index of a temperature and a humidity: the formula rounded to tenths of a degree.
- `C140_heat_index_dew_point` (Perceived.lean): heat index of a temperature and a dew point: that of the relative humidity, which is the one given for the temperature and the dew point.
- `C140_wind_chill` (Perceived.lean): wind chill: the formula rounded to tenths of a degree.
- `C140_assumption` (Perceived.lean): what C28, C29 and C92 assume of `std::pow` follows from the one assumption made here.

### C141 How heat index and wind chill depend on their arguments — proved

For the same humidity a higher temperature does not give a lower heat index, for the same temperature a higher dew point does not give a lower heat index, nor does a humidity higher by at least 0.001 percent. The heat index is at most 0.4 degrees below the temperature, and not below it from 45 percent of humidity on. The wind chill is below the temperature; for the same wind a lower temperature does not give a higher wind chill and for the same temperature a stronger wind does not give a higher one.

Approach: Differences of the exact polynomials factored and bounded below by more than the rounding errors of C140, then monotone rounding.

- `C141_heat_index_temperature` (Perceived.lean): for the same humidity a higher temperature does not give a lower heat index.
- `C141_heat_index_humidity` (Perceived.lean): for the same temperature a humidity higher by at least 0.001 percent does not give a lower heat index; any higher humidity does not give a heat index lower by more than the last digit.
- `C141_heat_index_dew_point` (Perceived.lean): for the same temperature a higher dew point does not give a lower heat index.
- `C141_heat_index_floor` (Perceived.lean): the heat index is at most 0.4 degrees below the temperature, and not below it from 45 percent on.
- `C141_wind_chill_below` (Perceived.lean): the wind chill is below the temperature.
- `C141_wind_chill_temperature` (Perceived.lean): for the same wind a lower temperature does not give a higher wind chill temperature.
- `C141_wind_chill_wind` (Perceived.lean): for the same temperature a stronger wind does not give a higher wind chill temperature.

### C142 The temperature felt in the summary is that of the published formulas — proved

In the summary of a METAR report the temperature felt is made of the last group with a temperature before the first trend and of the wind reported before it: from 27 degrees and a humidity of 40 percent it is the heat index, up to 10 degrees and from a wind of 4.8 km/h it is the wind chill, otherwise it is the temperature of the air; the number is the value of the published formula in the unit chosen with the fraction dropped, after rounding to tenths of a degree Celsius. Between 10 and 27 degrees it is the number shown for the temperature of the air, up to 10 degrees it is not above it, from 27 degrees it is at most one below it. It is never the number which stands for a missing value, in Celsius always and in Fahrenheit if the air has at least -60 degrees Celsius.

Approach: C140 and C141 carried through the selection of groups (C87); bounds of the formulas over the ranges which can be written.

- `C142_felt` (Felt.lean): the temperature felt in the summary is that of the published formulas, with the fraction dropped.
- `C142_mild` (Felt.lean): between 10 and 27 degrees the temperature felt is the temperature of the air.
- `C142_cold` (Felt.lean): up to 10 degrees it never feels warmer than the air is.
- `C142_warm` (Felt.lean): from 27 degrees the number shown is at most one degree below that of the air.
- `C142_reported` (Felt.lean): in degrees Celsius, and in degrees Fahrenheit from 60 degrees Celsius below zero, the temperature felt is not the number which stands for a missing value.

### C143 Remarks removed, replaced or added change no other group — proved

Let a report be read without error and be neither missing nor cancelled. If some of its remarks are replaced by other words, which are divided into remarks as they would be by themselves, and no remark goes on over the ends of the replaced part, then the groups before and after it are the same as they were, with the same values and texts, and between them are the groups of the new words. Type and absence of an error stay the same. The same holds when remarks are removed or added. When an unknown remark is removed the metadata is the same too.

Approach: Props/RemarkReplacement.lean: the division of the remarks of C73 is taken apart at a place and put together again (induction over the division), the outcome of C84 carries it over to the parser.

- `C143_replaced` (RemarkReplacement.lean): Remarks replaced. Let a report be read without error, and let it be neither missing nor cancelled. Let `gm` be some of its remarks, `ga` the groups before and `gb` those after them, where the group of `RMK` is in `ga` and the last group of `ga` has a text and is not unknown. Let `v` be any other words, without the maintenance indicator if the report is a TAF, and `iv` the way in which words `v` of the remarks are divided into groups in a report made at this hour. Suppose that no remark goes on over the ends: if the last group of `ga` is a remark, the first word after it does not continue it and it needs no other word; the first word after `v` does not continue the last remark of `iv`, and this remark needs a continuation before it only if it needs one at the end; unknown words are apart. Then the report with `v` instead of the words of `gm` has the groups `ga`, those of `iv`, and `gb`. Its type is the same and there is no error. With `gm` empty this is about remarks added at the place.
- `C143_removed` (RemarkReplacement.lean): Remarks removed. Under the same conditions on the report and on `ga`, `gm` and `gb`: the report without the words of `gm` has the groups `ga` and `gb`. Its type is the same and there is no error.
- `C143_unknown` (RemarkReplacement.lean): An unknown remark removed. Under the same conditions, the metadata is also the same.

### C144 Remarks which are written are read back — proved

A report which is written as a header, groups of the body and, after RMK, any sequence of remarks, each in the words that express it, is decoded into exactly these groups: one for each, in order, in the right part of the report, with the words as raw string, and no error, as long as each remark ends before the next one (no longer remark begins with its words and the next word, and it is not a beginning which is of no use alone). This is always so for complete remarks, which may be written in any order and any number: AO1 and AO2 and the like, sensors which do not work, sea level pressure, tenths of degrees, six-hourly and daily extremes, precipitation, new snow, pressure tendency, cloud codes, sunshine, beginning and end of weather events, peak wind, wind shift with a front, QNH and QFE, and colour codes.

Approach: Complete remarks refuse every next word (by cases), so by the uniqueness of C72 no longer remark begins with their words; then the division of C73 by induction over the remarks.

- `C144_written` (WrittenRemarks.lean): In a report with a header, groups of the body and remarks, each in the words which express it, if each remark ends before the next one, the result consists of exactly these groups, in order, each in its part of the report with its words as raw string, and there is no error.
- `C144_whole` (WrittenRemarks.lean): Complete remarks may be written in any order: they are read as they are written.

### C145 What the header changes in the rest of a report — proved

What is read after the header of a report depends on the header only by the report type and, in the remarks, by the hour of the report. If a complete header is replaced by another complete header of the same type (SPECI instead of METAR, with or without COR or AMD, another location, another day and minute, another period) with the same hour, then all groups after the header are the same, with the same values and texts, and so are the type and the error. With another hour the groups before the remarks are the same, and all groups if there are no remarks. A METAR whose report type is left out is read as the same METAR, if its body does not begin with a period or NIL. This holds for any words after the header, also for reports with errors or cut at the limit; the limit is counted from the end of the header, with one more group for a report without type. The metadata differ only in the time of the report, the location, the marks of a SPECI, of an amended and of a corrected report and, for a TAF, the period: time, location, SPECI, AMD and the period are those of the new header, and the report is marked as corrected if COR is in the new header, and as before if COR is in neither header.

Approach: From the specification of the whole result (C84): what follows the header has an outcome which depends on type, hour and the words allowed only; uniqueness of C84 then determines both results.

- `C145_header` (HeaderChange.lean): If the complete header of a report is replaced by another one for a report of the same type, with the same hour, then all groups after it are the same, and so are the type and the error. This is so for any words after the header. The limit is counted from the end of the header.
- `C145_hour` (HeaderChange.lean): With another hour too, all groups before the remarks are the same, and all groups if there are no remarks.
- `C145_untyped` (HeaderChange.lean): If the header of a METAR or SPECI is replaced by location and time without a report type, the report is still a METAR with the same groups after the header, if these do not begin with a period or `NIL`. One more group is counted.
- `C145_metadata` (HeaderMetadata.lean): What the metadata of a report say depends on its header as follows. If a complete header is replaced by another one of the same type with the same hour, then time, location and the marks of a special report, of an amendment and of a correction are those of the new header, and for a forecast also the period. All else is the same.

### C146 What remarks can change in the summary of a TAF report — proved

Remarks added to a TAF report that parses without error never change the air temperature, perceived temperature, humidity, pressure, storm clouds and time of release in the result of getCurrentWeather. If the METAR text is accepted, or if a change of the forecast stands before the remarks, they change nothing but the highest and lowest temperature. These two are changed only if the remarks have a group on the highest or lowest temperature. The exceptions are real: such a group in the remarks replaces the forecast of the temperatures, and in a TAF without changes the remarks can replace wind and cover of the sky.

Approach: C111 gives the groups of the report with remarks; the loop of the summary on a longer list stops at the second trend or goes on with groups which, being remarks (C75), are no cumulonimbus, no trend and no report time; the members of C88 for the temperatures.

- `C146_taf` (SummaryTafRemarks.lean): Remarks of a TAF report never change the temperature, the perceived temperature, the humidity, the pressure, the storm clouds and the time of the report. If there is a METAR report, or a change of the forecast before the remarks, they change the highest and lowest temperature only; and these are changed only by remarks on the highest or lowest temperature.
- `C146_changes` (SummaryTafRemarks.lean): remarks can change the highest and lowest temperature of the forecast.
- `C146_steady_changes` (SummaryTafRemarks.lean): without a change of the forecast, remarks can change the wind and the cover of the sky.

### C147 What the summary depends on — proved

The result of getCurrentWeather depends on an accepted METAR text only through its groups of surface wind, prevailing visibility, CAVOK, clouds, current weather, temperature and pressure at sea level before the first trend, and its time of release: two METAR texts which agree in these groups have the same summary, whatever other groups, unknown words and remarks are between and whatever the raw texts are. So a word which is no group, or a group of another kind, inserted in the body of the METAR text, or of the TAF text, leaves the summary as it is. The order of these groups counts only among groups on the same matter: wind and temperature; visibility and CAVOK; clouds and CAVOK; weather; pressure. A TAF text counts only through its groups of wind, visibility, CAVOK, clouds and weather before its first change, its time of release and its highest and lowest temperature, and with an accepted METAR text only through the latter. The order of its groups counts only among wind groups, visibility and CAVOK, clouds and CAVOK, and weather.

Approach: The loops are folds over the groups before the first or second trend, and a group of another kind leaves the state as it is; for the order, the members of C87 are functions of the groups on one matter. The inserted group or word is by C114.

- `C147_metar` (SummaryDepends.lean): Two METAR reports with the same groups of surface wind, prevailing visibility, clouds, current weather, temperature and pressure at sea level before their first trend, in the same order, and the same time of release, have the same summary. All other groups and all raw texts are without effect.
- `C147_taf` (SummaryDepends.lean): Two TAF reports with the same groups of wind, visibility, clouds and weather before their first change, in the same order, the same groups on the highest and lowest temperature and the same time of release have the same summary, with any METAR report or without one.
- `C147_forecast` (SummaryDepends.lean): With a METAR report, two TAF reports with the same groups on the highest and lowest temperature give the same summary.
- `C147_group` (SummaryDepends.lean): A group of another kind inserted in the body of a METAR report, at a place as in C114, does not change the summary.
- `C147_word` (SummaryDepends.lean): A word which is no group inserted in the body of a METAR report, at a place as in C114, does not change the summary.
- `C147_order` (SummaryDepends.lean): The order of groups in a METAR report counts only among groups on the same matter: surface wind and temperature; visibility and `CAVOK`; clouds and `CAVOK`; current weather; pressure at sea level. Two reports with the same groups on each of them before the first trend, in the same order, and the same time of release have the same summary, though groups on different matters are in another order.
- `C147_taf_group` (SummaryTafInsertion.lean): A group of another kind inserted in the body of a TAF report, at a place as in C114, does not change the summary, with any METAR report or without one.
- `C147_taf_word` (SummaryTafInsertion.lean): A word which is no group inserted in the body of a TAF report, at a place as in C114, does not change the summary, with any METAR report or without one.
- `C147_taf_order` (SummaryTafOrder.lean): The order of groups in a TAF report counts only among groups on the same matter: wind; visibility and `CAVOK`; clouds and `CAVOK`; weather. Two reports with the same groups on each of them before the first change, in the same order, the same time of release and the same groups on the highest and lowest temperature have the same summary, though groups on different matters are in another order, with any METAR report or without one.

### C148 What a change of a report changes on the page — proved

Two reports of the same type and with the same error, whose groups are the same but for some between them, have the same page of explain but for the rows of these groups; the second report is explained if and only if its groups between are. So when groups of the body are removed (as in C139) their rows are missing and all else is the same; when groups of the body or remarks are replaced by other words (C139, C143) the rows of the new groups are in their place; a word which is no group, inserted in the body (C114), adds one row which says that it is not recognised; and another header of the same type with the same hour and number of words (C145) changes the rows of the header only.

Approach: The page is the table of the rows of the groups (C99), and each row depends on its group only; the groups of the changed report are by C114, C139, C143 and C145.

- `C148_page` (ExplainEdit.lean): Two reports of the same type with the same error, whose groups are the same but for some between them: if the first is explained, then the pages are the same but for the rows of these groups, and the second is explained if these groups are.
- `C148_removed` (ExplainEdit.lean): Some groups of the body removed, as in C139: their rows are removed, and all else on the page is the same.
- `C148_replaced` (ExplainEdit.lean): Some groups of the body replaced by other words, as in C139: the rows of the new groups are in the place of their rows, and all else on the page is the same.
- `C148_remarks` (ExplainEdit.lean): Some remarks replaced by other words, as in C143: the rows of the new remarks are in the place of their rows, and all else on the page is the same.
- `C148_word` (ExplainEdit.lean): A word which is no group inserted in the body, as in C114: there is one more row, which says so, and all else on the page is the same.
- `C148_header` (ExplainEdit.lean): Another header of the same type with the same hour and the same number of words: the rows of the header are those of the new header, and all else on the page is the same.

### C149 The summary of a METAR which is written says what was written — proved

Take any observation: a wind with direction in tens of degrees, variable or missing, with speed and gusts below 1000 in knots, metres per second or kilometres per hour or missing; a visibility in four digits; up to twenty present weather phenomena of the allowed kinds; any number of layers of clouds; temperature and dew point in whole degrees; a pressure in hectopascals. Write it as words behind any header of a METAR or SPECI and before nothing or any trend with the groups written after it, with any blanks between the words, fewer than 200 words in all. Whatever TAF is given and whatever the date is, the summary then has: the direction written (-250 if calm, variable or missing), the mark for variable wind exactly if VRB was written, the speeds written as whole kilometres or miles per hour of the true value, the visibility written (9999 stands for 10000) in metres or whole miles, the codes of the phenomena written in their order, the mark for storm clouds exactly if a layer was written with CB, the greatest cover from the last partly covering layer on, the temperature written in degrees Celsius or the whole part of its value in degrees Fahrenheit, and in hectopascals the pressure written. If a trend was written, all this also holds with any remarks after it. Without a trend any remarks leave the members on wind, visibility, weather and storm clouds, the time and the forecast temperatures as they are without the remarks.

Approach: The words are divided into groups by the theorem on the layout of reports (C70); the members of the summary are what these groups say (C87), with exact numbers (C96, C97). The specification `Observation.Said` is on the numbers which are written, not on groups.

- `C149_said` (WrittenSummary.lean): the summary of a METAR report which is written says what was written, whatever its header, the blanks between the words, the trends after it, the TAF report and the date.
- `C149_pressure` (WrittenSummary.lean): the pressure of the summary, in hectopascals, is the number written.
- `C149_trends_remarks` (SummaryOfRemarked.lean): after trends there may be any remarks.
- `C149_remarks` (SummaryOfRemarked.lean): without trends, any remarks after the observation leave the wind, the visibility, the weather and the storm clouds as written: the summary is one which says what was written, up to the sky, the temperatures, the humidity and the pressure.

### C150 Without a METAR, the summary of a TAF which is written says what was written — proved

Take any forecast: a wind with direction in tens of degrees, variable or missing, with speed and gusts below 1000 in knots, metres per second or kilometres per hour or missing; a visibility in four digits; up to twenty weather phenomena of the kinds allowed in a TAF; any number of layers of clouds. Write it as words behind any header of a TAF and before nothing or any change with the groups written after it, with any blanks between the words, fewer than 200 words in all. If the METAR text is not accepted, then whatever the date is, the summary has the direction written (-250 if calm, variable or missing), the mark for variable wind exactly if VRB was written, the speeds written as whole kilometres or miles per hour of the true value, the visibility written (9999 stands for 10000) in metres or whole miles, the codes of the phenomena written in their order, the mark for storm clouds exactly if a layer was written with CB, the greatest cover from the last partly covering layer on, and no temperature, humidity and pressure. Nothing of the changes gets into these members.

Approach: The words are divided into groups by the theorem on the layout of reports (C70); the members of the summary are what the groups before the second trend say (C88), with exact numbers (C96). The specification `Forecast.Said` is on the numbers which are written, not on groups.

- `C150_said` (WrittenForecast.lean): without a METAR report, the summary of a TAF report which is written says what was written before its first change, whatever its header, the blanks between the words, the changes after it and the date.

### C151 The forecast temperatures and the time of a report which are written are those of the summary — proved

Write two forecast temperatures after each other into a TAF, with any header before them, any groups before and after them, any blanks between the words and fewer than 200 words in all, such that no forecast temperature follows later. Whatever the METAR text and the date are, the lowest temperature of the summary is the one written with TN and the highest the one written with TX, in whichever order they are written; if both are written without TX and TN, the lowest is the lower value. Both are the numbers written, with M for values below zero, in Celsius, or the whole part of their value in Fahrenheit. With a single temperature written with TX or TN only the highest or the lowest is known and the other one is -250. And for every METAR with any groups after its header, the day, the hour and the minute of the summary are those written, and month and year those of the latest such day, in any month, which is not after the given date, whatever the TAF text is.

Approach: The words are divided into groups by the theorem on the layout of reports (C70); the members of the summary are given by the last such group (C88, C94), with exact numbers (C96).

- `C151_pair` (WrittenExtremes.lean): two forecast temperatures which are written in a TAF report, the last ones in it, are the lowest and the highest temperature of the summary, whatever else is written in it, the METAR report and the date.
- `C151_single` (WrittenExtremes.lean): if the last one is a single highest or lowest temperature, only it is known.
- `C151_time` (WrittenExtremes.lean): the day, the hour and the minute written in a METAR report are those of its summary, whatever else is written in it and whatever the TAF report; the month and the year are those of the latest such day which is not after the given date.

### C152 The same text is understood and explained in the same way in all reports — proved

Take any two texts of reports, or twice the same one, and any limits of the number of groups. If a group of the one result and a group of the other result have the same non-empty text and belong to the same part of the report (header, body of a METAR, body of a TAF, remarks), and both or none of them are unknown groups, then the groups are equal in all their values, whatever else is in the reports. For remarks this holds if both reports have the same hour in their metadata, and the hour is needed: 60217 says other things in reports of 12 and of 15 hours. On the pages of the explanation of the two reports their rows are the same.

Approach: Every group of every result says what its own text says (C75), and the text determines it (C66, C69, C72). The name of an obscuration alone, which has two readings as a remark, is never left as a group.

- `C152_group` (SameText.lean): if the same text stands in the same part of two reports, or at two places of one report, and is recognised at both or at none of them, it has been understood in the same way. Remarks are compared in reports of the same hour.
- `C152_row` (SameText.lean): their rows on the pages of the two reports are the same.
- `C152_hour_needed` (SameText.lean): Frozen precipitation in a remark is that of 3 or of 6 hours, depending on the hour of the report.

### C153 Words common to METAR and TAF say the same in both, except for time spans — proved

If a sequence of words is a group in the body of a METAR and also in the body of a TAF, then both groups are equal in all their values, unless there is a time span of four digits, a slash and four digits among the words. So a group of the result of any METAR and a group of the result of any TAF, both from the bodies and recognised, are equal if their texts are the same and have no time span. A time span says hours and minutes in a METAR but days and hours in a TAF: for all numbers with two digits the two readings are given.

Approach: The shapes of the texts of all 21 kinds of groups in a METAR and in a TAF are shown to be apart, except for six kinds which both have, by a decision procedure on regular expressions. In these kinds a reading in a TAF is also a reading in a METAR, or the words of the trends are the same, and words have one reading (C69).

- `C153_same` (AcrossParts.lean): words which are read as a group in the body of a METAR and in the body of a TAF say the same in both, unless there is a time span among them.
- `C153_group` (AcrossParts.lean): groups of any results, one in the body of a METAR and one in the body of a TAF, which have the same text without a time span, are equal, unless they are not recognised.
- `C153_span` (AcrossParts.lean): a time span alone is read in both, and says hours and minutes in a METAR but days and hours in a TAF.

### C154 Visibility in miles is the whole number of metres in a metric summary — partial

Visibility which is reported in statute miles is, in the summary of the current weather in metric units, the whole part of the true number of metres, with a statute mile of 1609.344 metres.

Approach: Bounds of the rounding of float and double, which is small against the three millimetres for each mile by which the factor is too great; the values up to 50 miles and the hundred whole numbers are settled by whole-number conditions on the product.

Status: Does not hold: 55SM, a value which is to be reported according to FMH-1, gives 88514 metres, and 55 miles are 88513.92 metres. Proved: the value is always the whole part or one more; it is the whole part for all values of FMH-1 up to 50 miles; of whole numbers of miles exactly the fifteen given are shown one metre too great. In imperial units the whole number of miles is given.

- `C154_partial` (MilesInMetres.lean): A number of sixteenths of a mile which is to be reported, up to 50 miles, is in metric units the whole number of metres. What is missing: all other visibilities in miles, see `C154_violated` and `C154_whole`.
- `C154_violated` (MilesInMetres.lean): 55 miles, which is a number to be reported, is 88513.92 metres.
- `C154_near` (MilesInMetres.lean): Visibility in miles, up to 200 miles, is in metric units the whole number of metres, or one more.
- `C154_whole` (MilesInMetres.lean): Exactly which whole numbers of miles are a metre too many in metric units: fifteen of the hundred.
- `C154_metar` (MilesInMetres.lean): The visibility of the summary in metric units, from a METAR whose last prevailing visibility before the first trend is in miles: the whole number of metres, or one more. In imperial units it is the whole number of miles.
- `C154_taf` (MilesInMetres.lean): The visibility of the summary if there is no METAR, from a TAF whose last visibility before the second trend is in miles.
- `C154_written` (WrittenUnits.lean): from the words. Visibility in miles is written anywhere before the first trend, and neither visibility nor `CAVOK` is written between it and the first trend.

### C155 Pressure in the other unit is the whole part of the true value — proved

If a METAR gives the pressure in hundredths of an inch of mercury, the summary of the current weather in metric units gives the whole part of the true number of hectopascals; if it gives it in hectopascals, the summary in imperial units gives the whole part of the true number of hundredths of an inch. An inch of mercury is 33.86389 hectopascals.

Approach: All 1400 values of the range are evaluated by the kernel with the exact definition of IEEE 754 rounding and lifted to the text of the group by C36 and to the summary by C87. The theorems on written reports start from the words of the report (C70), with any other groups before and after.

- `C155_written_inches` (WrittenUnits.lean): from the words. The altimeter setting in inches of mercury is written anywhere before the first trend, and no other pressure between it and the first trend.
- `C155_written_hectopascals` (WrittenUnits.lean): from the words. The same for pressure in hectopascals and the summary in imperial units.
- `C155_metar_inches` (PressureAcross.lean): The pressure of the summary from a METAR whose last altimeter setting before the first trend is in inches of mercury.
- `C155_metar_hectopascals` (PressureAcross.lean): The pressure of the summary in imperial units from a METAR whose last pressure at sea level before the first trend is in hectopascals.
- `C155_inches` (PressureAcross.lean): A pressure in hundredths of an inch of mercury, from 23 to 33 inches, is in metric units the whole number of hectopascals.
- `C155_hectopascals` (PressureAcross.lean): A pressure in hectopascals, from 750 to 1149, is in imperial units the whole number of hundredths of an inch of mercury.

## Axioms of each theorem

Output of `#print axioms` for the theorems of MANIFEST.json, grouped by axiom set. No theorem uses anything else.

- `none` (2 theorems): `C117_part_names`, `C117_part_numbers`
- `propext` (9 theorems): `C105_location`, `C116_all_partial`, `C122_again`, `C132_violated`, `C134_default`, `C42_words`, `C42_unchanged`, `C47_cardinal`, `C89_fails_iff`
- `propext, Quot.sound` (24 theorems): `C105_words`, `C105_keyword`, `C105_layers`, `C116_lost`, `C118_exact`, `C119_errors_partial`, `C119_exact`, `C121_kinds_partial`, `C121_exact`, `C132_not_both`, `C134_marked`, `C134_unreadable`, `C134_reads`, `C22_number`, `C22_number_exact`, `C22_digits`, `C22_decimal_unique`, `C46_degrees`, `C46_degrees_valid`, `C47_meters`, `C48_height`, `C90_codes`, `C90_ice_pellets`, `C90_inverse`
- `propext, Classical.choice, Quot.sound` (597 theorems): `C01_parse_total`, `C02_report_end`, `C02_report_end_ignored`, `C03_groups_only`, `C03_layout`, `C03_groups_exist`, `C04_no_text_lost`, `C04_characters`, `C04_offending_group`, `C05_group_limit`, `C05_entries`, `C05_size`, `C06_unknown_merged`, `C07_empty_text_partial`, `C07_violated`, `C08_parts_in_order`, `C08_allowed`, `C08_parts`, `C09_type_known`, `C10_grammar`, `C10_accepted`, `C10_errors`, `C100_warning`, `C101_markup_partial`, `C101_characters`, `C101_violated`, `C102_determines`, `C103_speed`, `C103_temperature`, `C103_pressure`, `C103_precipitation`, `C103_wave_height`, `C103_distance`, `C104_temperature_partial`, `C104_hectopascal`, `C104_friction`, `C104_wave_height_partial`, `C104_whole_precipitation`, `C104_hundredths_partial`, `C104_tenths_partial`, `C104_distance`, `C104_violated`, `C104_sunshine`, `C104_hailstones`, `C104_altitude_partial`, `C104_altitude_violated`, `C104_temperature_exact`, `C104_sea_level_exact`, `C104_inches_exact`, `C105_runway`, `C105_time`, `C105_report_time`, `C106_lines_partial`, `C106_page_partial`, `C106_cell`, `C106_shear`, `C106_violated`, `C107_words`, `C107_body`, `C107_remark`, `C108_weather`, `C108_events_partial`, `C108_special`, `C108_all_events`, `C108_violated`, `C109_values`, `C109_warning`, `C109_page`, `C11_restricted_keywords`, `C110_greater`, `C110_enough`, `C110_beginning`, `C111_remarks`, `C111_metadata`, `C112_remarks`, `C112_changes`, `C113_total`, `C113_lines`, `C113_words`, `C113_distinct`, `C114_group`, `C114_unknown`, `C114_remark`, `C114_first`, `C114_first_unknown`, `C115_arguments_partial`, `C115_violated`, `C116_processed`, `C116_printed`, `C116_web`, `C116_violated`, `C117_files`, `C118_unknown_partial`, `C119_violated`, `C119_violated`, `C12_terminal`, `C12_after`, `C12_after_text`, `C120_ends_partial`, `C120_missing`, `C120_failures`, `C120_violated`, `C121_violated`, `C116_printed`, `C122_export`, `C122_help`, `C123_lines`, `C123_unique`, `C124_wind_partial`, `C124_no_direction`, `C124_violated`, `C125_updated_partial`, `C125_true_age_partial`, `C125_missing`, `C125_violated`, `C126_icon`, `C126_unique`, `C126_order`, `C127_precipitation_partial`, `C127_violated`, `C128_fields_partial`, `C128_exact`, `C128_icon`, `C128_arrow`, `C128_violated`, `C129_order`, `C129_data`, `C13_flags`, `C13_correctional`, `C13_correction_number`, `C130_shown`, `C130_all_partial`, `C130_violated`, `C131_characters_partial`, `C131_unknown_partial`, `C131_exact`, `C131_valid`, `C131_violated`, `C132_three_hourly`, `C132_six_hourly_partial`, `C132_exact`, `C133_address`, `C133_link_partial`, `C133_unpaired`, `C133_distinct`, `C133_plain`, `C133_sample`, `C133_broken`, `C133_any_link`, `C133_no_text`, `C133_violated`, `C133_order_violated`, `C134_link`, `C134_history`, `C134_one_marked`, `C134_kilometres`, `C135_values`, `C135_sectors`, `C136_locating`, `C136_no_position_partial`, `C136_waiting`, `C136_data`, `C136_failed`, `C136_order`, `C136_requests`, `C136_unreadable`, `C136_violated`, `C137_great_circle`, `C137_metric`, `C137_zero`, `C137_farthest`, `C137_turns`, `C137_meridian`, `C137_radius`, `C138_places`, `C138_found`, `C138_accepted`, `C138_accepted_found`, `C138_documented_partial`, `C138_violated`, `C139_replaced`, `C139_removed`, `C139_unknown`, `C139_remarks`, `C139_first`, `C14_location_time`, `C14_accepted`, `C140_humidity`, `C140_heat_index`, `C140_heat_index_dew_point`, `C140_wind_chill`, `C140_assumption`, `C141_heat_index_temperature`, `C141_heat_index_humidity`, `C141_heat_index_dew_point`, `C141_heat_index_floor`, `C141_wind_chill_below`, `C141_wind_chill_temperature`, `C141_wind_chill_wind`, `C142_felt`, `C142_mild`, `C142_cold`, `C142_warm`, `C142_reported`, `C143_replaced`, `C143_removed`, `C143_unknown`, `C144_written`, `C144_whole`, `C145_header`, `C145_hour`, `C145_untyped`, `C145_metadata`, `C146_taf`, `C146_changes`, `C146_steady_changes`, `C147_metar`, `C147_taf`, `C147_forecast`, `C147_group`, `C147_word`, `C147_order`, `C147_taf_group`, `C147_taf_word`, `C147_taf_order`, `C148_page`, `C148_removed`, `C148_replaced`, `C148_remarks`, `C148_word`, `C148_header`, `C149_said`, `C149_pressure`, `C149_trends_remarks`, `C149_remarks`, `C15_metar_partial`, `C15_first_span`, `C15_taf`, `C15_violated`, `C150_said`, `C151_pair`, `C151_single`, `C151_time`, `C152_group`, `C152_row`, `C152_hour_needed`, `C153_same`, `C153_group`, `C153_span`, `C154_partial`, `C154_violated`, `C154_near`, `C154_whole`, `C154_metar`, `C154_taf`, `C154_written`, `C155_written_inches`, `C155_written_hectopascals`, `C155_metar_inches`, `C155_metar_hectopascals`, `C155_inches`, `C155_hectopascals`, `C16_type_detection`, `C16_first_group`, `C17_error_freezes`, `C17_error_freezes_text`, `C18_earlier_groups_kept`, `C19_priority`, `C20_not_absorbed`, `C20_own_group`, `C20_first_word`, `C21_empty_not_absorbed`, `C21_no_trailing_blank`, `C23_fraction`, `C24_runway`, `C24_valid`, `C24_codes`, `C25_ddhhmm`, `C25_ddhh`, `C25_valid`, `C25_round_trip`, `C26_date_partial`, `C26_no_day`, `C26_exists`, `C26_violated`, `C27_two_digits`, `C27_remark`, `C27_value`, `C28_available`, `C28_range`, `C28_mono`, `C28_strict`, `C28_saturated`, `powTen_ieee`, `C29_heat_index`, `C29_heat_index_dew_point`, `C29_wind_chill`, `C29_speeds`, `C30_speed`, `C30_unit`, `C31_speed_own`, `C31_speed_value`, `C31_speed_order`, `C31_speed_back`, `C31_distance_own`, `C31_distance_value`, `C31_distance_order`, `C31_distance_back`, `C31_pressure_own`, `C31_pressure_value`, `C31_pressure_order`, `C31_pressure_back`, `C31_precipitation_own`, `C31_precipitation_value`, `C31_precipitation_order`, `C31_precipitation_back`, `C31_wave_height`, `C31_wave_height_order`, `C31_temperature_own`, `C31_temperature_value`, `C31_temperature_order`, `C32_miles`, `C32_miles_remark`, `C32_exact`, `C32_truncated`, `C32_sum`, `C32_sum_only`, `C33_reportable`, `C33_available`, `C33_mono`, `C33_not_above`, `C33_round_trip`, `C34_nearest`, `C34_exact`, `C34_other`, `C35_sector_partial`, `C35_other_partial`, `C35_unknown_partial`, `C35_ends`, `C35_violated`, `C36_pressure`, `C36_forecast`, `C36_slp`, `C36_qfe`, `C36_tendency`, `C36_inHg_value`, `C36_slp_value`, `C36_distinct`, `C36_tendency_value`, `C37_deposits`, `C37_deposits_mono`, `C37_rainfall`, `C37_rain_value`, `C37_remark`, `C37_remark_value`, `C37_snincr`, `C38_friction`, `C38_action_code`, `C38_action_mono`, `C38_coefficient`, `C39_wave_height`, `C39_state_digit`, `C39_state_mono`, `C40_lossless`, `C40_constructors`, `C40_cut`, `C41_weather`, `C41_accepted`, `C41_valid`, `C41_unique`, `C42_events`, `C42_event_fields`, `C42_parse`, `C42_remark`, `C42_append`, `C42_limit`, `C42_recent`, `C43_type`, `C43_parse`, `C43_all`, `C43_elsewhere`, `C43_append`, `C43_count`, `C43_valid`, `C44_parse`, `C44_ordered`, `C44_not_above`, `C44_labelled`, `C44_other`, `C44_complete`, `C44_valid`, `C44_observed`, `C44_six_hourly`, `C45_parse`, `C45_times`, `C45_type`, `C45_append`, `C46_wind`, `C46_unique`, `C46_sector`, `C47_metar`, `C47_taf`, `C47_visibility_meters`, `C47_runway_visual_range`, `C47_fraction`, `C47_fraction_needed`, `C47_remark`, `C47_elsewhere`, `C47_kilometers`, `C47_rvr`, `C48_cloud`, `C48_remark`, `C48_ceiling`, `C48_variable`, `C48_obscuration`, `C48_where`, `C48_place`, `C48_okta`, `C48_layer`, `C49_location`, `C49_time`, `C49_time_valid`, `C50_dispatch`, `C50_total`, `C50_in_order`, `C51_body`, `C51_remark`, `C51_elsewhere`, `C51_missing`, `C51_complete`, `C51_valid`, `C51_valid_remark`, `C52_body`, `C52_forecast`, `C52_remark`, `C52_elsewhere`, `C52_append`, `C52_complete`, `C53_tendency`, `C53_elsewhere`, `C53_append`, `C53_trend`, `C54_state`, `C54_elsewhere`, `C54_append`, `C54_valid`, `C55_sea_surface`, `C55_elsewhere`, `C55_append`, `C56_remark`, `C56_amount`, `C56_rainfall`, `C56_elsewhere`, `C56_append`, `C56_append_once`, `C56_valid`, `C57_layer`, `C57_elsewhere`, `C57_append`, `C57_base_below_top`, `C58_clouds`, `C58_elsewhere`, `C58_append`, `C58_valid`, `C59_sector`, `C59_accepts`, `C59_covered`, `C60_history`, `C60_remark`, `C60_rejected`, `C60_directions`, `C60_valid`, `C61_history`, `C61_remark`, `C61_rejected`, `C61_complete`, `C61_directions`, `C62_history`, `C62_rejected`, `C62_density`, `C62_hail`, `C63_history`, `C63_rejected`, `C63_valid_wind`, `C63_valid`, `C64_history`, `C64_rejected`, `C64_valid`, `C65_reparse`, `C65_raw_strings_determine`, `C66_one_kind`, `C66_ambiguous`, `C66_order_free`, `C66_unknown`, `C66_second_try`, `C66_second_unknown`, `C67_other_kind`, `C67_unchanged`, `C67_unfinished`, `C68_cut_exists`, `C68_body`, `C68_remarks`, `C69_written`, `C69_unique`, `C69_exists`, `C69_division_unique`, `C69_body`, `C69_remarks`, `C70_groups`, `C70_layout`, `C70_report`, `C70_remarks`, `C71_valid`, `C72_clouds`, `C72_clouds_rejected`, `C72_remark`, `C72_unique`, `C72_continues`, `C72_rejected`, `C73_exists`, `C73_unique`, `C73_report`, `C74_remark`, `C74_header`, `C74_body`, `C74_report`, `C75_said`, `C75_header`, `C75_valid`, `C76_visibility`, `C76_values`, `C77_clouds`, `C77_values`, `C78_wind`, `C79_trend`, `C80_weather`, `C81_temperature`, `C81_pressure`, `C81_seaSurface`, `C81_minMax`, `C82_precipitation`, `C82_runwayState`, `C82_layerForecast`, `C82_tendency`, `C83_cloudTypes`, `C83_cloudCodes`, `C83_lightning`, `C83_vicinity`, `C83_misc`, `C84_outcome`, `C84_exists`, `C84_unique`, `C84_meaning_unique`, `C85_record`, `C85_result`, `C86_accepted`, `C87_metar`, `C88_taf`, `C88_high_low`, `C88_no_high_low`, `C89_sky_partial`, `C89_sky_taf_partial`, `C89_exact`, `C89_exact_taf`, `C89_violated`, `C91_metar`, `C91_no_metar`, `C91_no_taf`, `C91_nothing`, `C91_high_low`, `C91_trend`, `C92_total`, `C93_units`, `C93_reported`, `C94_metar`, `C94_taf`, `C95_metar`, `C95_taf`, `C95_high_low`, `C96_celsius`, `C96_fahrenheit`, `C96_speed`, `C96_metres`, `C96_miles`, `C96_metres_to_miles`, `C96_metar`, `C96_taf`, `C96_high_low`, `C97_hectopascals`, `C97_inches_partial`, `C97_exact`, `C97_violated`, `C98_total_partial`, `C98_stray`, `C98_violated`, `C99_page`, `C99_history`
