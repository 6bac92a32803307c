{"id": "C01", "title": "Parsing always terminates without undefined behaviour", "statement": "Parser::parse(report, groupLimit) returns a ParseResult for every byte string and every limit: its loops end, no fixed-capacity array or vector is indexed out of range, no empty optional is dereferenced and no substring position is out of range.", "quantifier": "every report string, every groupLimit", "why_tests_cant": "The set of report strings is infinite; a test run covers a fixed list of reports. Out-of-range reads may also go unnoticed in a passing run.", "anchors": ["include/metaf.hpp: Parser::parse", "include/metaf.hpp: WeatherPhenomena::isValid", "include/metaf.hpp: CloudTypesGroup::append", "include/metaf.hpp: MinMaxTemperatureGroup::appendForecast", "include/metaf.hpp: strToUint"]}
{"id": "C02", "title": "Everything after the report end indicator is ignored", "statement": "For all strings s and t, Parser::parse(s + \"=\" + t) gives the same ParseResult as Parser::parse(s + \"=\"), and the indicator itself leaves no trace: the result also equals Parser::parse(s).", "quantifier": "every s, every t, every groupLimit", "why_tests_cant": "The set of report strings is infinite; a test run covers a fixed list of reports.", "anchors": ["include/metaf.hpp: Parser::ReportInput::getNextGroup", "include/metaf.hpp: Parser::parse"]}
{"id": "C03", "title": "Layout of delimiters is irrelevant", "statement": "Two reports made of the same groups separated by different non-empty runs of delimiter characters, with different leading and trailing delimiters, give the same ParseResult.", "quantifier": "every group list, every choice of delimiter runs, every groupLimit", "why_tests_cant": "The set of report strings is infinite; a test run covers a fixed list of reports.", "anchors": ["include/metaf.hpp: Parser::ReportInput::getNextGroup"]}
{"id": "C04", "title": "No text is lost, invented or reordered", "statement": "Splitting the rawString of all groups of the result at spaces and concatenating gives, in order, exactly the groups of the report that were processed; when no error is reported this is the whole report, otherwise it is the part up to and including the offending group.", "quantifier": "every report string, every groupLimit", "why_tests_cant": "The set of report strings is infinite; a test run covers a fixed list of reports. The merging and re-parsing of multi-group sequences has unboundedly many interleavings.", "anchors": ["include/metaf.hpp: Parser::parse", "include/metaf.hpp: Parser::appendToLastResultGroup", "include/metaf.hpp: Parser::addGroupToResult"]}
{"id": "C05", "title": "The group limit is enforced", "statement": "At most max(1, groupLimit) groups of the report are processed, and at most that many entries with text are returned; REPORT_TOO_LARGE is only reported for a report with at least groupLimit - 1 groups, and always when the number of groups processed reaches the limit. The result has at most 2 * max(1, groupLimit) entries and at most twice as many entries as the text has groups, and the raw strings of all its entries together are at most twice as long as the text.", "quantifier": "every report string, every groupLimit", "why_tests_cant": "The set of report strings is infinite; a test run covers a fixed list of reports.", "anchors": ["include/metaf.hpp: Parser::parse", "include/metaf.hpp: ReportError::REPORT_TOO_LARGE"]}
{"id": "C06", "title": "Consecutive unrecognised groups are merged", "statement": "A ParseResult never holds two adjacent UnknownGroup entries.", "quantifier": "every report string, every groupLimit", "why_tests_cant": "The set of report strings is infinite; a test run covers a fixed list of reports.", "anchors": ["include/metaf.hpp: Parser::addGroupToResult", "include/metaf.hpp: Parser::appendToLastResultGroup", "include/metaf.hpp: UnknownGroup"]}
{"id": "C07", "title": "One report group never yields several result groups", "statement": "Every entry of ParseResult::groups has a non-empty rawString, so no group of the report yields more than one entry (documented in the API reference of Parser).", "quantifier": "every report string, every groupLimit", "why_tests_cant": "The set of report strings is infinite; a test run covers a fixed list of reports. The failing shape needs an incomplete group that is re-parsed as another incomplete group.", "anchors": ["include/metaf.hpp: Parser::appendToLastResultGroup"]}
{"id": "C08", "title": "Report parts follow each other in order", "statement": "Along ParseResult::groups the report part is HEADER first, then only METAR or only TAF, then RMK; UNKNOWN can only stand at the very end, after NIL or CNL. METAR and TAF parts never occur in one result.", "quantifier": "every report string, every groupLimit", "why_tests_cant": "The set of report strings is infinite; a test run covers a fixed list of reports.", "anchors": ["include/metaf.hpp: Parser::Status::getReportPart", "include/metaf.hpp: Parser::Status::transition", "include/metaf.hpp: GroupInfo::reportPart"]}
{"id": "C09", "title": "Type of an accepted report is known", "statement": "If the error is NONE then the report type is METAR or TAF, unless the report is NIL.", "quantifier": "every report string, every groupLimit", "why_tests_cant": "The set of report strings is infinite; a test run covers a fixed list of reports.", "anchors": ["include/metaf.hpp: Parser::Status", "include/metaf.hpp: ReportMetadata::type"]}
{"id": "C10", "title": "Accepted reports follow the documented grammar", "statement": "The error is NONE exactly when the sequence of syntax elements of the report is in the documented grammar (type, COR/AMD, location, time, time span, body, remarks; NIL and CNL forms), and otherwise the error names the first deviation.", "quantifier": "every sequence of groups", "why_tests_cant": "The set of group sequences is infinite and the state machine has a re-parse edge.", "anchors": ["include/metaf.hpp: Parser::Status::transition", "include/metaf.hpp: Parser::Status::finalTransition", "include/metaf.hpp: getSyntaxGroup"]}
{"id": "C11", "title": "AMD, CNL and the maintenance indicator are restricted to their report type", "statement": "If the error is NONE, then AMD or CNL found implies a TAF report and the maintenance indicator found implies a METAR report.", "quantifier": "every report string, every groupLimit", "why_tests_cant": "The set of report strings is infinite; a test run covers a fixed list of reports.", "anchors": ["include/metaf.hpp: Parser::Status::transition", "include/metaf.hpp: ReportMetadata"]}
{"id": "C12", "title": "NIL and CNL are terminal", "statement": "In a report with error NONE a NIL or CNL group is the last group of the result; any group after them produces UNEXPECTED_GROUP_AFTER_NIL or UNEXPECTED_GROUP_AFTER_CNL.", "quantifier": "every report string, every groupLimit", "why_tests_cant": "The set of report strings is infinite; a test run covers a fixed list of reports.", "anchors": ["include/metaf.hpp: Parser::Status::transition"]}
{"id": "C13", "title": "Metadata flags agree with the groups", "statement": "Each keyword attribute of ReportMetadata (isSpeci, isNospeci, isAutomated, isAo1, isAo1a, isAo2, isAo2a, isNil, isCancelled, isAmended, maintenanceIndicator) is set exactly when the result holds the corresponding KeywordGroup.", "quantifier": "every report string, every groupLimit", "why_tests_cant": "The set of report strings is infinite; a test run covers a fixed list of reports.", "anchors": ["include/metaf.hpp: Parser::updateMetadata", "include/metaf.hpp: ReportMetadata", "include/metaf.hpp: KeywordGroup"]}
{"id": "C14", "title": "Metadata location and time come from the groups", "statement": "icaoLocation is the text of the location group of the result and reportTime the time of its report time group, and both are empty when there is no such group; if the error is NONE the location is a four-character ICAO code.", "quantifier": "every report string, every groupLimit", "why_tests_cant": "The set of report strings is infinite; a test run covers a fixed list of reports.", "anchors": ["include/metaf.hpp: Parser::updateMetadata", "include/metaf.hpp: LocationGroup", "include/metaf.hpp: ReportTimeGroup"]}
{"id": "C15", "title": "METAR reports carry no validity time span", "statement": "For a METAR or SPECI report timeSpanFrom and timeSpanUntil are empty; for a TAF accepted without error and not NIL or CNL they hold the validity period.", "quantifier": "every report string, every groupLimit", "why_tests_cant": "The set of report strings is infinite; a test run covers a fixed list of reports.", "anchors": ["include/metaf.hpp: Parser::updateMetadata", "include/metaf.hpp: ReportMetadata::timeSpanFrom", "include/metaf.hpp: ReportMetadata::timeSpanUntil"]}
{"id": "C16", "title": "Report type detection", "statement": "A report that starts with METAR or SPECI is never typed TAF, one that starts with TAF is never typed METAR, and one that starts with a location is typed TAF exactly when the group after the release time is a time span.", "quantifier": "every report string, every groupLimit", "why_tests_cant": "The set of report strings is infinite; a test run covers a fixed list of reports.", "anchors": ["include/metaf.hpp: Parser::Status::transition", "include/metaf.hpp: getSyntaxGroup"]}
{"id": "C17", "title": "A syntax error freezes the result", "statement": "If parsing a report fails at some group, appending any further text to the report changes neither the error nor the groups nor the metadata.", "quantifier": "every report string that fails at a group, every continuation", "why_tests_cant": "The set of report strings is infinite; a test run covers a fixed list of reports.", "anchors": ["include/metaf.hpp: Parser::parse", "include/metaf.hpp: Parser::Status::isError"]}
{"id": "C18", "title": "Earlier groups are never rewritten", "statement": "Extending a report only affects the last group of the result so far: an entry followed by two entries with text stays as it is, and an entry with text followed by one entry with text stays as it is except that an unknown group may get further text.", "quantifier": "every report string, every continuation", "why_tests_cant": "The set of report strings is infinite; a test run covers a fixed list of reports.", "anchors": ["include/metaf.hpp: Parser::appendToLastResultGroup", "include/metaf.hpp: Parser::addGroupToResult"]}
{"id": "C19", "title": "Groups are recognised in a fixed priority order", "statement": "GroupParser::parse returns the first alternative of Group, in declaration order, that recognises the string, and UnknownGroup exactly when none does.", "quantifier": "every string, report part and metadata", "why_tests_cant": "The set of report strings is infinite; a test run covers a fixed list of reports.", "anchors": ["include/metaf.hpp: GroupParser::parse", "include/metaf.hpp: GroupParser::parseAlternative", "include/metaf.hpp: Group"]}
{"id": "C20", "title": "Structural keywords are never absorbed", "statement": "None of the groups absorbs RMK, NIL, CNL or another header keyword as its continuation: such a token always becomes its own KeywordGroup and is seen by the syntax check.", "quantifier": "every group value in every state", "why_tests_cant": "The states of multi-group sequences cannot be enumerated by tests.", "anchors": ["include/metaf.hpp: KeywordGroup::parse", "include/metaf.hpp: Group append methods"]}
{"id": "C21", "title": "The end-of-report flush never extends a group", "statement": "Appending the empty string, done once at the end of the report, is accepted by no group other than UnknownGroup, so no rawString gets a trailing blank.", "quantifier": "every group value in every state", "why_tests_cant": "Group states are unbounded (weather lists, lightning sectors, times).", "anchors": ["include/metaf.hpp: Parser::parse", "include/metaf.hpp: Group append methods"]}
{"id": "C22", "title": "Decimal fields are decoded exactly", "statement": "strToUint(s, pos, n) has a value exactly when s[pos..pos+n) lies in s and is all digits, and for n <= 9 the value is the decimal number written there.", "quantifier": "every string, position and length", "why_tests_cant": "Strings and positions are unbounded.", "anchors": ["include/metaf.hpp: strToUint"]}
{"id": "C23", "title": "Fractions are decoded exactly", "statement": "fractionStrToUint recognises exactly strings of one or two digits, a slash, and one or two digits, and returns the two numbers.", "quantifier": "every string, position and length", "why_tests_cant": "Strings and positions are unbounded.", "anchors": ["include/metaf.hpp: fractionStrToUint"]}
{"id": "C24", "title": "Runway designators round-trip", "statement": "Runway::fromString recognises exactly R or RWY, two digits and an optional L, C or R; number and designator are those of the text; validity means number up to 36 or one of the special codes 88 and 99 without designator.", "quantifier": "every string", "why_tests_cant": "Strings are unbounded.", "anchors": ["include/metaf.hpp: Runway::fromString", "include/metaf.hpp: Runway::isValid"]}
{"id": "C25", "title": "Times round-trip", "statement": "MetafTime::fromStringDDHHMM and fromStringDDHH recognise exactly the documented digit formats and return the numbers written; isValid holds exactly for day 1..31, hour 0..24, minute 0..59.", "quantifier": "every string", "why_tests_cant": "Strings are unbounded.", "anchors": ["include/metaf.hpp: MetafTime::fromStringDDHHMM", "include/metaf.hpp: MetafTime::fromStringDDHH", "include/metaf.hpp: MetafTime::isValid"]}
{"id": "C26", "title": "Completing a date relative to a reference", "statement": "dateBeforeRef gives a date with the stored day of month that is not later than the reference date and less than one month earlier, and it is a real calendar date whenever the reference is.", "quantifier": "every stored time and every reference date", "why_tests_cant": "Year, month and day range over unbounded values.", "anchors": ["include/metaf.hpp: MetafTime::dateBeforeRef"]}
{"id": "C27", "title": "Temperatures are decoded exactly", "statement": "Temperature::fromString recognises exactly two digits with optional M, or //; the value and its sign, including minus zero, are those of the text. fromRemarkString gives exact tenths whatever the floating point rounding.", "quantifier": "every string, every IEEE-like rounding", "why_tests_cant": "Strings are unbounded and rounding modes vary.", "anchors": ["include/metaf.hpp: Temperature::fromString", "include/metaf.hpp: Temperature::fromRemarkString", "include/metaf.hpp: Temperature::isFreezing"]}
{"id": "C28", "title": "Relative humidity stays in range", "statement": "Temperature::relativeHumidity is within (0, 100] for every reported pair with dew point not above temperature, and grows with the dew point.", "quantifier": "every pair of temperatures", "why_tests_cant": "All numeric pairs.", "anchors": ["include/metaf.hpp: Temperature::relativeHumidity"]}
{"id": "C29", "title": "Heat index and wind chill are given only where defined", "statement": "heatIndex is reported only for temperature >= 27 C and humidity within 40..100 %, windChill only for temperature <= 10 C and wind speed >= 4.8 km/h.", "quantifier": "every temperature, humidity and speed", "why_tests_cant": "All numeric inputs.", "anchors": ["include/metaf.hpp: Temperature::heatIndex", "include/metaf.hpp: Temperature::windChill"]}
{"id": "C30", "title": "Speeds are decoded exactly", "statement": "Speed::fromString recognises exactly empty text, //, two digits or three digits without leading zero; the value is that of the text.", "quantifier": "every string", "why_tests_cant": "Strings are unbounded.", "anchors": ["include/metaf.hpp: Speed::fromString", "include/metaf.hpp: Speed::unitFromString"]}
{"id": "C31", "title": "Unit conversion is coherent", "statement": "Converting a speed, distance, temperature, pressure or precipitation amount to its own unit gives the stored value; a value is available exactly when reported; conversion preserves order, and there-and-back conversion is within the stated relative tolerance.", "quantifier": "every value and pair of units", "why_tests_cant": "All numeric inputs.", "anchors": ["include/metaf.hpp: Speed::toUnit", "include/metaf.hpp: Distance::toUnit", "include/metaf.hpp: Temperature::toUnit", "include/metaf.hpp: Pressure::toUnit", "include/metaf.hpp: Precipitation::toUnit"]}
{"id": "C32", "title": "Statute mile distances are decoded exactly", "statement": "Distance::fromMileString gives integer plus fraction as written, with the P and M modifiers, for every string of the documented format; an integer group and a following fraction group add up.", "quantifier": "every string", "why_tests_cant": "Strings are unbounded.", "anchors": ["include/metaf.hpp: Distance::fromMileString", "include/metaf.hpp: Distance::fromIntegerAndFraction"]}
{"id": "C33", "title": "Reported miles are table values and monotone", "statement": "Distance::miles returns only the reportable values of Table 6-1 of FMH-1, is never above the stored distance rounded to 1/16 mile, and a larger distance never gives a smaller result.", "quantifier": "every distance", "why_tests_cant": "All numeric inputs.", "anchors": ["include/metaf.hpp: Distance::miles"]}
{"id": "C34", "title": "Degrees map to the nearest cardinal direction", "statement": "Direction::cardinal of a value in degrees from 0 to 360 is the octant whose centre is nearest, of a larger value NOT_REPORTED; the exact directions are reported only for 90, 180, 270, 360.", "quantifier": "every value in degrees", "why_tests_cant": "All numeric inputs.", "anchors": ["include/metaf.hpp: Direction::cardinal"]}
{"id": "C35", "title": "Direction sectors are enumerated clockwise and finitely", "statement": "sectorCardinalDirToVector terminates for every pair of directions and lists the octants clockwise from the first to the last, without repetition and at most eight.", "quantifier": "every pair of directions", "why_tests_cant": "A missing-termination case shows up as a hang, and all pairs including special values have to be tried.", "anchors": ["include/metaf.hpp: Direction::sectorCardinalDirToVector", "include/metaf.hpp: Direction::rotateOctantClockwise"]}
{"id": "C36", "title": "Pressure groups are decoded exactly", "statement": "The QNH, altimeter, SLP and QFE formats are recognised exactly as documented with the value written; SLP values always decode into 950.0..1049.9 hPa and distinct codes decode to distinct pressures.", "quantifier": "every string, every IEEE-like rounding", "why_tests_cant": "Strings are unbounded.", "anchors": ["include/metaf.hpp: Pressure::fromString", "include/metaf.hpp: Pressure::fromSlpString", "include/metaf.hpp: Pressure::fromQfeString", "include/metaf.hpp: Pressure::fromForecastString", "include/metaf.hpp: Pressure::fromTendencyString"]}
{"id": "C37", "title": "Runway deposit depth and rainfall are decoded exactly", "statement": "Precipitation::fromRunwayDeposits follows the documented code table (00..90 mm, 92..98 as 10..40 cm, 99 and // special) and rejects 91; fromRainfallString and fromRemarkString give the number written.", "quantifier": "every string, every IEEE-like rounding", "why_tests_cant": "Strings are unbounded.", "anchors": ["include/metaf.hpp: Precipitation::fromRunwayDeposits", "include/metaf.hpp: Precipitation::fromRainfallString", "include/metaf.hpp: Precipitation::fromRemarkString"]}
{"id": "C38", "title": "Surface friction codes are decoded consistently", "statement": "SurfaceFriction::fromString maps 00..90 to the coefficient, 91..95 to braking action poor to good, 99 to unreliable, // to not reported and rejects 96..98; braking action derived from a coefficient is monotone.", "quantifier": "every string", "why_tests_cant": "Strings are unbounded.", "anchors": ["include/metaf.hpp: SurfaceFriction::fromString", "include/metaf.hpp: SurfaceFriction::brakingAction"]}
{"id": "C39", "title": "Wave height and state of surface agree", "statement": "WaveHeight::fromString of S followed by a digit reports that state of surface back, of H followed by 1-3 digits that height in decimetres; the derived state of surface is monotone in the height.", "quantifier": "every string, every height", "why_tests_cant": "All numeric inputs.", "anchors": ["include/metaf.hpp: WaveHeight::fromString", "include/metaf.hpp: WaveHeight::stateOfSurface"]}
{"id": "C40", "title": "Weather phenomena packing is lossless", "statement": "Qualifier, descriptor, up to three weather codes and the event stored in a WeatherPhenomena are returned unchanged by its accessors.", "quantifier": "every combination of components", "why_tests_cant": "The number of combinations is in the hundreds of thousands.", "anchors": ["include/metaf.hpp: WeatherPhenomena::qualifier", "include/metaf.hpp: WeatherPhenomena::descriptor", "include/metaf.hpp: WeatherPhenomena::weather", "include/metaf.hpp: WeatherPhenomena::event"]}
{"id": "C41", "title": "Weather strings decode into valid, duplicate-free phenomena", "statement": "Whatever WeatherPhenomena::fromString accepts has at most three distinct weather codes, is accepted by isValid, which never reads beyond the list of codes, and renders back to the text that was parsed.", "quantifier": "every string", "why_tests_cant": "Strings are unbounded; the out-of-range read does not necessarily crash.", "anchors": ["include/metaf.hpp: WeatherPhenomena::fromString", "include/metaf.hpp: WeatherPhenomena::isValid"]}
{"id": "C42", "title": "Weather groups keep every phenomenon", "statement": "A WeatherGroup holds at most 20 phenomena. An append that is accepted adds exactly one phenomenon at the end and changes nothing else. A remark token of begin and end events yields one phenomenon for each event written, in order, up to the first 20.", "quantifier": "every group state and string", "why_tests_cant": "Histories of appended groups are unbounded.", "anchors": ["include/metaf.hpp: WeatherGroup::append", "include/metaf.hpp: WeatherGroup::parseWeatherEvent", "include/metaf.hpp: WeatherGroup::addWeatherPhenomena"]}
{"id": "C43", "title": "Cloud types groups keep every cloud type", "statement": "A CloudTypesGroup is recognised exactly for a cloud type with height, or for a run of cloud types each followed by its okta digit, and holds those written, in order, up to the first eight. An accepted append adds exactly one cloud type with height. Every group so built holds between one and eight cloud types.", "quantifier": "every string", "why_tests_cant": "Strings are unbounded.", "anchors": ["include/metaf.hpp: CloudTypesGroup::parse", "include/metaf.hpp: CloudTypesGroup::append"]}
{"id": "C44", "title": "Minimum and maximum temperatures keep their values, order and times", "statement": "Two forecast temperatures without a letter form a MinMaxTemperatureGroup whose minimum is not above its maximum; TX and TN temperatures are the maximum and the minimum as marked, and a group where the minimum is not below the maximum is reported as not valid; each temperature keeps the time it was written with, in whichever order the two groups came; observed 6-hourly and 24-hourly temperatures are those written.", "quantifier": "every text and every pair of groups", "why_tests_cant": "All value combinations.", "anchors": ["include/metaf.hpp: MinMaxTemperatureGroup::append", "include/metaf.hpp: MinMaxTemperatureGroup::appendForecast"]}
{"id": "C45", "title": "Trend group times are those written", "statement": "TrendGroup accepts exactly the documented time formats for METAR and TAF; combining BECMG/TEMPO/INTER/PROB with time spans keeps every time written, and an accepted time is never overwritten.", "quantifier": "every sequence of trend tokens", "why_tests_cant": "Sequences are unbounded.", "anchors": ["include/metaf.hpp: TrendGroup::parse", "include/metaf.hpp: TrendGroup::append"]}
{"id": "C46", "title": "Surface wind groups round-trip", "statement": "A wind group written as direction, speed, optional gust and unit is recognised with exactly these components, and every recognised surface wind has such a form.", "quantifier": "every direction, speed, gust, unit; every string", "why_tests_cant": "All value combinations and unbounded strings.", "anchors": ["include/metaf.hpp: WindGroup::parse"]}
{"id": "C47", "title": "Visibility and runway visual range round-trip", "statement": "A visibility in metres, or a runway visual range with runway, limits and trend, is recognised with exactly the components written.", "quantifier": "every combination of components; every string", "why_tests_cant": "All value combinations.", "anchors": ["include/metaf.hpp: VisibilityGroup::parse"]}
{"id": "C48", "title": "Cloud layers round-trip", "statement": "A cloud layer written as amount, height and convective type is recognised with exactly these components, and nothing else is recognised as one. The okta value of every cloud group is the largest number of eighths for its amount and never above eight.", "quantifier": "every combination; every string", "why_tests_cant": "All value combinations.", "anchors": ["include/metaf.hpp: CloudGroup::parse", "include/metaf.hpp: CloudType::fromString"]}
{"id": "C49", "title": "Location and release time round-trip", "statement": "LocationGroup::parse accepts in the header exactly one capital letter followed by three capital letters or digits and toString returns that text; ReportTimeGroup::parse accepts exactly six digits and Z and holds these numbers.", "quantifier": "every string", "why_tests_cant": "Strings are unbounded.", "anchors": ["include/metaf.hpp: LocationGroup::parse", "include/metaf.hpp: LocationGroup::toString", "include/metaf.hpp: ReportTimeGroup::parse"]}
{"id": "C50", "title": "Visitor dispatch", "statement": "Visitor::visit calls exactly the method for the alternative held by the group, with that group's report part and raw string, for every group of a result in order.", "quantifier": "every result", "why_tests_cant": "All group lists.", "anchors": ["include/metaf.hpp: Visitor::visit"]}
{"id": "C51", "title": "Temperature and dew point are those written", "statement": "TemperatureGroup::parse accepts in the body of a METAR exactly a temperature in degrees, a slash and possibly a dew point, and in remarks exactly T with values in tenths or the words T and TD that MISG must follow; the group returns the values written. A group is invalid exactly if both values are reported and the temperature is below the dew point.", "quantifier": "every string, every report part, every pair of values", "why_tests_cant": "Strings are unbounded and all pairs of values must agree.", "anchors": ["include/metaf.hpp: TemperatureGroup::parse", "include/metaf.hpp: TemperatureGroup::append", "include/metaf.hpp: TemperatureGroup::isValid"]}
{"id": "C52", "title": "Pressure is that written", "statement": "PressureGroup::parse accepts in each report part exactly the pressure notations of that part (QNH, forecast QNH, SLP, QFE, SLPNO, PRES MISG) with the value and unit written; PRES is completed by MISG only.", "quantifier": "every string, every report part", "why_tests_cant": "Strings are unbounded.", "anchors": ["include/metaf.hpp: PressureGroup::parse", "include/metaf.hpp: PressureGroup::append"]}
{"id": "C53", "title": "Pressure tendency is that written", "statement": "PressureTendencyGroup::parse accepts exactly the tendency notations in remarks and returns the type and difference written; trend() agrees with the code table.", "quantifier": "every string, every code", "why_tests_cant": "Strings are unbounded.", "anchors": ["include/metaf.hpp: PressureTendencyGroup::parse", "include/metaf.hpp: PressureTendencyGroup::trend"]}
{"id": "C54", "title": "State of runways is that written", "statement": "RunwayStateGroup::parse accepts in the body of a METAR exactly SNOCLO, R/SNOCLO, or a runway, a slash and closed, cleared or deposits, extent, depth and friction, and returns what is written by the WMO code tables; the group is valid exactly if the runway is and the extent is not a reserved code.", "quantifier": "every string, every report part", "why_tests_cant": "Strings are unbounded; all codes in all combinations.", "anchors": ["include/metaf.hpp: RunwayStateGroup::parse", "include/metaf.hpp: RunwayStateGroup::isValid"]}
{"id": "C55", "title": "Sea surface is that written", "statement": "SeaSurfaceGroup::parse accepts in the body of a METAR exactly W, a temperature, a slash and height of waves or state of surface, and returns what is written.", "quantifier": "every string, every report part", "why_tests_cant": "Strings are unbounded.", "anchors": ["include/metaf.hpp: SeaSurfaceGroup::parse"]}
{"id": "C56", "title": "Precipitation is that written", "statement": "PrecipitationGroup::parse accepts exactly the rainfall notation in the body and the words and codes of remarks, returns what is measured, amount and unit; the meaning of code 6 depends on the hour of the report. SNINCR takes one pair of numbers, ICG and PCPN are completed by MISG only.", "quantifier": "every string, every report part, every report time, every continuation", "why_tests_cant": "Strings are unbounded; the meaning depends on the report time.", "anchors": ["include/metaf.hpp: PrecipitationGroup::parse", "include/metaf.hpp: PrecipitationGroup::append", "include/metaf.hpp: PrecipitationGroup::factorFromType", "include/metaf.hpp: PrecipitationGroup::unitFromType", "include/metaf.hpp: MetafTime::is3hourlyReportTime", "include/metaf.hpp: MetafTime::is6hourlyReportTime"]}
{"id": "C57", "title": "Icing and turbulence layers are those written", "statement": "LayerForecastGroup::parse accepts in a TAF exactly a kind of icing or turbulence and a layer, returns kind, base and top written, and the base is never above the top.", "quantifier": "every string, every report part", "why_tests_cant": "Strings are unbounded.", "anchors": ["include/metaf.hpp: LayerForecastGroup::parse", "include/metaf.hpp: LayerForecastGroup::typeFromStr", "include/metaf.hpp: Distance::fromLayerString"]}
{"id": "C58", "title": "Low, middle and high clouds are those written", "statement": "LowMidHighCloudGroup::parse accepts in remarks exactly 8/ and three codes and returns the clouds of the WMO code tables; a group is invalid exactly if a layer is reported above one which hides it.", "quantifier": "every string, every report part", "why_tests_cant": "Strings are unbounded; 1331 codes in three tables.", "anchors": ["include/metaf.hpp: LowMidHighCloudGroup::parse", "include/metaf.hpp: LowMidHighCloudGroup::isValid"]}
{"id": "C59", "title": "Direction sectors are those written", "statement": "A direction sector is recognised exactly if it is the names of two or more octants (N, NE, E, SE, S, SW, W, NW) joined by dashes. The sector decoded goes from the first octant named to the last one, and listing its octants always ends with the clockwise sweep between them.", "quantifier": "for every text, with any number of octants in it", "why_tests_cant": "The number of octants in a sector text is not bounded, so tests sample only a few lengths.", "anchors": ["include/metaf.hpp: Direction::fromSectorString", "include/metaf.hpp: Direction::sectorCardinalDirToVector"]}
{"id": "C60", "title": "Lightning is that written", "statement": "A sequence of texts in the remarks forms one lightning group exactly if it is: an optional frequency (OCNL, FRQ, CONS), LTG with type codes, any number of distances (DSNT, VC), and none, one or two directions or sectors (OHD, ALQDS and NDV included), with words AND after the first one. The group reports exactly that frequency, the types among the first six codes, the last distance and those directions, listed once each. A text that does not belong to the group leaves it unchanged, and invalidates it exactly if LTG is missing after the frequency.", "quantifier": "for every sequence of texts", "why_tests_cant": "Sequences are not bounded: distances and AND can be repeated; directions include sectors of any length.", "anchors": ["include/metaf.hpp: LightningGroup::parse", "include/metaf.hpp: LightningGroup::append", "include/metaf.hpp: LightningGroup::fromLtgGroup", "include/metaf.hpp: LightningGroup::directions"]}
{"id": "C61", "title": "Phenomena in the vicinity are those written", "statement": "A sequence of texts in the remarks forms one group for a phenomenon in the vicinity exactly if it is a beginning of: name of the phenomenon (ROTOR CLD for rotor clouds), optional distance (DSNT, VC or kilometres), one direction or sector, optionally AND and a second one, optionally MOV and a direction of movement. The group reports exactly what is written. When the next text does not belong to it, the group is valid if it has a distance or direction and does not end with AND or MOV, and is invalidated otherwise; its values never change.", "quantifier": "for every sequence of texts", "why_tests_cant": "Sequences combine many optional texts, and sectors of any length; the behaviour depends on the whole history of texts.", "anchors": ["include/metaf.hpp: VicinityGroup::parse", "include/metaf.hpp: VicinityGroup::append", "include/metaf.hpp: VicinityGroup::appendDir1", "include/metaf.hpp: VicinityGroup::appendDir2", "include/metaf.hpp: VicinityGroup::appendDistance", "include/metaf.hpp: VicinityGroup::directions"]}
{"id": "C62", "title": "Miscellaneous groups are those written", "statement": "Colour codes, corrected observations (CCA to CCZ), TAF issuers (FN, FS and five digits), sunshine minutes (98 and three digits), FROIN, density altitude (DENSITY ALT with feet or MISG) and hailstones (GR with inches and quarters) are recognised exactly in the parts of the report where they are allowed, exactly if spelled so, and the value reported equals the one written; hailstone sizes are exact multiples of a quarter inch between 1/4 and 9 3/4. A text that does not belong to the group leaves it unchanged and invalidates it exactly if it is incomplete.", "quantifier": "for every report part and every sequence of texts", "why_tests_cant": "Density altitude has any number of digits; the other forms have many values, and none may be confused with another.", "anchors": ["include/metaf.hpp: MiscGroup::parse", "include/metaf.hpp: MiscGroup::append", "include/metaf.hpp: MiscGroup::parseColourCode", "include/metaf.hpp: MiscGroup::appendHailstoneFraction", "include/metaf.hpp: MiscGroup::appendDensityAltitude"]}
{"id": "C63", "title": "Wind groups of several texts are those written", "statement": "Exactly the following sequences of report groups become one wind group, with exactly the values written: surface wind or wind shear, alone or (surface wind only, not calm) followed by a variable sector; a variable sector alone; WSCONDS; WS ALL RWY; WS with a runway; WND MISG; PK WND with direction, speed and time; WSHFT with optional time and optional FROPA. A time of two digits is the minute in the hour of the report and needs a report time. A text which does not fit ends a finished group unchanged and discards an unfinished one. The group is valid exactly if directions, times and runways are possible, gusts exceed the speed, and shear is above ground.", "quantifier": "For every report part, every report metadata, every sequence of texts and every text following it", "why_tests_cant": "The sequences and numbers are unbounded in combination; tests cover a few peak winds and wind shifts and cannot show that no other sequence is accepted", "anchors": ["include/metaf.hpp: WindGroup::parse", "include/metaf.hpp: WindGroup::append", "include/metaf.hpp: WindGroup::appendVariableSector", "include/metaf.hpp: WindGroup::appendPeakWind", "include/metaf.hpp: WindGroup::appendWindShift", "include/metaf.hpp: WindGroup::isValid"]}
{"id": "C64", "title": "Remarks on visibility are read as written", "statement": "In remarks exactly the following sequences of report groups become one visibility group with exactly the values written: VIS MISG; VIS with a distance (whole miles, fraction, whole miles and fraction as separate groups, metres) or a range (minimum and maximum separated by V, each possibly split between groups), optionally followed by a runway; VIS with a direction or sector and a distance in miles or a range; SFC VIS and TWR VIS with a distance; RVRNO; RVR MISG; VISNO, alone or with a runway, direction or sector. A fraction added to whole miles gives exactly the sum. A text which does not fit discards a remark that is of no use without continuation and otherwise leaves it complete and unchanged. A complete remark is valid exactly if the runway is possible and the minimum does not exceed the maximum, compared as the exact rational values.", "quantifier": "For every sequence of texts and every text following it", "why_tests_cant": "There are infinitely many texts and long sequences of them; the state kept between groups has 15 values, and a wrong transition shows only for particular sequences. Comparison of distances goes through floating point.", "anchors": ["include/metaf.hpp: VisibilityGroup::parse", "include/metaf.hpp: VisibilityGroup::append", "include/metaf.hpp: VisibilityGroup::appendInteger", "include/metaf.hpp: VisibilityGroup::appendFraction", "include/metaf.hpp: VisibilityGroup::appendVariable", "include/metaf.hpp: VisibilityGroup::appendVariableMaxFraction", "include/metaf.hpp: VisibilityGroup::appendMeters", "include/metaf.hpp: VisibilityGroup::appendVariableMeters", "include/metaf.hpp: VisibilityGroup::appendDirection", "include/metaf.hpp: VisibilityGroup::appendRunway", "include/metaf.hpp: VisibilityGroup::isValid", "include/metaf.hpp: Distance::fromIntegerAndFraction"]}
{"id": "C65", "title": "The raw strings of a result are a report with the same result", "statement": "Joining the raw strings of the groups of any result with spaces gives a report which, parsed with the same group limit, has exactly the same result: same report type, error and metadata, and the same groups with the same report parts and raw strings. So a caller may store the raw strings and parse them again, also when parsing stopped at an error, and results with the same raw strings are the same result.", "quantifier": "For every report text and every group limit", "why_tests_cant": "The claim relates the results of two runs for every text, including reports cut short by an error or by the group limit, groups made of several texts, and colour codes followed by a group without a space.", "anchors": ["include/metaf.hpp: Parser::parse", "include/metaf.hpp: ReportInput", "include/metaf.hpp: Parser::appendToLastResultGroup", "include/metaf.hpp: Parser::addGroupToResult", "include/metaf.hpp: ParseResult"]}
{"id": "C66", "title": "At most one kind of group recognises a text", "statement": "In every part of a report and for all metadata of the report, at most one of the 21 kinds of groups recognises a given text, so the result of parsing a group does not depend on the order in which the kinds are tried, and a text becomes an unknown group exactly if no kind recognises it. The only exceptions are BLSN, BLDU, BLSA, FU and FG in remarks, which both CloudGroup and VicinityGroup recognise; they become a CloudGroup. A text that was recognised as the beginning of a longer group and is tried again, because the rest does not follow, becomes unknown, or with those five texts the group of the other kind.", "quantifier": "For every text, every report part, all report metadata and every two kinds of groups", "why_tests_cant": "The claim compares the sets of texts recognised by all pairs of 21 recognisers in five report parts; these sets are too large or infinite, and a clash shows only for a text on which two recognisers agree.", "anchors": ["include/metaf.hpp: GroupParser::parse", "include/metaf.hpp: Group", "include/metaf.hpp: KeywordGroup::parse", "include/metaf.hpp: LocationGroup::parse", "include/metaf.hpp: ReportTimeGroup::parse", "include/metaf.hpp: TrendGroup::parse", "include/metaf.hpp: WindGroup::parse", "include/metaf.hpp: VisibilityGroup::parse", "include/metaf.hpp: CloudGroup::parse", "include/metaf.hpp: WeatherGroup::parse", "include/metaf.hpp: TemperatureGroup::parse", "include/metaf.hpp: PressureGroup::parse", "include/metaf.hpp: RunwayStateGroup::parse", "include/metaf.hpp: SeaSurfaceGroup::parse", "include/metaf.hpp: MinMaxTemperatureGroup::parse", "include/metaf.hpp: PrecipitationGroup::parse", "include/metaf.hpp: LayerForecastGroup::parse", "include/metaf.hpp: PressureTendencyGroup::parse", "include/metaf.hpp: CloudTypesGroup::parse", "include/metaf.hpp: LowMidHighCloudGroup::parse", "include/metaf.hpp: LightningGroup::parse", "include/metaf.hpp: VicinityGroup::parse", "include/metaf.hpp: MiscGroup::parse"]}
{"id": "C67", "title": "In the body a group takes the next word only if it is of the same kind", "statement": "In the body of a METAR or TAF a group, made of any number of words, is neither extended nor changed by the next word if that word by itself is not recognised as a group of the same kind. The exceptions are the words after which the parser waits for more: WS, WS ALL and a whole number of one or two digits. Only these can turn out to be unknown because of the next word. A group which does not take a word is not changed by it.", "quantifier": "For every sequence of words that make up a group, every next word and all report metadata", "why_tests_cant": "A group may absorb or be altered by any following text; which of the infinitely many texts do so cannot be sampled.", "anchors": ["include/metaf.hpp: Group", "include/metaf.hpp: GroupParser::parse", "include/metaf.hpp: Parser::appendToLastResultGroup", "include/metaf.hpp: WindGroup::append", "include/metaf.hpp: VisibilityGroup::append", "include/metaf.hpp: CloudGroup::append", "include/metaf.hpp: TrendGroup::append", "include/metaf.hpp: WeatherGroup::append", "include/metaf.hpp: MinMaxTemperatureGroup::append"]}
{"id": "C68", "title": "The groups of a report are those into which its words are divided from left to right", "statement": "Parsing a METAR or TAF with a complete header gives the header groups, each in its own word, followed by the groups into which the words of the body are divided: from left to right each group takes as many words as it can, words which are not recognised or turn out to be incomplete are unknown, and adjacent unknown words form one group. With remarks, RMK follows as a group of the body and everything after it is in the remarks; the body is not influenced by the remarks. The report type is that of the header and there is no error.", "quantifier": "For every report with a complete header, every body, all remarks and every sufficient group limit", "why_tests_cant": "The number of words is not bounded and the division depends on the interplay of every group with its successor.", "anchors": ["include/metaf.hpp: Parser::parse", "include/metaf.hpp: Parser::appendToLastResultGroup", "include/metaf.hpp: Parser::addGroupToResult", "include/metaf.hpp: Parser::Status::transition", "include/metaf.hpp: Parser::Status::finalTransition", "include/metaf.hpp: GroupParser::parse", "include/metaf.hpp: GroupParser::reparse"]}
{"id": "C69", "title": "The body of a report is divided into groups by its text alone", "statement": "Which words of a METAR or TAF body make up one group, and what the group then says, is given by a table of texts: keywords, trend sentences, wind with and without a sector, visibility, clouds, weather, temperature, pressure, runway state, sea surface, forecast temperatures, rainfall, icing and turbulence layers, and miscellaneous codes. It does not depend on the metadata of the report. The same words are never two different groups. Every body can be divided from left to right into groups that take as many words as they can, in exactly one way, and the result of parsing a report with a complete header has exactly these groups, whatever the remarks say.", "quantifier": "For every METAR or TAF with a complete header, every sequence of words in its body, all remarks, all metadata and every sufficient group limit", "why_tests_cant": "There are infinitely many word sequences; that no other sequence is taken as a group, and that the division is unique, are statements about all of them.", "anchors": ["include/metaf.hpp: Parser::parse", "include/metaf.hpp: Parser::appendToLastResultGroup", "include/metaf.hpp: GroupParser::parse", "include/metaf.hpp: TrendGroup::parse", "include/metaf.hpp: TrendGroup::append", "include/metaf.hpp: WindGroup::parse", "include/metaf.hpp: WindGroup::append", "include/metaf.hpp: VisibilityGroup::parse", "include/metaf.hpp: VisibilityGroup::append", "include/metaf.hpp: WeatherGroup::parse", "include/metaf.hpp: WeatherGroup::append", "include/metaf.hpp: MinMaxTemperatureGroup::append"]}
{"id": "C70", "title": "What is written is read back", "statement": "A report which is written as a header (METAR or SPECI, optionally COR, location and time; or TAF, optionally COR or AMD, location, optionally time, and period of validity) followed by any sequence of groups, each in the words that express it, is decoded into exactly these groups: one for each, in the right part of the report, with the words as raw string, and no error. It is enough that groups of the kinds which can have several words (trend, wind, weather, forecast temperature) are not followed directly by a group of the same kind. The words may be joined by single spaces, or by any blanks, and may be followed by the end sign and any other text. Remarks do not disturb the groups before them.", "quantifier": "For every header, every sequence of groups of any length, every layout, every text after the end sign, all remarks and every sufficient group limit", "why_tests_cant": "Any sequence of groups can be written; a test shows only that one sequence of groups is decoded as it should be.", "anchors": ["include/metaf.hpp: Parser::parse", "include/metaf.hpp: Parser::ReportInput", "include/metaf.hpp: Parser::appendToLastResultGroup", "include/metaf.hpp: GroupParser::parse", "include/metaf.hpp: LocationGroup::parse", "include/metaf.hpp: ReportTimeGroup::parse", "include/metaf.hpp: TrendGroup::parse"]}
{"id": "C71", "title": "Validity of the groups of a report body", "statement": "For every group written in the body of a METAR or TAF, isValid() gives an answer, and the answer is false exactly in these cases: the words are not complete (WS, WS ALL, a whole number of miles, a lone probability, a forecast temperature not marked as minimum or maximum); a trend contains a time with a day outside 1..31, an hour above 24 or a minute above 59; wind from beyond 360 degrees, gusts of zero or not above the wind speed, wind shear at height zero, or a wind speed of 999 without gusts; a sector beyond 360 degrees; a runway that does not exist (number above 36 other than 88 and 99 without designator) in wind shear, runway visual range and runway state; a variable runway visual range whose minimum is missing or above its maximum; a dew point above the temperature (minus zero counts as below zero); a reserved code of contamination; a forecast temperature at a time that cannot occur, or a minimum that is not below its maximum. All other groups are valid.", "quantifier": "For every sequence of words which is a group of a METAR or TAF body", "why_tests_cant": "There are infinitely many groups; that no other group is rejected is a statement about all of them.", "anchors": ["include/metaf.hpp: KeywordGroup::isValid", "include/metaf.hpp: TrendGroup::isValid", "include/metaf.hpp: WindGroup::isValid", "include/metaf.hpp: VisibilityGroup::isValid", "include/metaf.hpp: CloudGroup::isValid", "include/metaf.hpp: WeatherGroup::isValid", "include/metaf.hpp: TemperatureGroup::isValid", "include/metaf.hpp: RunwayStateGroup::isValid", "include/metaf.hpp: MinMaxTemperatureGroup::isValid", "include/metaf.hpp: MiscGroup::isValid", "include/metaf.hpp: Runway::isValid", "include/metaf.hpp: MetafTime::isValid", "include/metaf.hpp: Direction::isValid"]}
{"id": "C72", "title": "The language of remarks", "statement": "In the remarks of a report, a sequence of words makes up one group exactly if it is listed in a table of the remark phrases, written as texts: keywords; one-word remarks (PWINO, TSNO, SLPNO, PNO, FZRANO, PRESRR, PRESFR); words saying that something is missing, with or without MISG; wind (WND MISG, PK WND, WSHFT); visibility (VIS, VISNO, SFC VIS, TWR VIS, RVR, RVRNO); clouds (CLD MISG, CIG, CHINO, obscurations, variable amounts); beginning and end of weather events; TS/LTNG TEMPO UNAVBL; temperature to tenths; pressure; six-hourly and daily extremes; precipitation; snow increasing rapidly; pressure tendency; cloud types; low, middle and high clouds; lightning; phenomena in the vicinity; miscellaneous. The table gives the resulting group. The words determine the group, except that BLSN, BLDU, BLSA, FU and FG alone may be an obscuration or a phenomenon in the vicinity. A word continues a remark just if the words with it are in the table. Otherwise the group is complete and stays as it is (only the note that more is expected is dropped), unless the words are in a list of beginnings that are of no use alone; those are rejected.", "quantifier": "For every sequence of words, every report hour (or none) and every next word", "why_tests_cant": "The phrases form an infinite language; that nothing else is taken for a remark, and that a rejected word leaves the group unchanged, quantifies over all texts.", "anchors": ["include/metaf.hpp: GroupParser::parse", "include/metaf.hpp: WindGroup::append", "include/metaf.hpp: VisibilityGroup::append", "include/metaf.hpp: CloudGroup::append", "include/metaf.hpp: WeatherGroup::append", "include/metaf.hpp: TemperatureGroup::append", "include/metaf.hpp: PressureGroup::append", "include/metaf.hpp: MinMaxTemperatureGroup::append", "include/metaf.hpp: PrecipitationGroup::append", "include/metaf.hpp: CloudTypesGroup::append", "include/metaf.hpp: LightningGroup::append", "include/metaf.hpp: VicinityGroup::append", "include/metaf.hpp: MiscGroup::append"]}
{"id": "C73", "title": "How the remarks of a report are divided into groups", "statement": "The words after RMK in a METAR or TAF are divided into groups from left to right in exactly one way, given by their texts and the hour of the report time in the header alone. Each remark (in the sense of C72) takes as many words as it can; words that are of no use without the continuation they lack, and words that are no remark, are unknown, and adjacent unknown words are put in one group. A lone BLSN, BLDU, BLSA, FU or FG is an unknown group after an empty group for a phenomenon in the vicinity. The result of parsing the whole report is the groups of the header, those of the body, RMK and those of the remarks.", "quantifier": "For every header, every body, every sequence of remark words (without $ in a TAF) and every limit greater than the number of words", "why_tests_cant": "The division depends on which words follow, over sequences of any length; ambiguous words are tried twice and may leave an extra group. Tests can only show single sequences.", "anchors": ["include/metaf.hpp: Parser::parse", "include/metaf.hpp: Parser::appendToLastResultGroup", "include/metaf.hpp: Parser::addGroupToResult", "include/metaf.hpp: GroupParser::parse", "include/metaf.hpp: GroupParser::reparse"]}
{"id": "C74", "title": "Which groups of a whole report are valid", "statement": "For every group in the result of parsing a METAR or TAF, isValid() gives an answer, and the answer is no exactly if the text of the group is faulty. In the header only a report time or forecast period with a day, hour or minute that does not exist is faulty. In the body the faults are those of C71. In the remarks they are: a peak wind with direction above 360 degrees, speed 999 or a time that does not exist; a wind shift or weather event at such a time; a visibility range with the lower bound not below the upper; a runway which does not exist; dew point above temperature; maximum temperature not above the minimum; cloud layers of 0 or 9 oktas; middle or high clouds reported although hidden by lower ones; an unknown lightning type; and the empty group left by a lone BLSN, BLDU, BLSA, FU or FG. Unknown groups are always valid.", "quantifier": "For every header, every body, every sequence of remark words (without $ in a TAF) and every limit greater than the number of words", "why_tests_cant": "Validity depends on arbitrary numbers in the text, on single precision comparisons and on the division of the report into groups; that no other text is rejected and no faulty one accepted quantifies over all reports.", "anchors": ["include/metaf.hpp: isValid", "include/metaf.hpp: WindGroup::isValid", "include/metaf.hpp: VisibilityGroup::isValid", "include/metaf.hpp: CloudGroup::isValid", "include/metaf.hpp: WeatherGroup::isValid", "include/metaf.hpp: TemperatureGroup::isValid", "include/metaf.hpp: MinMaxTemperatureGroup::isValid", "include/metaf.hpp: CloudTypesGroup::isValid", "include/metaf.hpp: LowMidHighCloudGroup::isValid", "include/metaf.hpp: LightningGroup::isValid", "include/metaf.hpp: VicinityGroup::isValid", "include/metaf.hpp: MiscGroup::isValid", "include/metaf.hpp: ReportTimeGroup::isValid", "include/metaf.hpp: TrendGroup::isValid"]}
{"id": "C75", "title": "Every group of every result says what its text says", "statement": "Whatever text is parsed, with whatever limit on the number of groups, and whether or not an error is reported, every group of the result either is an unknown group or says exactly what its own text says in its part of the report: in the header a keyword, location, time or period; after NIL or CNL only the maintenance indicator; in the body of a METAR or TAF one of the phrases of C70, complete; in the remarks one of the phrases of C72, complete, read with the hour which the metadata of the result gives as report time. The only other group is the empty one left in the remarks before a lone BLSN, BLDU, BLSA, FU or FG. Consequently isValid() gives an answer for every group of every result, and the answer is no exactly if the text is faulty in the sense of C71 and C74.", "quantifier": "For every text and every limit; every group of the result", "why_tests_cant": "Groups are built step by step by appending, invalidating and parsing again, in a parser state which depends on the whole text before; that no sequence of words, correct or not, leaves behind a group which contradicts its own text quantifies over all texts.", "anchors": ["include/metaf.hpp: Parser::parse", "include/metaf.hpp: Parser::appendToLastResultGroup", "include/metaf.hpp: Parser::addGroupToResult", "include/metaf.hpp: GroupParser::parse", "include/metaf.hpp: GroupParser::reparse", "include/metaf.hpp: Parser::Status::transition", "include/metaf.hpp: Parser::updateMetadata", "include/metaf.hpp: isValid"]}
{"id": "C76", "title": "The type of a visibility group tells what its accessors give", "statement": "For every visibility group of every result: minVisibility() and maxVisibility() are reported only for the VARIABLE_ types, visibility() only for the others; maxVisibility() always is for the VARIABLE_ types, and so is minVisibility() except for a variable runway visual range; visibility() always is for SURFACE, TOWER, RUNWAY and SECTOR and never for VIS_MISG, RVR_MISG, RVRNO and VISNO. runway() is given only for RUNWAY, VARIABLE_RUNWAY, RVR, VARIABLE_RVR and VISNO, always for the first two, and a runway visual range without a runway has no value (at most a maximum). direction() is given only for PREVAILING_NDV, DIRECTIONAL, VARIABLE_DIRECTIONAL and VISNO, always for the first three, for PREVAILING_NDV being NDV. sectorDirections() always returns, lists no direction twice, is not empty only for SECTOR, VARIABLE_SECTOR and VISNO, always for the first two, and then there is neither a runway nor a direction; there are never both a runway and a direction. trend() other than NONE is given only for runway visual range. The distances given are those written in the text of the group: a single value is what visibility() gives, and of a range minVisibility() gives the first and maxVisibility() the second.", "quantifier": "For every text and every limit; every visibility group of the result", "why_tests_cant": "The accessors read fields which are filled in and re-labelled step by step while words are appended, in body and remarks; that no text leads to a group whose type contradicts its fields, or whose sector cannot be listed in finite time, quantifies over all texts.", "anchors": ["include/metaf.hpp: VisibilityGroup::type", "include/metaf.hpp: VisibilityGroup::visibility", "include/metaf.hpp: VisibilityGroup::minVisibility", "include/metaf.hpp: VisibilityGroup::maxVisibility", "include/metaf.hpp: VisibilityGroup::direction", "include/metaf.hpp: VisibilityGroup::runway", "include/metaf.hpp: VisibilityGroup::sectorDirections", "include/metaf.hpp: VisibilityGroup::trend", "docs/sphinx/api_visibilitygroup.rst"]}
{"id": "C77", "title": "The type of a cloud group tells what its accessors give", "statement": "For every cloud group of every result: amount() is one of NONE_CLR, NONE_SKC, NCD, NSC exactly for NO_CLOUDS, OBSCURED exactly for VERTICAL_VISIBILITY, and NOT_REPORTED for ceilings and missing data. height() is reported only for CLOUD_LAYER, CEILING and OBSCURATION, always for the last two; minHeight() and maxHeight() are both reported exactly for VARIABLE_CEILING; verticalVisibility() only for VERTICAL_VISIBILITY; all of these are in feet when reported. convectiveType() other than NONE is given only for CLOUD_LAYER. runway() and direction() are given only for CEILING, VARIABLE_CEILING and CHINO, and never both. cloudType() is given exactly for CLOUD_LAYER, CEILING, VARIABLE_CEILING and OBSCURATION; its height is the height of the group (the least height for variable ceiling) and its okta the largest which the amount allows; its type is cumulonimbus or towering cumulus as the convective type says, or for OBSCURATION one of the six named ones. The heights given are those written in the text of the group: a single height is what height() gives (verticalVisibility() after VV), and of a range minHeight() gives the first and maxHeight() the second.", "quantifier": "For every text and every limit; every cloud group of the result", "why_tests_cant": "One stored distance serves as height, least height or vertical visibility depending on the type, which changes while words are appended; that no text leads to a group whose type contradicts its fields quantifies over all texts.", "anchors": ["include/metaf.hpp: CloudGroup::type", "include/metaf.hpp: CloudGroup::amount", "include/metaf.hpp: CloudGroup::height", "include/metaf.hpp: CloudGroup::minHeight", "include/metaf.hpp: CloudGroup::maxHeight", "include/metaf.hpp: CloudGroup::verticalVisibility", "include/metaf.hpp: CloudGroup::convectiveType", "include/metaf.hpp: CloudGroup::runway", "include/metaf.hpp: CloudGroup::direction", "include/metaf.hpp: CloudGroup::cloudType", "docs/sphinx/api_cloudgroup.rst"]}
{"id": "C78", "title": "The type of a wind group tells what its accessors give", "statement": "For every wind group of every result: PEAK_WIND, WIND_SHIFT, WIND_SHIFT_FROPA and WND_MISG are exactly the types of remarks, WSCONDS is found only in forecasts, WIND_SHEAR_IN_LOWER_LAYERS only in the body of weather reports. direction() is reported only for SURFACE_WIND, SURFACE_WIND_WITH_VARIABLE_SECTOR, WIND_SHEAR and PEAK_WIND, windSpeed() for these and SURFACE_WIND_CALM, whose speed is zero without direction and gusts. A peak wind always has a direction in degrees, a speed in knots and a time. gustSpeed() is reported only for surface wind and wind shear, in the unit of the wind speed. height() is reported exactly for WIND_SHEAR, in feet. varSectorBegin() and varSectorEnd() are multiples of ten degrees for the two types with variable sector and not reported otherwise. eventTime() is given only for wind shifts and peak wind, without a day. runway() is given exactly for WIND_SHEAR_IN_LOWER_LAYERS.", "quantifier": "For every text and every limit; every group of that kind in the result", "why_tests_cant": "The accessors read fields which are filled in and re-labelled step by step while words are appended, in body and remarks; that no text at all leads to a group whose type contradicts its contents quantifies over all texts.", "anchors": ["include/metaf.hpp: WindGroup::type", "include/metaf.hpp: WindGroup::direction", "include/metaf.hpp: WindGroup::windSpeed", "include/metaf.hpp: WindGroup::gustSpeed", "include/metaf.hpp: WindGroup::height", "include/metaf.hpp: WindGroup::varSectorBegin", "include/metaf.hpp: WindGroup::varSectorEnd", "include/metaf.hpp: WindGroup::eventTime", "include/metaf.hpp: WindGroup::runway"]}
{"id": "C79", "title": "The type of a trend group tells what its accessors give", "statement": "For every trend group of every result: it is in a body, or it is a TIME_SPAN in the header; NOSIG, UNTIL and AT are found only in weather reports, PROB and probabilities only in forecasts. NOSIG has no contents; PROB has a probability and no time; FROM, UNTIL and AT have no probability and just the one time they name; TIME_SPAN has both a beginning and an end; BECMG never has a probability. timeAt() is never given together with timeFrom() or timeUntil(). Times have a day except in weather reports.", "quantifier": "For every text and every limit; every group of that kind in the result", "why_tests_cant": "The accessors read fields which are filled in and re-labelled step by step while words are appended, in body and remarks; that no text at all leads to a group whose type contradicts its contents quantifies over all texts.", "anchors": ["include/metaf.hpp: TrendGroup::type", "include/metaf.hpp: TrendGroup::probability", "include/metaf.hpp: TrendGroup::timeFrom", "include/metaf.hpp: TrendGroup::timeUntil", "include/metaf.hpp: TrendGroup::timeAt"]}
{"id": "C80", "title": "The type of a weather group tells what its accessors give", "statement": "For every weather group of every result: EVENT, PWINO, WX_MISG, TSNO and TS_LTNG_TEMPO_UNAVBL are exactly the types of remarks. weatherPhenomena() is not empty exactly for CURRENT, RECENT and EVENT and has at most twenty elements. The qualifier of the phenomena is RECENT exactly in groups of type RECENT, and they have an event and a time exactly in groups of type EVENT; the time has no day.", "quantifier": "For every text and every limit; every group of that kind in the result", "why_tests_cant": "The accessors read fields which are filled in and re-labelled step by step while words are appended, in body and remarks; that no text at all leads to a group whose type contradicts its contents quantifies over all texts.", "anchors": ["include/metaf.hpp: WeatherGroup::type", "include/metaf.hpp: WeatherGroup::weatherPhenomena", "include/metaf.hpp: WeatherPhenomena::qualifier", "include/metaf.hpp: WeatherPhenomena::event", "include/metaf.hpp: WeatherPhenomena::time"]}
{"id": "C81", "title": "The types of temperature, pressure, sea surface and minimum/maximum groups tell what their accessors give", "statement": "For every such group of every result. Temperature: found in weather reports and remarks; the _MISG types are found only in remarks and give nothing; temperature and dew point are in tenths of a degree exactly in remarks; in remarks there is no dew point without temperature; relativeHumidity() is given exactly if both are reported. Pressure: FORECAST_LOWEST_QNH is exactly the type of forecasts, OBSERVED_QFE, OBSERVED_SLP, SLPNO and PRES_MISG are found only in remarks; the last two give no pressure; the others except OBSERVED_QNH always do, and the unit is fixed by the type (QNH in hectopascal or inches). The group is always valid. Sea surface: only in weather reports; temperature from 0 to 99 degrees, never freezing; waves below a hundred metres; a state of the surface has one of ten heights. Minimum/maximum: FORECAST is exactly the type of forecasts, the others of remarks; times are given exactly with forecast temperatures and have a day; a forecast has at least one temperature, OBSERVED_24_HOURLY both; observed temperatures are in tenths, forecast ones in degrees.", "quantifier": "For every text and every limit; every group of that kind in the result", "why_tests_cant": "The accessors read fields which are filled in and re-labelled step by step while words are appended, in body and remarks; that no text at all leads to a group whose type contradicts its contents quantifies over all texts.", "anchors": ["include/metaf.hpp: TemperatureGroup::airTemperature", "include/metaf.hpp: TemperatureGroup::dewPoint", "include/metaf.hpp: TemperatureGroup::relativeHumidity", "include/metaf.hpp: PressureGroup::type", "include/metaf.hpp: PressureGroup::pressure", "include/metaf.hpp: SeaSurfaceGroup::surfaceTemperature", "include/metaf.hpp: SeaSurfaceGroup::waves", "include/metaf.hpp: MinMaxTemperatureGroup::type", "include/metaf.hpp: MinMaxTemperatureGroup::minimum", "include/metaf.hpp: MinMaxTemperatureGroup::maximum", "include/metaf.hpp: MinMaxTemperatureGroup::minimumTime", "include/metaf.hpp: MinMaxTemperatureGroup::maximumTime"]}
{"id": "C82", "title": "The types of precipitation, runway state, layer forecast and pressure tendency groups tell what their accessors give", "statement": "For every such group of every result. Precipitation: RAINFALL_9AM_10MIN is found in weather reports, all other types in remarks; PNO, FZRANO, ICG_MISG and PCPN_MISG give no amount; recent() is reported only for SNOW_INCREASING_RAPIDLY (exactly if the total is) and RAINFALL_9AM_10MIN; the unit is millimetres exactly for rainfall and for accumulation since the last report, else inches; the group is always valid. Runway state: only in weather reports; AERODROME_SNOCLO is said of runway 88; deposits, extent and depth are given only for RUNWAY_STATE (the first two also if the runway is not operational), depth in millimetres; a closed runway has no friction; unreliable friction has no coefficient. Layer forecast: only in forecasts; both heights are given in feet, the top not below and at most 9000 ft above the base, or neither. Pressure tendency: only in remarks; no difference for rapid changes; the unit is hectopascal.", "quantifier": "For every text and every limit; every group of that kind in the result", "why_tests_cant": "The accessors read fields which are filled in and re-labelled step by step while words are appended, in body and remarks; that no text at all leads to a group whose type contradicts its contents quantifies over all texts.", "anchors": ["include/metaf.hpp: PrecipitationGroup::type", "include/metaf.hpp: PrecipitationGroup::total", "include/metaf.hpp: PrecipitationGroup::recent", "include/metaf.hpp: RunwayStateGroup::type", "include/metaf.hpp: RunwayStateGroup::runway", "include/metaf.hpp: RunwayStateGroup::deposits", "include/metaf.hpp: RunwayStateGroup::contaminationExtent", "include/metaf.hpp: RunwayStateGroup::depositDepth", "include/metaf.hpp: RunwayStateGroup::surfaceFriction", "include/metaf.hpp: LayerForecastGroup::baseHeight", "include/metaf.hpp: LayerForecastGroup::topHeight", "include/metaf.hpp: PressureTendencyGroup::type", "include/metaf.hpp: PressureTendencyGroup::difference"]}
{"id": "C83", "title": "The types of cloud type, lightning, vicinity and miscellaneous groups tell what their accessors give", "statement": "For every such group of every result. Cloud types, lightning, vicinity groups and low/middle/high cloud codes are found only in remarks. Cloud types: one to eight, the type always known, all with a height in feet or none, less than ten oktas. Lightning: distance() has no value, at most DISTANT or VICINITY; directions() always returns and lists no direction twice; the group is complete. Vicinity: distance() is in metres or DISTANT or VICINITY; directions() always returns and lists no direction twice; a direction of movement is given only with directions; a valid group has a distance or a direction. Miscellaneous: sunshine, density altitude, hailstone size and FROIN are found only in remarks, corrections only in weather reports, issuer identifications exactly in forecasts; data() is given exactly for the types other than colour codes and FROIN, except that density altitude may be missing; it is never negative; a hailstone size is a positive number of quarters of an inch below ten inches.", "quantifier": "For every text and every limit; every group of that kind in the result", "why_tests_cant": "The accessors read fields which are filled in and re-labelled step by step while words are appended, in body and remarks; that no text at all leads to a group whose type contradicts its contents quantifies over all texts.", "anchors": ["include/metaf.hpp: CloudTypesGroup::cloudTypes", "include/metaf.hpp: CloudType", "include/metaf.hpp: LightningGroup::distance", "include/metaf.hpp: LightningGroup::directions", "include/metaf.hpp: VicinityGroup::distance", "include/metaf.hpp: VicinityGroup::directions", "include/metaf.hpp: VicinityGroup::movingDirection", "include/metaf.hpp: MiscGroup::type", "include/metaf.hpp: MiscGroup::data", "include/metaf.hpp: LowMidHighCloudGroup"]}
{"id": "C84", "title": "The whole result of parsing is determined by the words of the text", "statement": "For every text whatsoever and every limit, parse() returns exactly the entries (group, part and text of each), the report type and the error which the words of the text mean under a written-out specification: header words up to the first which cannot follow, with the error it causes; NIL and CNL and what may not follow them; the body and the remarks divided into the longest phrases of C70 and C72; unfinished phrases, unknown words merged; the maintenance indicator in a TAF; the limit, which ends reading with the word that reaches it. Every list of words has exactly one outcome for every limit.", "quantifier": "For every text, every list of words it consists of and every limit (including 0)", "why_tests_cant": "A complete input-output description of the parser: tests compare single texts with expected results, the claim leaves no text open, including those with errors anywhere and with any limit.", "anchors": ["include/metaf.hpp: Parser::parse", "include/metaf.hpp: Parser::getSyntaxGroup", "include/metaf.hpp: Parser::appendToLastResultGroup", "include/metaf.hpp: Parser::addGroupToResult", "include/metaf.hpp: Parser::Status"]}
{"id": "C85", "title": "The metadata of every result is what its groups say", "statement": "For every text and every limit each of the nineteen fields of the metadata is a fixed function of the groups of the result, its type and its error: the last location and time, the flags of the keywords present, the number of the last correction mark, the first period. Together with C84 the complete ParseResult is determined by the words of the text.", "quantifier": "For every text and every limit; all fields of ReportMetadata at once", "why_tests_cant": "The metadata are gathered step by step while groups are parsed, also before errors and reparsing; that no sequence of groups makes them differ from the groups finally returned quantifies over all texts.", "anchors": ["include/metaf.hpp: Parser::updateMetadata", "include/metaf.hpp: ReportMetadata", "include/metaf.hpp: Parser::parse"]}
{"id": "C86", "title": "Exactly which texts are parsed without error", "statement": "A text is parsed without error as a report of a given type if and only if its words are: an incomplete header up to location or time and NIL; a complete header and NIL; the header of a TAF and CNL; a complete header and a non-empty body without NIL, CNL and RMK (and $ in a TAF); the same with a possibly empty body, RMK and any remarks (without $ in a TAF); or a location, a time and a body or remarks without type, the first word of which is no period (a METAR) - and fewer words than the limit are counted, where the last form counts one more.", "quantifier": "For every text and every limit, in both directions", "why_tests_cant": "Acceptance and rejection of all texts: no finite set of texts shows that nothing else is accepted and that nothing of these forms is rejected.", "anchors": ["include/metaf.hpp: Parser::parse", "include/metaf.hpp: Parser::Status::transition", "include/metaf.hpp: Parser::Status::finalTransition", "include/metaf.hpp: ReportError"]}
{"id": "C87", "title": "The summary of a METAR report says what the report says before its first trend", "statement": "getCurrentWeather (examples/summary.cpp) given a text which parses without error as a METAR returns, whatever the TAF text and the date: the direction, speed and gusts of the last surface wind group that has them, the prevailing visibility, the cover of the sky by the rule of the code, storm clouds exactly if a layer has cumulonimbus, the codes of the current weather groups in order, temperature, humidity and sea level pressure of the last groups that have them, and the temperature felt computed with the wind written before it. Groups from the first trend on have no effect.", "quantifier": "For every METAR text accepted, every TAF text, every date and both systems of units", "why_tests_cant": "The loop keeps the values of earlier groups while it reads the later ones; that no order, repetition or absence of groups breaks the rule quantifies over all reports.", "anchors": ["examples/summary.cpp: getCurrentWeather", "examples/summary.cpp: currentWeatherFromMetar", "examples/summary.cpp: cloudFromCloudGroupAmount", "examples/summary.cpp: CurrentWeather"]}
{"id": "C88", "title": "The summary of a TAF report says what the report says before its first change", "statement": "Without a METAR text that parses, wind, visibility, sky and weather are those of the groups of the TAF before its second trend (its first is the period of validity), and there is no temperature, humidity and pressure. The highest and lowest temperature always are those of the last group of the TAF on them, and missing without a TAF.", "quantifier": "For every pair of texts, every date and both systems of units", "why_tests_cant": "A change group in a TAF must never replace the prevailing conditions: the claim is on all sequences of groups.", "anchors": ["examples/summary.cpp: getCurrentWeather", "examples/summary.cpp: currentWeatherFromTaf", "examples/summary.cpp: temperatureForecastFromTaf"]}
{"id": "C89", "title": "The sky of the summary is the greatest cover reported", "statement": "The cloud member of the summary is the greatest amount of cloud of the layers reported before the first trend (METAR) or first change (TAF).", "quantifier": "For every accepted METAR or TAF text", "why_tests_cant": "The member is updated layer by layer; only a statement on all sequences of layers shows that a later thinner layer never replaces a thicker one.", "anchors": ["examples/summary.cpp: getCurrentWeather", "examples/summary.cpp: cloudFromCloudGroupAmount"]}
{"id": "C90", "title": "Weather is summarised by the code of each phenomenon", "statement": "For every combination of qualifier, descriptor and list of kinds of weather, the list of codes is that of a written-out table: one code for each kind in order, preceded by the code of a thunderstorm, with recent and vicinity treated as the table says. The codes 39 to 41 (ice pellets) are never given; apart from ice pellets different entries have different codes.", "quantifier": "For all qualifiers, descriptors and all lists of kinds of weather", "why_tests_cant": "The nested switches have hundreds of branches and the lists are unbounded.", "anchors": ["examples/summary.cpp: weatherFromWeatherPhenomena", "examples/summary.cpp: phenomenaFromWeatherGroup", "examples/summary.cpp: phenomenaInVicinity"]}
{"id": "C91", "title": "Which report the summary is made of", "statement": "A METAR text accepted takes precedence: the TAF then has an effect on the highest and lowest temperature only. A text refused has no effect at all, whatever it is. Without an accepted text the summary is empty. The METAR has no effect on the highest and lowest temperature. Two METAR texts with the same groups before the first trend have the same summary but for the time.", "quantifier": "For every two texts, every date and both systems of units", "why_tests_cant": "Claims of non-interference compare the results of all pairs of inputs.", "anchors": ["examples/summary.cpp: getCurrentWeather", "examples/summary.cpp: parseReport"]}
{"id": "C92", "title": "The summary is made of every input without undefined behaviour", "statement": "getCurrentWeather returns a summary for all texts, all dates (also negative or non-existent ones) and both systems of units: no conversion from float to int is out of range, no vector is accessed out of range, no optional without value is read.", "quantifier": "For every two texts, every three integers as date, both systems of units", "why_tests_cant": "Conversion of an out of range float is undefined behaviour; tests cannot show that no text produces such a value.", "anchors": ["examples/summary.cpp: getCurrentWeather", "examples/summary.cpp: currentWeatherFromMetar", "examples/summary.cpp: currentWeatherFromTaf", "examples/summary.cpp: temperatureForecastFromTaf", "examples/summary.cpp: reportReleaseTime"]}
{"id": "C93", "title": "The choice of units changes the numbers only", "statement": "The summaries of the same texts in metric and imperial units agree in direction, sky, weather, humidity, storm clouds and time of release; a speed, visibility, temperature or pressure is missing in one exactly if it is in the other.", "quantifier": "For every two texts and every date", "why_tests_cant": "A relation between two runs for all inputs.", "anchors": ["examples/summary.cpp: getCurrentWeather", "examples/summary.cpp: speedUnit", "examples/summary.cpp: visibilityUnit", "examples/summary.cpp: temperatureUnit", "examples/summary.cpp: pressureUnit"]}
{"id": "C94", "title": "The time of release is the latest one matching the report", "statement": "The hour and minute of the summary are those of the report it is made of. Year, month and day are the latest date with the day written which is not after the date given. Without a time all five members are missing.", "quantifier": "For all texts and all dates with year from 1 and month from 1 to 12", "why_tests_cant": "All combinations of day written and current date, including the first days of a month and year.", "anchors": ["examples/summary.cpp: reportReleaseTime", "examples/summary.cpp: getCurrentWeather", "include/metaf.hpp: MetafTime::dateBeforeRef"]}
{"id": "C95", "title": "A missing value is told from every value", "statement": "A member of the summary is -250 exactly if no group has a value for it: no value computed is -250. This holds for direction, speeds, visibility, temperature, humidity, pressure and highest and lowest temperature.", "quantifier": "For all accepted texts and both systems of units", "why_tests_cant": "The mark for a missing value is a number; that no report gives this number as value is a statement on all reports.", "anchors": ["examples/summary.cpp: CurrentWeather::valueNotSpecified", "examples/summary.cpp: getCurrentWeather"]}
{"id": "C96", "title": "Numbers of the summary are the whole part of the true value", "statement": "Wind and gust speed in the unit chosen, temperature of the air, and highest and lowest temperature are exactly the whole part of the true value of what is written, for all units of the report: the rounding of float arithmetic never moves a value past a whole number. Visibility in metres is given as written in metric units, and as the whole part of the true number of miles in imperial units; visibility in miles as whole miles.", "quantifier": "For all accepted texts; speeds up to 999 in all units, temperatures to tenths of a degree, visibility to 10000 metres or 200 miles", "why_tests_cant": "A single speed for which float arithmetic gives 22.99999 instead of 23 would break it; tests would have to try all values in all units.", "anchors": ["examples/summary.cpp: getCurrentWeather", "include/metaf.hpp: Speed::toUnit", "include/metaf.hpp: Temperature::toUnit", "include/metaf.hpp: Distance::toUnit"]}
{"id": "C97", "title": "Pressure of the summary is the pressure written", "statement": "A pressure in hectopascals is given as written in metric units, and a pressure in hundredths of an inch as written in imperial units.", "quantifier": "For all pressures from 0 to 9999", "why_tests_cant": "All values must survive the conversion to float and back.", "anchors": ["examples/summary.cpp: getCurrentWeather", "include/metaf.hpp: Pressure::fromString"]}
{"id": "C98", "title": "Every text is explained", "statement": "explain (examples/explain.cpp) returns a page for every text: no empty optional is read, no float outside the range of int is converted, no enumeration of directions runs forever.", "quantifier": "For every text and every state of the static buffer", "why_tests_cant": "A single text for which an optional is empty makes the program throw; tests cannot show that there is none.", "anchors": ["examples/explain.cpp: explain", "examples/explain.cpp: VisitorExplain"]}
{"id": "C99", "title": "The page has one row for each group, in order", "statement": "The page returned by explain consists of the head of the table, a row with the detected type, a row with the error exactly if there is one, and one row for each group of the result of Parser::parse in order. A row has the raw text of the group and the text of the visitor with <br> for each line break. The page does not depend on earlier calls or on freeMemory.", "quantifier": "For every text that is explained, and every state of the static buffer", "why_tests_cant": "The loop that replaces line breaks edits the string while it searches it; that it ends and replaces all of them quantifies over all texts. Independence of history compares all pairs of states.", "anchors": ["examples/explain.cpp: explain", "examples/explain.cpp: freeMemory"]}
{"id": "C100", "title": "A group which is not valid is marked, and only such a group", "statement": "The text of the visitor for a group begins with the line `Data in this group may be errorneous, incomplete or inconsistent` if and only if isValid() of the group is false.", "quantifier": "For every group of each of the 22 kinds with any contents", "why_tests_cant": "Contents of groups are unbounded, and no other text may begin with the warning.", "anchors": ["examples/explain.cpp: VisitorExplain::groupNotValidMessage", "examples/explain.cpp: VisitorExplain"]}
{"id": "C101", "title": "The report cannot add markup to the page", "statement": "All tags in the page are those of the table and of line breaks.", "quantifier": "For every text", "why_tests_cant": "Any character of the text may be shown in some way in some group.", "anchors": ["examples/explain.cpp: explain", "examples/explain.cpp: VisitorExplain::visitUnknownGroup"]}
{"id": "C102", "title": "The page determines the result of the parser", "statement": "If explain returns the same page for two texts without the character <, then Parser::parse gives the same result for both: same groups with the same contents, same metadata, same error.", "quantifier": "For every two texts without the character <, and any two states of the buffer", "why_tests_cant": "A claim on all pairs of texts.", "anchors": ["examples/explain.cpp: explain"]}
{"id": "C103", "title": "Quantities are shown with the right values in all units", "statement": "The text explain shows for a speed has the reported whole number with its unit and then in brackets the speed in each other unit. The text of a temperature has degrees Celsius and Fahrenheit; that of a pressure hPa, inHg and mmHg; that of an amount of precipitation mm and inches; that of a wave height metres and feet; that of a distance whole metres, miles with a fraction, and whole feet, own unit first. Each decimal number is a numeral with the fixed number of decimals and differs from the exact conversion of the value by less than one unit of the last decimal (numbers are cut, not rounded) plus the error of the binary numbers; the unit after it is the one its value is given in.", "quantifier": "For every speed, temperature, pressure, precipitation, wave height and every distance up to 200 miles", "why_tests_cant": "The digits come from repeated float multiplication and remainders; a wrong digit may appear for any of the values.", "anchors": ["examples/explain.cpp: VisitorExplain::explainSpeed", "examples/explain.cpp: VisitorExplain::explainTemperature", "examples/explain.cpp: VisitorExplain::explainPressure", "examples/explain.cpp: VisitorExplain::explainPrecipitation", "examples/explain.cpp: VisitorExplain::explainWaveHeight", "examples/explain.cpp: VisitorExplain::explainDistance", "examples/explain.cpp: VisitorExplain::roundTo"]}
{"id": "C104", "title": "The number of the report is shown exactly", "statement": "explain shows each reported number unchanged in the unit of the report: whole degrees and tenths of degrees, hectopascals, hundredths of inches, friction, wave height, precipitation, minutes of sunshine, sizes of hailstones, density altitude, whole metres and feet, and the fractions of miles in use.", "quantifier": "For every number that can be written in the report", "why_tests_cant": "Whether a binary number cut after some decimals gives back the decimal number it came from depends on each value.", "anchors": ["examples/explain.cpp: VisitorExplain::explainTemperature", "examples/explain.cpp: VisitorExplain::explainPressure", "examples/explain.cpp: VisitorExplain::explainPrecipitation", "examples/explain.cpp: VisitorExplain::explainWaveHeight", "examples/explain.cpp: VisitorExplain::explainDistance", "examples/explain.cpp: VisitorExplain::explainSurfaceFriction", "examples/explain.cpp: VisitorExplain::roundTo", "examples/explain.cpp: VisitorExplain::visitMiscGroup"]}
{"id": "C105", "title": "Different values are explained with different words", "statement": "The words explain uses for the values of one enumeration (types of reports, errors, keywords, units, cloud amounts and types, layers of clouds, phenomena, probabilities, deposits, extents, braking action, pressure trends, phenomena in vicinity, frequencies of lightning, and so on) are all different. Texts of two runways, two times, and of two keywords, stations, times of release or groups of cloud layers are the same only if the values are.", "quantifier": "For all pairs of values", "why_tests_cant": "A claim on all pairs of values; names of stations, numbers of runways and times are unbounded.", "anchors": ["examples/explain.cpp: VisitorExplain::explainRunway", "examples/explain.cpp: VisitorExplain::explainMetafTime", "examples/explain.cpp: VisitorExplain::visitKeywordGroup", "examples/explain.cpp: VisitorExplain::visitLocationGroup", "examples/explain.cpp: VisitorExplain::visitReportTimeGroup", "examples/explain.cpp: VisitorExplain::visitLowMidHighCloudGroup"]}
{"id": "C106", "title": "Which lines the explanation of each group has", "statement": "The text explain writes on a group consists of a fixed list of lines in a fixed order: the warning if the group is not valid, then a title for the type of the group, then one line for each value the type offers, and a line for an optional value if and only if it is reported (gusts, times of trends, probability, convective type, humidity, events of wind shift, extremes of temperature, depth and extent of deposits, directions, movement, ...). Nothing else is written, and the page shows these lines separated by <br>.", "quantifier": "For every group of every kind and type, with any values; for every page", "why_tests_cant": "Each of the 22 kinds of groups has up to 20 types with optional values; all combinations of reported and missing values give different texts.", "anchors": ["examples/explain.cpp: VisitorExplain::visitKeywordGroup", "examples/explain.cpp: VisitorExplain::visitTrendGroup", "examples/explain.cpp: VisitorExplain::visitWindGroup", "examples/explain.cpp: VisitorExplain::visitVisibilityGroup", "examples/explain.cpp: VisitorExplain::visitCloudGroup", "examples/explain.cpp: VisitorExplain::visitWeatherGroup", "examples/explain.cpp: VisitorExplain::visitTemperatureGroup", "examples/explain.cpp: VisitorExplain::visitPressureGroup", "examples/explain.cpp: VisitorExplain::visitRunwayStateGroup", "examples/explain.cpp: VisitorExplain::visitSeaSurfaceGroup", "examples/explain.cpp: VisitorExplain::visitMinMaxTemperatureGroup", "examples/explain.cpp: VisitorExplain::visitPrecipitationGroup", "examples/explain.cpp: VisitorExplain::visitLayerForecastGroup", "examples/explain.cpp: VisitorExplain::visitPressureTendencyGroup", "examples/explain.cpp: VisitorExplain::visitCloudTypesGroup", "examples/explain.cpp: VisitorExplain::visitLowMidHighCloudGroup", "examples/explain.cpp: VisitorExplain::visitLightningGroup", "examples/explain.cpp: VisitorExplain::visitVicinityGroup", "examples/explain.cpp: VisitorExplain::visitMiscGroup", "examples/explain.cpp: VisitorExplain::visitUnknownGroup"]}
{"id": "C107", "title": "Every code is explained in the words for it", "statement": "For every code in the tables of the report formats - header words, trends, states of the sky, cloud amounts, compass directions, designators of runways, all single weather phenomena with all intensities and descriptors, deposits, extents, special depths and friction codes of runway states, states of the sea, colour codes, icing and turbulence, reports of missing sensors and data, low, middle and high clouds, pressure tendencies, lightning, phenomena in the vicinity, obscurations, traces of precipitation - explain writes exactly the lines which mean this code, whatever else the report says.", "quantifier": "For every text, every limit, every group of the result whose text is a code of the vocabulary (about 1300 codes), at every hour of the report", "why_tests_cant": "Tests look at single reports; that a code is read as the same group and explained by the same words in every report, next to any other groups, is a statement about all texts.", "anchors": ["examples/explain.cpp: VisitorExplain::cloudAmountToString", "examples/explain.cpp: VisitorExplain::specialWeatherPhenomenaToString", "examples/explain.cpp: VisitorExplain::runwayStateDepositsToString", "examples/explain.cpp: VisitorExplain::stateOfSeaSurfaceToString", "examples/explain.cpp: VisitorExplain::visitMiscGroup", "examples/explain.cpp: VisitorExplain::cloudLowLayerToString", "examples/explain.cpp: VisitorExplain::pressureTendencyTypeToString", "examples/explain.cpp: VisitorExplain::visitVicinityGroup"]}
{"id": "C108", "title": "Weather is explained in words for every combination of codes", "statement": "Weather in the body of a report is explained by a title (weather phenomena or recent weather) and one line for each code in the order of the report. The line has the expression for the code if it has one (shallow fog, tornado, diamond dust, ...), otherwise the intensity, the descriptor, the names of all phenomena in their order with `mix` for rain next to snow, showers or thunderstorm, and the vicinity. No warning is shown. A remark on beginning and ending of weather is explained by a line for each event with the phenomenon, whether it began or ended, and the time, the hour being that of the report if only minutes are written; the warning is shown exactly if a time of day does not exist.", "quantifier": "For every text, every limit, every group of the result, every sequence of up to 20 allowed weather codes (all combinations of one to three kinds of precipitation), every sequence of events of any length", "why_tests_cant": "There are thousands of weather codes and arbitrarily many sequences of them; tests show a few.", "anchors": ["examples/explain.cpp: VisitorExplain::visitWeatherGroup", "examples/explain.cpp: VisitorExplain::explainWeatherPhenomena", "examples/explain.cpp: VisitorExplain::specialWeatherPhenomenaToString", "examples/explain.cpp: WeatherGroup", "examples/explain.cpp: WeatherPhenomena"]}
{"id": "C109", "title": "Every value of every report is shown right in the explanation", "statement": "In the explanation of any report every time, runway, direction, speed, distance, temperature, pressure, amount of precipitation, surface friction and state of the sea is shown right: a time as day, two digits of the hour and two of the minute; a runway by number and side; a direction in degrees with the point of the compass within 22.5 (or 45) degrees; speeds, distances, pressures and amounts as reported and converted to the other units within the accuracy of the display; temperatures also in Fahrenheit, minus zero as slightly less than zero. What is not reported is shown as not reported. The explanation begins with the warning about erroneous data exactly if the text of the group says something impossible or is incomplete.", "quantifier": "For every text and every limit, every group of the result and every value of it", "why_tests_cant": "There are millions of values in dozens of kinds of groups, converted with rounding; a test shows single values of single groups.", "anchors": ["examples/explain.cpp: VisitorExplain::explainMetafTime", "examples/explain.cpp: VisitorExplain::explainRunway", "examples/explain.cpp: VisitorExplain::explainDirection", "examples/explain.cpp: VisitorExplain::explainSpeed", "examples/explain.cpp: VisitorExplain::explainDistance", "examples/explain.cpp: VisitorExplain::explainTemperature", "examples/explain.cpp: VisitorExplain::explainPressure", "examples/explain.cpp: VisitorExplain::explainPrecipitation", "examples/explain.cpp: VisitorExplain::explainSurfaceFriction", "examples/explain.cpp: VisitorExplain::explainWaveHeight", "examples/explain.cpp: VisitorExplain::groupNotValidMessage"]}
{"id": "C110", "title": "The limit on the number of groups only cuts the result short", "statement": "If a result is not cut short by the limit on the number of groups, then every greater limit gives the same result. Any two limits greater than the number of groups in the text plus one give the same result. If a result is cut short, its entries are the first entries of the result with any greater limit: an entry followed by two entries with text is the same, an entry followed by one is the same or, if it is a group which was not recognised, has more text.", "quantifier": "For every text and every two limits", "why_tests_cant": "The limit and the text can be anything; a test compares two limits for one text.", "anchors": ["include/metaf.hpp: Parser::parse", "include/metaf.hpp: ReportError::REPORT_TOO_LARGE"]}
{"id": "C111", "title": "Remarks do not change what is before them", "statement": "Take any report without RMK that is parsed without error and is neither NIL nor cancelled. With RMK and any further text appended, the result has the same groups, followed by the group RMK and groups of the remarks. The type is the same. There is no error, except that `$` in the remarks of a TAF is an error. In the metadata everything else is the same but the marks for AO1, AO1A, AO2, AO2A, NOSPECI and maintenance: times, location, correction number, the flags for SPECI, AUTO, AMD, COR, NIL and CNL cannot be changed by remarks.", "quantifier": "For every report parsed without error and every text of remarks", "why_tests_cant": "Remarks are free text; tests append some remarks to some reports.", "anchors": ["include/metaf.hpp: Parser::parse", "include/metaf.hpp: ReportMetadata"]}
{"id": "C112", "title": "What remarks can change in the summary of a METAR", "statement": "Appending RMK and any remarks to a METAR report changes nothing in the summary of the current weather but the cover of the sky, the temperature, the perceived temperature, the humidity and the pressure. Wind, gusts, visibility, storm clouds, weather, highest and lowest temperature and time of the report are the same. If the report has a trend before the remarks, nothing changes at all. All five members can change.", "quantifier": "For every METAR report parsed without error, every text of remarks, every TAF report, every date and both systems of units", "why_tests_cant": "Remarks are free text and dozens of kinds of remarks are parsed to the same kinds of groups as the body; a test tries some of them.", "anchors": ["examples/summary.cpp: getCurrentWeather", "examples/summary.cpp: currentWeatherFromMetar", "examples/summary.cpp: reportReleaseTime"]}
{"id": "C113", "title": "What the program of the tutorial prints", "statement": "The program of the tutorial prints something for every report. If the report has no line break, it prints the report, the text for the error, the text for the type, the number of groups, and then one line for each group of the result in their order, with the name of its kind, a colon and its text. If the report is parsed without error, the words after these colons are the words of the report: nothing is lost, repeated or moved. Different errors, different types and different kinds of groups have different texts.", "quantifier": "For every text of a report", "why_tests_cant": "Reports are free text; the tutorial shows one report only and has no tests.", "anchors": ["examples/tutorial.cpp: errorMessage", "examples/tutorial.cpp: reportTypeMessage", "examples/tutorial.cpp: MyVisitor", "examples/tutorial.cpp: main"]}
{"id": "C114", "title": "Inserting a group or an unknown word", "statement": "Take a report which is parsed without error and is neither missing nor cancelled, and a place directly after its complete header or after a group of its body which was recognised. If the words of a group are inserted there, and they do not continue the group before nor are continued by the next word, the result has this group at that place, all other groups are the same, the type is the same and there is no error. If a word which is no group is inserted, and the next group is not unknown, the result has one unknown group at that place, all other groups and the whole metadata are the same. The same holds for a word inserted in the remarks, if it is no remark and does not belong to the remark before it.", "quantifier": "For every report, place, group and word which meet the conditions, and every sufficient group limit", "why_tests_cant": "Reports, places and inserted words are unlimited, and what is read of a word depends on the words around it.", "anchors": ["include/metaf.hpp: Parser::parse", "include/metaf.hpp: Parser::appendToLastResultGroup", "include/metaf.hpp: Parser::addGroupToResult", "include/metaf.hpp: Parser::parseGroup"]}
{"id": "C115", "title": "Arguments of the performance check", "statement": "What the performance check prints and writes depends on the command line only by the options which occur in it and by the input file, which is the last argument unless it is an option. The order of the options, their repetition, arguments which mean nothing and the option --nostats have no effect.", "quantifier": "For every pair of command lines with the same options and the same input file, all files, test data and measured times", "why_tests_cant": "Command lines, files and reports are unlimited; a test runs single ones.", "anchors": ["performance/main.cpp: setCommandLineParameters", "performance/main.cpp: main"]}
{"id": "C116", "title": "The performance check counts what it processes", "statement": "The performance check processes every report given: each of the internal data 300 times, each line of the input file once. It prints the number of reports and groups processed after each batch and at the end, the time measured and the rate.", "quantifier": "For every command line, file, test data and clock for which the program ends", "why_tests_cant": "Command lines, files and reports are unlimited; a test runs single ones.", "anchors": ["performance/main.cpp: ParserPerformanceTester::test", "performance/main.cpp: BatchFromFile", "performance/main.cpp: BatchFromTestdataReal", "performance/main.cpp: PerformanceStats::print", "performance/main.cpp: main"]}
{"id": "C117", "title": "Files of the performance check", "statement": "After a run with an input file there is for each kind of groups and each part of the report a file with the texts of all such groups of the reports processed, once for each occurrence and in their order, and a file with the reports which have an error. No other file is changed; without input file none is.", "quantifier": "For every input file, test data, command line and clock for which the program ends", "why_tests_cant": "Command lines, files and reports are unlimited; a test runs single ones.", "anchors": ["performance/main.cpp: Archiver::addGroup", "performance/main.cpp: Archiver::addErrorReport", "performance/main.cpp: ArchiveToFile::add", "performance/main.cpp: main"]}
{"id": "C118", "title": "List of groups not recognised", "statement": "The performance check lists the text of each group not recognised once, with the number of its occurrences in the reports (the internal data counted once), the most frequent first.", "quantifier": "For every list of reports", "why_tests_cant": "Command lines, files and reports are unlimited; a test runs single ones.", "anchors": ["performance/main.cpp: FrequencyStats", "performance/main.cpp: Archiver::getBatchGroup", "performance/main.cpp: main"]}
{"id": "C119", "title": "List of reports with errors", "statement": "The performance check tells the number of reports with an error and lists each of them behind the name of its error, in their order.", "quantifier": "For every list of reports", "why_tests_cant": "Command lines, files and reports are unlimited; a test runs single ones.", "anchors": ["performance/main.cpp: Archiver::printErrorReports", "performance/main.cpp: reportErrorName", "performance/main.cpp: main"]}
{"id": "C120", "title": "When the performance check ends", "statement": "The performance check ends without undefined behaviour for every input. It never fails because of the library, an index or an endless loop.", "quantifier": "For every command line, all files, test data and clocks", "why_tests_cant": "Command lines, files and reports are unlimited; a test runs single ones.", "anchors": ["performance/main.cpp: main", "performance/main.cpp: PerformanceStats::print", "performance/main.cpp: ArchiveToFile::add", "performance/main.cpp: BatchFromFile"]}
{"id": "C121", "title": "Groups measured by kind", "statement": "For each kind of groups the performance check gives the number of groups of this kind in the reports and the time to parse them.", "quantifier": "For every list of reports, command line and clock", "why_tests_cant": "Command lines, files and reports are unlimited; a test runs single ones.", "anchors": ["performance/main.cpp: GroupPerformanceTester::test", "performance/main.cpp: GroupPerformanceTester::testGroupReportPart", "performance/main.cpp: PerformanceStats::print"]}
{"id": "C122", "title": "Export and help of the performance check", "statement": "With --expint the lines of the file written are the reports of the internal data, each once for each occurrence, and used as input file it gives a test of these reports. With --help the text printed names every option which has an effect.", "quantifier": "For all test data without line ends, files and command lines", "why_tests_cant": "Command lines, files and reports are unlimited; a test runs single ones.", "anchors": ["performance/main.cpp: main", "performance/main.cpp: setCommandLineParameters"]}
{"id": "C123", "title": "Text of the page on a station", "statement": "The text which the page writes on a station consists of lines in a fixed order, each there if and only if what it is about is known: each weather phenomenon and the sky by their names, remarks on heat, cold and wind, temperature, felt temperature, wind, gusts, humidity, visibility and pressure, and the time of release. Each number is that of the summary, in the units chosen, as a decimal with at most the digits needed.", "quantifier": "For every pair of texts, every date and both systems of units", "why_tests_cant": "The summaries are those of all pairs of reports; a test looks at the text for single ones.", "anchors": ["examples/shellfiles/summary_shell.html: currentWeatherToHTML", "examples/shellfiles/summary_shell.html: weatherToText", "examples/shellfiles/summary_shell.html: weatherPhenomenaToText", "examples/shellfiles/summary_shell.html: cloudToText", "examples/shellfiles/summary_shell.html: isHot", "examples/shellfiles/summary_shell.html: isCold", "examples/shellfiles/summary_shell.html: isWindy", "examples/shellfiles/summary_shell.html: adaptCurrentWeather"]}
{"id": "C124", "title": "What the page says on the wind", "statement": "The page says that the wind is variable if it is, names the point of the compass and the direction in degrees if there is one, and gives the speed and the gusts; it says that it is calm if it is; it says nothing if the wind is not reported.", "quantifier": "For every pair of texts, every date and both systems of units", "why_tests_cant": "The summaries are those of all pairs of reports; a test looks at the text for single ones.", "anchors": ["examples/shellfiles/summary_shell.html: currentWeatherToHTML", "examples/shellfiles/summary_shell.html: directionToCardinalText"]}
{"id": "C125", "title": "How old a report is by the page", "statement": "The page shows the time of release by the clock of the device and how long ago that was by the time of the server, whatever the time zone of the device and however wrong its clock is. If the time of release is not known, it shows neither.", "quantifier": "For every pair of texts, every time of the server, every clock and time zone of the device", "why_tests_cant": "The summaries are those of all pairs of reports; a test looks at the text for single ones.", "anchors": ["examples/shellfiles/summary_shell.html: currentWeatherToHTML", "examples/shellfiles/summary_shell.html: getActualTimeOffset", "examples/shellfiles/summary_shell.html: timeDifferenceMinutesToString", "examples/shellfiles/summary_shell.html: dateTimeToStr_HH_MM"]}
{"id": "C126", "title": "Icon of a station", "statement": "The icon shown for a station is that of the first rule which applies, in the order of a fixed list, from thunderstorm over kinds of precipitation, fog and storm to heat, cold, wind and the sky. The order of the weather phenomena and their repetition make no difference.", "quantifier": "For every summary and both systems of units", "why_tests_cant": "The summaries are those of all pairs of reports; a test looks at the text for single ones.", "anchors": ["examples/shellfiles/summary_shell.html: makeWeatherIcon", "examples/shellfiles/summary_shell.html: isHot", "examples/shellfiles/summary_shell.html: isCold", "examples/shellfiles/summary_shell.html: isWindy"]}
{"id": "C127", "title": "No dry icon with precipitation", "statement": "If the summary tells of precipitation, the icon is not one for dry weather.", "quantifier": "For every summary and both systems of units", "why_tests_cant": "The summaries are those of all pairs of reports; a test looks at the text for single ones.", "anchors": ["examples/shellfiles/summary_shell.html: makeWeatherIcon"]}
{"id": "C128", "title": "Widget of a station", "statement": "The widget of a station shows the icon of its weather, and in an element of its own, whose class tells the unit, each of: temperature, felt temperature, lowest and highest temperature, speed of wind and of gusts, humidity, pressure and visibility, with the number of the summary, or two equality signs if it is not known. The arrow has the direction of the wind; if the wind is variable there is a sign for that instead. There is no other element.", "quantifier": "For every summary and both systems of units", "why_tests_cant": "The summaries and the data received are unlimited; a test looks at single ones.", "anchors": ["examples/shellfiles/summary_shell.html: makeWeatherWidget", "examples/shellfiles/summary_shell.html: valueOrNullToString"]}
{"id": "C129", "title": "Stations of the page", "statement": "The stations shown are those of the METAR and TAF reports received, each once, in the order in which they first occur. For each the last METAR and the last TAF count, the position of the last METAR or else of the first TAF, and the site named last.", "quantifier": "For all lists of reports and stations received", "why_tests_cant": "The summaries and the data received are unlimited; a test looks at single ones.", "anchors": ["examples/shellfiles/summary_shell.html: AWCdataToMap", "examples/shellfiles/summary_shell.html: addStationNames", "examples/shellfiles/summary_shell.html: getReportFromNodeList", "examples/shellfiles/summary_shell.html: getStationFromNodeList"]}
{"id": "C130", "title": "The whole page", "statement": "The page shows the error messages received, the number of stations, and behind it for each station one item, in the order of C129, with its name, its distance rounded to whole kilometres or miles, the widget (C128) and the text (C123) of the summary of its last METAR and TAF.", "quantifier": "For all data received, whatever the texts of the reports, and both systems of units", "why_tests_cant": "The summaries and the data received are unlimited; a test looks at single ones.", "anchors": ["examples/shellfiles/summary_shell.html: getAWCweather", "examples/shellfiles/summary_shell.html: displayWeatherData", "examples/shellfiles/summary_shell.html: displayAerodromeCount", "examples/shellfiles/summary_shell.html: displayErrors"]}
{"id": "C131", "title": "Case-sensitive recognition", "statement": "Groups are recognised case-sensitively: the words of a group which is not unknown consist of capitals, digits and the characters / + - $ and full stop only. In a report parsed without error each word which has a small letter or another character is in an unknown group.", "quantifier": "For every text and every limit of the number of groups", "why_tests_cant": "The texts are unlimited; a test looks at single reports.", "anchors": ["include/metaf.hpp: Parser::parse", "include/metaf.hpp: LightningGroup::parse"]}
{"id": "C132", "title": "Times of three-hourly and six-hourly reports", "statement": "A valid time qualifies as that of a three-hourly report if it is at most one hour before, or less than one hour after, 03, 09, 15 or 21 hours, and as that of a six-hourly report if it is so for 00, 06, 12 or 18 hours, where the clock goes on at midnight. No time qualifies as both.", "quantifier": "For every valid time", "why_tests_cant": "There are 1441 times of the day; tests look at a few, and the claim is on minutes although the code looks at hours.", "anchors": ["include/metaf.hpp: MetafTime::is3hourlyReportTime", "include/metaf.hpp: MetafTime::is6hourlyReportTime"]}
{"id": "C133", "title": "A link to the explanation of a report", "statement": "The page which explains reports keeps the text in its address: after every change of the text the address is the text in percent-encoding (UTF-8; letters, digits and -_.!~*'() are left as they are), different texts have different addresses, and opening the page at that address shows the same text and the same table. The table is the explanation of the text by the library up to the first zero character, also if there are characters beyond ASCII. A link which stands for a text in another way of writing (hexadecimal digits in lower case, characters escaped without need) shows this text too, and a link which stands for no text shows the empty text.", "quantifier": "For every text, every address at which the page was opened and every sequence of events (page loaded, program started, text changed) before; for both orders of loading and starting", "why_tests_cant": "The texts and the histories are unlimited, and the order of the two events when the page is opened depends on the network.", "anchors": ["examples/shellfiles/explain_shell.html: explain", "examples/shellfiles/explain_shell.html: getInputFromHash", "examples/shellfiles/explain_shell.html: clearTable", "examples/shellfiles/explain_shell.html: sampleReportStr"]}
{"id": "C134", "title": "Units and distance are kept in the address of the page", "statement": "The page with the summaries reads units and distance from its address, 30 miles and metric units if there are none. Each link to units keeps the distance, also one which is not offered, and each link to a distance keeps the units; after any number of links the last choice of each kind is in use. The option which is in use, and no other, is marked, the same for the options and for the data; the captions give the miles and, to within one kilometre, the kilometres.", "quantifier": "For every address, every setting and every sequence of links followed", "why_tests_cant": "Addresses and sequences of links are unlimited.", "anchors": ["examples/shellfiles/summary_shell.html: findGetParameter", "examples/shellfiles/summary_shell.html: displayUnitOptions", "examples/shellfiles/summary_shell.html: displayDistanceOptions", "examples/shellfiles/summary_shell.html: updateOptions", "examples/shellfiles/summary_shell.html: getPositionSuccess"]}
{"id": "C135", "title": "Ranges and units of the values in the result", "statement": "Whatever the report, every value in the groups of the result is in its range: hours, minutes and numbers of runways up to 99, speeds up to 999 and never in miles per hour, directions in tens of degrees up to 990 or one of the eight octants, distances up to 200 miles or 110000 metres or feet, temperatures between -100 and 100 degrees, pressure and precipitation from 0 to 10000, friction up to 100 and waves up to 99.9 metres. A direction without a value has 0 degrees, and the ends of a sector of visibility are octants.", "quantifier": "For every report text, every limit of groups, every group of the result and every value in it", "why_tests_cant": "The set of report texts is infinite, and a value out of range would come from a text nobody thought of.", "anchors": ["include/metaf.hpp: Speed", "include/metaf.hpp: Direction", "include/metaf.hpp: Distance", "include/metaf.hpp: MetafTime", "include/metaf.hpp: Runway", "include/metaf.hpp: Temperature", "include/metaf.hpp: Pressure", "include/metaf.hpp: Precipitation", "include/metaf.hpp: SurfaceFriction", "include/metaf.hpp: WaveHeight", "include/metaf.hpp: ParseResult"]}
{"id": "C136", "title": "The page tells what it waits for and what failed", "statement": "The page with the summaries says that it looks for the position, then that it retrieves data, and when all three answers have come shows the data, in whatever order the answers come: what is shown depends only on the answers and on the moment of the last one. Data are requested once for each kind, for the distance chosen and a position rounded to hundredths of a degree. If the position or the data cannot be had the page says so.", "quantifier": "For every address of the page, every position, every answer or failure of every request and every order of events", "why_tests_cant": "The answers come in any order and any of them may fail at any step; a test tries one schedule.", "anchors": ["examples/shellfiles/summary_shell.html: getAWCweather", "examples/shellfiles/summary_shell.html: fetchAndParseXML", "examples/shellfiles/summary_shell.html: getPositionSuccess", "examples/shellfiles/summary_shell.html: getPositionFailure", "examples/shellfiles/summary_shell.html: getWeatherSummaryForPosition", "examples/shellfiles/summary_shell.html: onRuntimeInitialized"]}
{"id": "C137", "title": "Distance of a station", "statement": "The distance between two positions by the page with the summaries is the length of the great circle between them on a sphere with a radius between those of the earth to the poles and to the equator. So it is not negative, the same in both directions, 0 only for the same place, at most half the way round the earth, not longer than any detour, independent of whole turns of the longitude, and along a meridian in proportion to the difference of latitudes.", "quantifier": "For all positions", "why_tests_cant": "Positions are infinitely many.", "anchors": ["examples/shellfiles/summary_shell.html: distanceKm"]}
{"id": "C138", "title": "In which parts of a report each kind of group is found", "statement": "Each kind and type of group is found in certain parts of reports only, and in each of these parts in some report: location and report time in the header, runway state and recent weather in the body of a weather report, icing, turbulence and probabilities in the body of a forecast, cloud types, lightning and tendencies in remarks, and so on for all 22 kinds and all their types. Keywords are found where the documentation says.", "quantifier": "For every text parsed, every limit of groups and every group of the result; conversely for every kind, type and part in the table", "why_tests_cant": "Texts are infinitely many; a test shows that a group is found somewhere, not that it is found nowhere else.", "anchors": ["include/metaf.hpp: KeywordGroup::parse", "include/metaf.hpp: TrendGroup::parse", "include/metaf.hpp: WindGroup::parse", "include/metaf.hpp: VisibilityGroup::parse", "include/metaf.hpp: CloudGroup::parse", "include/metaf.hpp: WeatherGroup::parse", "include/metaf.hpp: TemperatureGroup::parse", "include/metaf.hpp: PressureGroup::parse", "include/metaf.hpp: RunwayStateGroup::parse", "include/metaf.hpp: PrecipitationGroup::parse", "include/metaf.hpp: MiscGroup::parse", "include/metaf.hpp: Parser::parse"]}
{"id": "C139", "title": "Removing and replacing groups", "statement": "In a report read without error, which is neither missing nor cancelled, some consecutive groups of the body, also the first ones after the header, can be removed or replaced by any other words. Only these groups change: the groups before and after are the same, and instead of those taken away there are the groups into which the new words are divided. This holds if no group goes on over the ends. Without an unknown group, also the metadata is the same. The report without its remarks has the groups before the remarks.", "quantifier": "For every report, every choice of consecutive groups of its body, every list of words put in their place and every limit which is large enough", "why_tests_cant": "Reports, places and replacements are infinitely many; a test shows single reports and not that a group has no influence on the others.", "anchors": ["include/metaf.hpp: Parser::parse", "include/metaf.hpp: Parser::appendToLastResultGroup", "include/metaf.hpp: GroupParser::parse"]}
{"id": "C140", "title": "Humidity, heat index and wind chill follow the published formulas", "statement": "The relative humidity given for a temperature and a dew point is within a hundredth of a percent of 100 times the quotient of the saturation vapour pressures by the formula of Magnus and Tetens. The heat index given for a temperature and a humidity is the value of the regression of Rothfusz (the formula of the National Weather Service in degrees Fahrenheit, converted) rounded to tenths of a degree Celsius, and the heat index for a dew point is that for the corresponding humidity. The wind chill is the value of the formula of 2001 for the temperature in degrees Celsius and the wind in km/h, rounded to tenths, whatever the unit of the wind.", "quantifier": "every temperature and dew point within -100..100 C in whole degrees or tenths, every humidity from 40 to 100 percent, every wind speed below 1000 in every unit, for which the value is given (C29)", "why_tests_cant": "There are millions of combinations of arguments and every step of the computation is rounded; a wrong digit of a coefficient moves only some results by a tenth.", "anchors": ["include/metaf.hpp: Temperature::relativeHumidity", "include/metaf.hpp: Temperature::heatIndex", "include/metaf.hpp: Temperature::windChill", "include/metaf.hpp: Temperature::Temperature(float)"]}
{"id": "C141", "title": "How heat index and wind chill depend on their arguments", "statement": "For the same humidity a higher temperature does not give a lower heat index, for the same temperature a higher dew point does not give a lower heat index, nor does a humidity higher by at least 0.001 percent. The heat index is at most 0.4 degrees below the temperature, and not below it from 45 percent of humidity on. The wind chill is below the temperature; for the same wind a lower temperature does not give a higher wind chill and for the same temperature a stronger wind does not give a higher one.", "quantifier": "all pairs of arguments for which the values are given, temperatures within -100..100 C, wind speeds below 1000 in any unit", "why_tests_cant": "Monotonicity is a statement about pairs of arguments over the whole range, through a polynomial of degree four with rounding at each step.", "anchors": ["include/metaf.hpp: Temperature::heatIndex", "include/metaf.hpp: Temperature::windChill"]}
{"id": "C142", "title": "The temperature felt in the summary is that of the published formulas", "statement": "In the summary of a METAR report the temperature felt is made of the last group with a temperature before the first trend and of the wind reported before it: from 27 degrees and a humidity of 40 percent it is the heat index, up to 10 degrees and from a wind of 4.8 km/h it is the wind chill, otherwise it is the temperature of the air; the number is the value of the published formula in the unit chosen with the fraction dropped, after rounding to tenths of a degree Celsius. Between 10 and 27 degrees it is the number shown for the temperature of the air, up to 10 degrees it is not above it, from 27 degrees it is at most one below it. It is never the number which stands for a missing value, in Celsius always and in Fahrenheit if the air has at least -60 degrees Celsius.", "quantifier": "every METAR text parsed without error which has a temperature, every TAF text, every date, both systems of units", "why_tests_cant": "The value goes through the parser, the selection of groups, three formulas with rounded arithmetic, two conversions and a truncation; that none of the numbers is the marker -250 needs bounds over all inputs.", "anchors": ["examples/summary.cpp: getCurrentWeather", "examples/summary.cpp: Temperature::heatIndex", "examples/summary.cpp: Temperature::windChill"]}
{"id": "C143", "title": "Remarks removed, replaced or added change no other group", "statement": "Let a report be read without error and be neither missing nor cancelled. If some of its remarks are replaced by other words, which are divided into remarks as they would be by themselves, and no remark goes on over the ends of the replaced part, then the groups before and after it are the same as they were, with the same values and texts, and between them are the groups of the new words. Type and absence of an error stay the same. The same holds when remarks are removed or added. When an unknown remark is removed the metadata is the same too.", "quantifier": "for every report read without error, every place and every part of its remarks, and all words to put there which do not join the remarks before and after", "why_tests_cant": "Tests check single remarks in fixed reports; the number of reports, places and replacements has no bound, and the parser keeps a state (the group which may be continued, the hour of the report) from word to word.", "anchors": ["include/metaf.hpp: Parser::parse", "include/metaf.hpp: GroupParser::parse", "include/metaf.hpp: Parser::appendToLastResultGroup", "include/metaf.hpp: Parser::updateMetadata"]}
{"id": "C144", "title": "Remarks which are written are read back", "statement": "A report which is written as a header, groups of the body and, after RMK, any sequence of remarks, each in the words that express it, is decoded into exactly these groups: one for each, in order, in the right part of the report, with the words as raw string, and no error, as long as each remark ends before the next one (no longer remark begins with its words and the next word, and it is not a beginning which is of no use alone). This is always so for complete remarks, which may be written in any order and any number: AO1 and AO2 and the like, sensors which do not work, sea level pressure, tenths of degrees, six-hourly and daily extremes, precipitation, new snow, pressure tendency, cloud codes, sunshine, beginning and end of weather events, peak wind, wind shift with a front, QNH and QFE, and colour codes.", "quantifier": "for every header, every sequence of groups of the body and every sequence of remarks, of any length, every layout and every sufficient group limit", "why_tests_cant": "Remarks are recognised word by word, and many of them go on as long as the next word fits; whether two remarks next to each other are kept apart depends on every pair of remarks and on all values in them.", "anchors": ["include/metaf.hpp: Parser::parse", "include/metaf.hpp: GroupParser::parse", "include/metaf.hpp: MinMaxTemperatureGroup::append", "include/metaf.hpp: PrecipitationGroup::append", "include/metaf.hpp: WindGroup::append"]}
{"id": "C145", "title": "What the header changes in the rest of a report", "statement": "What is read after the header of a report depends on the header only by the report type and, in the remarks, by the hour of the report. If a complete header is replaced by another complete header of the same type (SPECI instead of METAR, with or without COR or AMD, another location, another day and minute, another period) with the same hour, then all groups after the header are the same, with the same values and texts, and so are the type and the error. With another hour the groups before the remarks are the same, and all groups if there are no remarks. A METAR whose report type is left out is read as the same METAR, if its body does not begin with a period or NIL. This holds for any words after the header, also for reports with errors or cut at the limit; the limit is counted from the end of the header, with one more group for a report without type. The metadata differ only in the time of the report, the location, the marks of a SPECI, of an amended and of a corrected report and, for a TAF, the period: time, location, SPECI, AMD and the period are those of the new header, and the report is marked as corrected if COR is in the new header, and as before if COR is in neither header.", "quantifier": "for every two complete headers of the same type, every text with these headers and the same words after them, and every limit which is not reached by the header", "why_tests_cant": "The parser passes the metadata collected so far to the recognition of every group, so any group could depend on anything in the header; only all headers with all bodies settle that it does not.", "anchors": ["include/metaf.hpp: Parser::parse", "include/metaf.hpp: Parser::updateMetadata", "include/metaf.hpp: GroupParser::parse", "include/metaf.hpp: Parser::Status::transitionFromReportTypeOrLocation"]}
{"id": "C146", "title": "What remarks can change in the summary of a TAF report", "statement": "Remarks added to a TAF report that parses without error never change the air temperature, perceived temperature, humidity, pressure, storm clouds and time of release in the result of getCurrentWeather. If the METAR text is accepted, or if a change of the forecast stands before the remarks, they change nothing but the highest and lowest temperature. These two are changed only if the remarks have a group on the highest or lowest temperature. The exceptions are real: such a group in the remarks replaces the forecast of the temperatures, and in a TAF without changes the remarks can replace wind and cover of the sky.", "quantifier": "for every METAR text, every TAF text that parses without error and is neither NIL nor CNL, every list of words after RMK without the maintenance indicator such that the group limit is not reached, every date and both systems of units", "why_tests_cant": "The summary loops over all groups of the report, so every kind of remark in every order is an input which could change a member.", "anchors": ["examples/summary.cpp: getCurrentWeather", "examples/summary.cpp: currentWeatherFromTaf", "examples/summary.cpp: temperatureForecastFromTaf", "examples/summary.cpp: reportReleaseTime"]}
{"id": "C147", "title": "What the summary depends on", "statement": "The result of getCurrentWeather depends on an accepted METAR text only through its groups of surface wind, prevailing visibility, CAVOK, clouds, current weather, temperature and pressure at sea level before the first trend, and its time of release: two METAR texts which agree in these groups have the same summary, whatever other groups, unknown words and remarks are between and whatever the raw texts are. So a word which is no group, or a group of another kind, inserted in the body of the METAR text, or of the TAF text, leaves the summary as it is. The order of these groups counts only among groups on the same matter: wind and temperature; visibility and CAVOK; clouds and CAVOK; weather; pressure. A TAF text counts only through its groups of wind, visibility, CAVOK, clouds and weather before its first change, its time of release and its highest and lowest temperature, and with an accepted METAR text only through the latter. The order of its groups counts only among wind groups, visibility and CAVOK, clouds and CAVOK, and weather.", "quantifier": "for every two accepted METAR texts or TAF texts which agree as said, every other text, every date and both systems of units", "why_tests_cant": "The set of groups which may be present, absent or moved between two reports is unbounded; a test compares some pairs of reports.", "anchors": ["examples/summary.cpp: getCurrentWeather", "examples/summary.cpp: currentWeatherFromMetar", "examples/summary.cpp: currentWeatherFromTaf", "examples/summary.cpp: temperatureForecastFromTaf", "examples/summary.cpp: reportReleaseTime"]}
{"id": "C148", "title": "What a change of a report changes on the page", "statement": "Two reports of the same type and with the same error, whose groups are the same but for some between them, have the same page of explain but for the rows of these groups; the second report is explained if and only if its groups between are. So when groups of the body are removed (as in C139) their rows are missing and all else is the same; when groups of the body or remarks are replaced by other words (C139, C143) the rows of the new groups are in their place; a word which is no group, inserted in the body (C114), adds one row which says that it is not recognised; and another header of the same type with the same hour and number of words (C145) changes the rows of the header only.", "quantifier": "for every report which is explained, every change of it as said and every state of the memory", "why_tests_cant": "A test compares the pages of some pairs of reports; that no other row depends on the changed words needs all reports, places and words.", "anchors": ["examples/explain.cpp: explain", "examples/explain.cpp: VisitorExplain"]}
{"id": "C149", "title": "The summary of a METAR which is written says what was written", "statement": "Take any observation: a wind with direction in tens of degrees, variable or missing, with speed and gusts below 1000 in knots, metres per second or kilometres per hour or missing; a visibility in four digits; up to twenty present weather phenomena of the allowed kinds; any number of layers of clouds; temperature and dew point in whole degrees; a pressure in hectopascals. Write it as words behind any header of a METAR or SPECI and before nothing or any trend with the groups written after it, with any blanks between the words, fewer than 200 words in all. Whatever TAF is given and whatever the date is, the summary then has: the direction written (-250 if calm, variable or missing), the mark for variable wind exactly if VRB was written, the speeds written as whole kilometres or miles per hour of the true value, the visibility written (9999 stands for 10000) in metres or whole miles, the codes of the phenomena written in their order, the mark for storm clouds exactly if a layer was written with CB, the greatest cover from the last partly covering layer on, the temperature written in degrees Celsius or the whole part of its value in degrees Fahrenheit, and in hectopascals the pressure written. If a trend was written, all this also holds with any remarks after it. Without a trend any remarks leave the members on wind, visibility, weather and storm clouds, the time and the forecast temperatures as they are without the remarks.", "quantifier": "for all observations which can be written, all headers of a METAR, all trends and remarks after it, all texts with these words and any blanks, all TAF texts, all dates and both systems of units", "why_tests_cant": "The numbers of an observation, their spellings, the lists of phenomena and layers and the blanks between words are unbounded in combination; tests show single reports.", "anchors": ["examples/summary.cpp: getCurrentWeather", "examples/summary.cpp: currentWeatherFromMetar"]}
{"id": "C150", "title": "Without a METAR, the summary of a TAF which is written says what was written", "statement": "Take any forecast: a wind with direction in tens of degrees, variable or missing, with speed and gusts below 1000 in knots, metres per second or kilometres per hour or missing; a visibility in four digits; up to twenty weather phenomena of the kinds allowed in a TAF; any number of layers of clouds. Write it as words behind any header of a TAF and before nothing or any change with the groups written after it, with any blanks between the words, fewer than 200 words in all. If the METAR text is not accepted, then whatever the date is, the summary has the direction written (-250 if calm, variable or missing), the mark for variable wind exactly if VRB was written, the speeds written as whole kilometres or miles per hour of the true value, the visibility written (9999 stands for 10000) in metres or whole miles, the codes of the phenomena written in their order, the mark for storm clouds exactly if a layer was written with CB, the greatest cover from the last partly covering layer on, and no temperature, humidity and pressure. Nothing of the changes gets into these members.", "quantifier": "for all forecasts which can be written, all headers of a TAF, all changes after it, all texts with these words and any blanks, all METAR texts which are not accepted, all dates and both systems of units", "why_tests_cant": "The numbers of a forecast, their spellings, the lists of phenomena, layers and changes and the blanks between words are unbounded in combination; tests show single reports.", "anchors": ["examples/summary.cpp: getCurrentWeather", "examples/summary.cpp: currentWeatherFromTaf"]}
{"id": "C151", "title": "The forecast temperatures and the time of a report which are written are those of the summary", "statement": "Write two forecast temperatures after each other into a TAF, with any header before them, any groups before and after them, any blanks between the words and fewer than 200 words in all, such that no forecast temperature follows later. Whatever the METAR text and the date are, the lowest temperature of the summary is the one written with TN and the highest the one written with TX, in whichever order they are written; if both are written without TX and TN, the lowest is the lower value. Both are the numbers written, with M for values below zero, in Celsius, or the whole part of their value in Fahrenheit. With a single temperature written with TX or TN only the highest or the lowest is known and the other one is -250. And for every METAR with any groups after its header, the day, the hour and the minute of the summary are those written, and month and year those of the latest such day, in any month, which is not after the given date, whatever the TAF text is.", "quantifier": "for all headers, all forecast temperatures with two digits, all groups before and after, all texts with these words and any blanks, all texts of the other report, all dates (for the time: from year 1 to 2147483647 with a month from 1 to 12) and both systems of units", "why_tests_cant": "The numbers, the groups around them and the dates are unbounded in combination; tests show single reports and dates.", "anchors": ["examples/summary.cpp: getCurrentWeather", "examples/summary.cpp: temperatureForecastFromTaf", "examples/summary.cpp: reportReleaseTime"]}
{"id": "C152", "title": "The same text is understood and explained in the same way in all reports", "statement": "Take any two texts of reports, or twice the same one, and any limits of the number of groups. If a group of the one result and a group of the other result have the same non-empty text and belong to the same part of the report (header, body of a METAR, body of a TAF, remarks), and both or none of them are unknown groups, then the groups are equal in all their values, whatever else is in the reports. For remarks this holds if both reports have the same hour in their metadata, and the hour is needed: 60217 says other things in reports of 12 and of 15 hours. On the pages of the explanation of the two reports their rows are the same.", "quantifier": "for all pairs of texts, all limits of the number of groups and all pairs of groups of their results", "why_tests_cant": "Pairs of texts with a common group are unbounded, and nothing local in a test shows that no other part of the report has an influence.", "anchors": ["include/metaf.hpp: Parser::parse", "include/metaf.hpp: GroupInfo", "include/metaf.hpp: ReportMetadata"]}
{"id": "C153", "title": "Words common to METAR and TAF say the same in both, except for time spans", "statement": "If a sequence of words is a group in the body of a METAR and also in the body of a TAF, then both groups are equal in all their values, unless there is a time span of four digits, a slash and four digits among the words. So a group of the result of any METAR and a group of the result of any TAF, both from the bodies and recognised, are equal if their texts are the same and have no time span. A time span says hours and minutes in a METAR but days and hours in a TAF: for all numbers with two digits the two readings are given.", "quantifier": "for all sequences of words, all pairs of texts of reports, all limits of the number of groups and all pairs of groups of their results", "why_tests_cant": "The two parts of the report are different branches in every recogniser; that no text is read by different recognisers, or differently by the same one, is a statement on all texts.", "anchors": ["include/metaf.hpp: Parser::parse", "include/metaf.hpp: GroupParser::parse", "include/metaf.hpp: TrendGroup::parse", "include/metaf.hpp: ReportPart"]}
{"id": "C154", "title": "Visibility in miles is the whole number of metres in a metric summary", "statement": "Visibility which is reported in statute miles is, in the summary of the current weather in metric units, the whole part of the true number of metres, with a statute mile of 1609.344 metres.", "quantifier": "for all METAR texts, and all TAF texts if there is no METAR, with visibility in miles up to 200 miles, in whole miles, fractions or both", "why_tests_cant": "A mile is taken as 1609.347 metres in the code, so the error grows with the value and moves the result past a whole number only for some values; a test on one or two values sees nothing.", "anchors": ["include/metaf.hpp: getCurrentWeather", "include/metaf.hpp: VisibilityGroup::visibility", "include/metaf.hpp: Distance::milesToUnit", "include/metaf.hpp: Distance::toUnit"]}
{"id": "C155", "title": "Pressure in the other unit is the whole part of the true value", "statement": "If a METAR gives the pressure in hundredths of an inch of mercury, the summary of the current weather in metric units gives the whole part of the true number of hectopascals; if it gives it in hectopascals, the summary in imperial units gives the whole part of the true number of hundredths of an inch. An inch of mercury is 33.86389 hectopascals.", "quantifier": "for all METAR texts and all pressures from 23 to 33 inches or from 750 to 1149 hectopascals", "why_tests_cant": "Rounding of float and a factor with six digits may move a value past a whole number; that this never happens is a statement on each of the values.", "anchors": ["include/metaf.hpp: getCurrentWeather", "include/metaf.hpp: Pressure::toUnit", "include/metaf.hpp: Pressure::fromString"]}
