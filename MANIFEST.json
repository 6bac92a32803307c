{
 "claims": [
  {
   "property": "C01",
   "status": "proved",
   "theorems": [
    "Metaf.Props.C01_parse_total"
   ],
   "note": "Every report and limit yields a result; no modelled undefined behaviour is reached."
  },
  {
   "property": "C02",
   "status": "proved",
   "theorems": [
    "Metaf.Props.C02_report_end",
    "Metaf.Props.C02_report_end_ignored"
   ],
   "note": ""
  },
  {
   "property": "C03",
   "status": "proved",
   "theorems": [
    "Metaf.Props.C03_groups_only",
    "Metaf.Props.C03_layout",
    "Metaf.Props.C03_groups_exist"
   ],
   "note": ""
  },
  {
   "property": "C04",
   "status": "proved",
   "theorems": [
    "Metaf.Props.C04_no_text_lost",
    "Metaf.Props.C04_characters",
    "Metaf.Props.C04_offending_group"
   ],
   "note": ""
  },
  {
   "property": "C05",
   "status": "proved",
   "theorems": [
    "Metaf.Props.C05_group_limit",
    "Metaf.Props.C05_entries",
    "Metaf.Props.C05_size"
   ],
   "note": ""
  },
  {
   "property": "C06",
   "status": "proved",
   "theorems": [
    "Metaf.Props.C06_unknown_merged"
   ],
   "note": ""
  },
  {
   "property": "C07",
   "status": "partial",
   "theorems": [
    "Metaf.Props.C07_empty_text_partial",
    "Metaf.Props.C07_violated"
   ],
   "note": "The code violates the property; a witness is proved and the exact exception is characterised."
  },
  {
   "property": "C08",
   "status": "proved",
   "theorems": [
    "Metaf.Props.C08_parts_in_order",
    "Metaf.Props.C08_allowed",
    "Metaf.Props.C08_parts"
   ],
   "note": ""
  },
  {
   "property": "C09",
   "status": "proved",
   "theorems": [
    "Metaf.Props.C09_type_known"
   ],
   "note": ""
  },
  {
   "property": "C10",
   "status": "proved",
   "theorems": [
    "Metaf.Props.C10_grammar",
    "Metaf.Props.C10_accepted",
    "Metaf.Props.C10_errors"
   ],
   "note": ""
  },
  {
   "property": "C100",
   "status": "proved",
   "theorems": [
    "Metaf.Props.C100_warning"
   ],
   "note": ""
  },
  {
   "property": "C101",
   "status": "partial",
   "theorems": [
    "Metaf.Props.C101_markup_partial",
    "Metaf.Props.C101_characters",
    "Metaf.Props.C101_violated"
   ],
   "note": "The code violates it: the raw text is not escaped, and a text <script> is passed on (C101_violated). C101_markup_partial: it holds for texts without the character <. C101_characters: for every text the page is one line of printable characters and characters of the text."
  },
  {
   "property": "C102",
   "status": "proved",
   "theorems": [
    "Metaf.Props.C102_determines"
   ],
   "note": ""
  },
  {
   "property": "C103",
   "status": "proved",
   "theorems": [
    "Metaf.Props.C103_speed",
    "Metaf.Props.C103_temperature",
    "Metaf.Props.C103_pressure",
    "Metaf.Props.C103_precipitation",
    "Metaf.Props.C103_wave_height",
    "Metaf.Props.C103_distance"
   ],
   "note": "Uses the laws of IEEE 754 as C31."
  },
  {
   "property": "C104",
   "status": "partial",
   "theorems": [
    "Metaf.Props.C104_temperature_partial",
    "Metaf.Props.C104_hectopascal",
    "Metaf.Props.C104_friction",
    "Metaf.Props.C104_wave_height_partial",
    "Metaf.Props.C104_whole_precipitation",
    "Metaf.Props.C104_hundredths_partial",
    "Metaf.Props.C104_tenths_partial",
    "Metaf.Props.C104_distance",
    "Metaf.Props.C104_violated",
    "Metaf.Props.C104_sunshine",
    "Metaf.Props.C104_hailstones",
    "Metaf.Props.C104_altitude_partial",
    "Metaf.Props.C104_altitude_violated",
    "Metaf.Props.C104_temperature_exact",
    "Metaf.Props.C104_sea_level_exact",
    "Metaf.Props.C104_inches_exact"
   ],
   "note": "A density altitude of a million feet or more is shown in exponential form with six digits (C104_altitude_violated); sunshine, hailstones and density altitudes below are exact. The code violates it, as numbers are cut instead of rounded: T0323 is shown as 32.2 degrees, A3013 as 30.12 inHg and SLP123 as 1012.2 hPa (C104_violated). It holds for temperatures in whole degrees or up to 32.2 degrees, whole hectopascals, friction, wave heights below 16 metres, precipitation in whole units, below 8 inches in hundredths or up to 32.2 in tenths, distances in metres, feet and usual fractions of miles. Speeds: C103_speed. C104_temperature_exact, C104_sea_level_exact and C104_inches_exact say, with the arithmetic of IEEE 754, exactly which temperatures and pressures are shown wrong (one unit of the last decimal too small): 136 of 1000 temperatures, 400 of 1000 sea level pressures and 292 of the 500 altimeter settings from 27 to 32 inches."
  },
  {
   "property": "C105",
   "status": "proved",
   "theorems": [
    "Metaf.Props.C105_words",
    "Metaf.Props.C105_runway",
    "Metaf.Props.C105_time",
    "Metaf.Props.C105_keyword",
    "Metaf.Props.C105_location",
    "Metaf.Props.C105_report_time",
    "Metaf.Props.C105_layers"
   ],
   "note": "Times: all MetafTime, whether valid or not."
  },
  {
   "property": "C106",
   "status": "partial",
   "theorems": [
    "Metaf.Props.C106_lines_partial",
    "Metaf.Props.C106_page_partial",
    "Metaf.Props.C106_cell",
    "Metaf.Props.C106_shear",
    "Metaf.Props.C106_violated"
   ],
   "note": "The code violates it for wind shear at a height, whose text lacks the line break before 'Wind speed' (C106_violated; C106_shear says what is written instead). It holds for all other groups. The lines are specified in Spec/Explanation.lean; the texts of single quantities in them are those of C103 and C104, the words those of C105."
  },
  {
   "property": "C107",
   "status": "proved",
   "theorems": [
    "Metaf.Props.C107_words",
    "Metaf.Props.C107_body",
    "Metaf.Props.C107_remark"
   ],
   "note": "The vocabulary is the table Spec/Vocabulary.lean, which was written out with the texts of explain.cpp including their misspellings (see the disagreements) and reviewed against the code tables of WMO 306 and FMH-1. C107_body and C107_remark say that each of its codes is a group. The theorems use the IEEE instance of the arithmetic because a few texts contain converted numbers."
  },
  {
   "property": "C108",
   "status": "partial",
   "theorems": [
    "Metaf.Props.C108_weather",
    "Metaf.Props.C108_events_partial",
    "Metaf.Props.C108_special",
    "Metaf.Props.C108_all_events",
    "Metaf.Props.C108_violated"
   ],
   "note": "Violated for events of phenomena with an expression of their own: explainWeatherPhenomena returns the expression before it writes the event, so that `UPB05` is explained without `began` and the time (C108_violated, C108_special for all such events). C108_events_partial is the claim for all other phenomena. C108_weather has no such restriction. C108_all_events says exactly what is shown for every sequence of events."
  },
  {
   "property": "C109",
   "status": "proved",
   "theorems": [
    "Metaf.Props.C109_values",
    "Metaf.Props.C109_warning",
    "Metaf.Props.C109_page"
   ],
   "note": "Accuracy of converted values as in C103 and C104 (last digit cut off or rounded). A direction above 360 is shown in degrees with `not reported` for the compass; zero precipitation is shown as `trace amount`: both are part of the specification (directionShown, Presented). C109_page puts values, lines (C106) and warnings together for the page."
  },
  {
   "property": "C11",
   "status": "proved",
   "theorems": [
    "Metaf.Props.C11_restricted_keywords"
   ],
   "note": ""
  },
  {
   "property": "C110",
   "status": "proved",
   "theorems": [
    "Metaf.Props.C110_greater",
    "Metaf.Props.C110_enough",
    "Metaf.Props.C110_beginning"
   ],
   "note": "Entries without text come from the two-phenomena remarks of C20. The last entry of a result which is cut short may be different with a greater limit: a group which needs more words than the limit allows, or the third group of a report without METAR or TAF."
  },
  {
   "property": "C111",
   "status": "proved",
   "theorems": [
    "Metaf.Props.C111_remarks",
    "Metaf.Props.C111_metadata"
   ],
   "note": "The limit must allow for the number of words. Complements C18: here also the last groups of the body are unchanged, and the metadata."
  },
  {
   "property": "C112",
   "status": "proved",
   "theorems": [
    "Metaf.Props.C112_remarks",
    "Metaf.Props.C112_changes"
   ],
   "note": "The report is neither NIL nor cancelled and has less than 199 words with its remarks. C112_changes is a report for which each of the five members changes."
  },
  {
   "property": "C113",
   "status": "proved",
   "theorems": [
    "Metaf.Props.C113_total",
    "Metaf.Props.C113_lines",
    "Metaf.Props.C113_words",
    "Metaf.Props.C113_distinct"
   ],
   "note": "The report is a constant in the source; the model takes it as an argument. The line for a runway state lacks the space after the colon (part of the specification LineFor)."
  },
  {
   "property": "C114",
   "status": "proved",
   "theorems": [
    "Metaf.Props.C114_group",
    "Metaf.Props.C114_unknown",
    "Metaf.Props.C114_remark",
    "Metaf.Props.C114_first",
    "Metaf.Props.C114_first_unknown"
   ],
   "note": "The insertion directly after the header (C114_first) is for reports with a report type; a METAR without one has the same groups by C145. Insertion beside unknown groups, which are joined to one, is not covered."
  },
  {
   "property": "C115",
   "status": "partial",
   "theorems": [
    "Metaf.Props.C115_arguments_partial",
    "Metaf.Props.C115_violated"
   ],
   "note": "Violated: a file whose name has '-' as second character is not read, the internal data are used instead (C115_violated). Command lines with an empty last argument read behind its end and are excluded (C120_failures)."
  },
  {
   "property": "C116",
   "status": "partial",
   "theorems": [
    "Metaf.Props.C116_processed",
    "Metaf.Props.C116_printed",
    "Metaf.Props.C116_web",
    "Metaf.Props.C116_all_partial",
    "Metaf.Props.C116_lost",
    "Metaf.Props.C116_violated"
   ],
   "note": "Violated for files of more than 64000 lines: those behind the last full batch are not processed (C116_violated, C116_lost). What is printed is specified to the last character (printedText), for all sections."
  },
  {
   "property": "C117",
   "status": "proved",
   "theorems": [
    "Metaf.Props.C117_files",
    "Metaf.Props.C117_part_names",
    "Metaf.Props.C117_part_numbers"
   ],
   "note": "C117_part_names and C117_part_numbers are about the lookups of parts by name and number, which the program defines beside the names."
  },
  {
   "property": "C118",
   "status": "partial",
   "theorems": [
    "Metaf.Props.C118_unknown_partial",
    "Metaf.Props.C118_exact",
    "Metaf.Props.C119_violated"
   ],
   "note": "C118_exact: what is counted for any number of them. Proved for the internal data, and for a file if fewer than 1000 such groups are in each part of the reports; otherwise those behind the last full thousand are not counted (C119_violated)."
  },
  {
   "property": "C119",
   "status": "partial",
   "theorems": [
    "Metaf.Props.C119_errors_partial",
    "Metaf.Props.C119_exact",
    "Metaf.Props.C119_violated"
   ],
   "note": "C119_exact: what is listed for any number of them. Proved for the internal data and for fewer than 500 such reports of a file; with 1001 the header says 1001 and 1000 are shown (C119_violated)."
  },
  {
   "property": "C12",
   "status": "proved",
   "theorems": [
    "Metaf.Props.C12_terminal",
    "Metaf.Props.C12_after",
    "Metaf.Props.C12_after_text"
   ],
   "note": ""
  },
  {
   "property": "C120",
   "status": "partial",
   "theorems": [
    "Metaf.Props.C120_ends_partial",
    "Metaf.Props.C120_missing",
    "Metaf.Props.C120_failures",
    "Metaf.Props.C120_violated"
   ],
   "note": "Violated, e.g. by an empty line in the input file (C120_violated). C120_ends_partial says exactly when it ends: the file has a line end, no empty line and text is to be written, and time passes in each measurement with groups."
  },
  {
   "property": "C121",
   "status": "partial",
   "theorems": [
    "Metaf.Props.C121_kinds_partial",
    "Metaf.Props.C121_exact",
    "Metaf.Props.C121_violated",
    "Metaf.Props.C116_printed"
   ],
   "note": "C121_exact: how many are measured for a file with any number of them. Violated for weather: it is never measured (C121_violated), as it is left out of the list of kinds tested. For the other kinds proved for the internal data and for fewer than 1000 groups in each part of the reports of a file."
  },
  {
   "property": "C122",
   "status": "proved",
   "theorems": [
    "Metaf.Props.C122_export",
    "Metaf.Props.C122_again",
    "Metaf.Props.C122_help"
   ],
   "note": "The way back is stated for fewer than 64000 reports."
  },
  {
   "property": "C123",
   "status": "proved",
   "theorems": [
    "Metaf.Props.C123_lines",
    "Metaf.Props.C123_unique"
   ],
   "note": "Every weather code of a summary has a name on the page, as the page and summary.cpp have the same numbering (phenomena_text, weather_known)."
  },
  {
   "property": "C124",
   "status": "partial",
   "theorems": [
    "Metaf.Props.C124_wind_partial",
    "Metaf.Props.C124_no_direction",
    "Metaf.Props.C124_violated"
   ],
   "note": "Violated: calm wind is not mentioned, and wind which is not reported is called variable (C124_violated). Proved if there is a direction or the wind is variable. C124_no_direction says what the page shows in the other cases."
  },
  {
   "property": "C125",
   "status": "partial",
   "theorems": [
    "Metaf.Props.C125_updated_partial",
    "Metaf.Props.C125_true_age_partial",
    "Metaf.Props.C125_missing",
    "Metaf.Props.C125_violated"
   ],
   "note": "Violated: the date given to the library is that of the device; west of Greenwich a report five minutes old may be shown as 744 hours 5 minutes old (C125_violated). Proved with respect to the date of release in the summary, up to one and a half minutes. C125_true_age_partial: for a report released up to 27 days before the date of the device, and not after it, the age shown is the true one."
  },
  {
   "property": "C126",
   "status": "proved",
   "theorems": [
    "Metaf.Props.C126_icon",
    "Metaf.Props.C126_unique",
    "Metaf.Props.C126_order"
   ],
   "note": "The rules are stated in terms of the names shown to the user, not the numbers of the codes."
  },
  {
   "property": "C127",
   "status": "partial",
   "theorems": [
    "Metaf.Props.C127_precipitation_partial",
    "Metaf.Props.C127_violated"
   ],
   "note": "Violated: snow grains, ice pellets and undetermined precipitation have no icon and are shown as the sky alone (C127_violated). Proved for all other precipitation."
  },
  {
   "property": "C128",
   "status": "partial",
   "theorems": [
    "Metaf.Props.C128_fields_partial",
    "Metaf.Props.C128_exact",
    "Metaf.Props.C128_icon",
    "Metaf.Props.C128_arrow",
    "Metaf.Props.C128_violated"
   ],
   "note": "Violated: visibility in kilometres and pressure in inches which are not known are shown as 0 (C128_violated), as null divided by a number is 0. Proved if they are known. C128_exact: what is shown for every summary."
  },
  {
   "property": "C129",
   "status": "proved",
   "theorems": [
    "Metaf.Props.C129_order",
    "Metaf.Props.C129_data"
   ],
   "note": ""
  },
  {
   "property": "C13",
   "status": "proved",
   "theorems": [
    "Metaf.Props.C13_flags",
    "Metaf.Props.C13_correctional",
    "Metaf.Props.C13_correction_number"
   ],
   "note": ""
  },
  {
   "property": "C130",
   "status": "partial",
   "theorems": [
    "Metaf.Props.C130_shown",
    "Metaf.Props.C130_all_partial",
    "Metaf.Props.C130_violated"
   ],
   "note": "Violated: one report without text hides its station and all those behind it, and a station listed without site is called undefined (C130_violated). C130_shown says exactly how far the page goes for all data; C130_all_partial is the claim for reports which all have a text."
  },
  {
   "property": "C131",
   "status": "partial",
   "theorems": [
    "Metaf.Props.C131_characters_partial",
    "Metaf.Props.C131_unknown_partial",
    "Metaf.Props.C131_exact",
    "Metaf.Props.C131_valid",
    "Metaf.Props.C131_violated"
   ],
   "note": "Violated: in the remarks whatever follows LTG is taken as types of lightning, small letters included, and after the sixth type it is not even looked at, so that the group is valid (C131_violated). Proved for all other words, and that these words in the remarks, and no others, are recognised, with or without an error, and exactly when their group is valid (C131_exact, C131_valid)."
  },
  {
   "property": "C132",
   "status": "partial",
   "theorems": [
    "Metaf.Props.C132_three_hourly",
    "Metaf.Props.C132_six_hourly_partial",
    "Metaf.Props.C132_exact",
    "Metaf.Props.C132_not_both",
    "Metaf.Props.C132_violated"
   ],
   "note": "Violated: the time 24:00, which is valid and is midnight at the end of a day, does not qualify as six-hourly (C132_violated); proved for all other valid times. The documentation says within one hour before or after; the full hour after is not included by the code."
  },
  {
   "property": "C133",
   "status": "partial",
   "theorems": [
    "Metaf.Props.C133_address",
    "Metaf.Props.C133_link_partial",
    "Metaf.Props.C133_unpaired",
    "Metaf.Props.C133_distinct",
    "Metaf.Props.C133_plain",
    "Metaf.Props.C133_sample",
    "Metaf.Props.C133_broken",
    "Metaf.Props.C133_any_link",
    "Metaf.Props.C133_no_text",
    "Metaf.Props.C133_violated",
    "Metaf.Props.C133_order_violated"
   ],
   "note": "Violated in two ways: a link copied after the input was cleared shows the sample report instead of the empty text (C133_violated), and if the program is started before the page is loaded the text in every link is lost and the table does not belong to the text shown (C133_order_violated). C133_link_partial is proved for all other texts and the usual order. C133_any_link and C133_no_text: what is shown for every link, also one which is written differently (small hexadecimal digits, characters escaped without need or not escaped). C133_broken: a malformed link is wiped."
  },
  {
   "property": "C134",
   "status": "proved",
   "theorems": [
    "Metaf.Props.C134_marked",
    "Metaf.Props.C134_link",
    "Metaf.Props.C134_history",
    "Metaf.Props.C134_default",
    "Metaf.Props.C134_one_marked",
    "Metaf.Props.C134_kilometres",
    "Metaf.Props.C134_unreadable",
    "Metaf.Props.C134_reads"
   ],
   "note": "Number and the conversion of a number to text are parameters with the laws of ECMA-262 (Numbers.Lawful), met by decimals_lawful. If a parameter cannot be decoded the script throws an exception and shows neither options nor data (C134_unreadable)."
  },
  {
   "property": "C135",
   "status": "proved",
   "theorems": [
    "Metaf.Props.C135_values",
    "Metaf.Props.C135_sectors"
   ],
   "note": "The documentation of Speed (docs/sphinx/api_speed.rst) says that values are never stored in miles per hour. Ranges are of the values before the validity check; hours of 99 and directions of 990 degrees do occur in groups which are then not valid. Sectors of lightning and vicinity groups are not included."
  },
  {
   "property": "C136",
   "status": "partial",
   "theorems": [
    "Metaf.Props.C136_locating",
    "Metaf.Props.C136_no_position_partial",
    "Metaf.Props.C136_waiting",
    "Metaf.Props.C136_data",
    "Metaf.Props.C136_failed",
    "Metaf.Props.C136_order",
    "Metaf.Props.C136_requests",
    "Metaf.Props.C136_unreadable",
    "Metaf.Props.C136_violated"
   ],
   "note": "Violated: fetchAndParseXML catches its errors, so Promise.all is never rejected and the message on data which cannot be retrieved is never shown, whatever happens (C136_violated); if a request fails, also that for the names of the stations only, the page says for ever that it is retrieving data (C136_failed). All other parts are proved. The parser of XML and the distance are parameters; an invalid date header is left out."
  },
  {
   "property": "C137",
   "status": "proved",
   "theorems": [
    "Metaf.Props.C137_great_circle",
    "Metaf.Props.C137_metric",
    "Metaf.Props.C137_zero",
    "Metaf.Props.C137_farthest",
    "Metaf.Props.C137_turns",
    "Metaf.Props.C137_meridian",
    "Metaf.Props.C137_radius"
   ],
   "note": "With real numbers; the rounding of sine, cosine and arc cosine is left out. The page reckons with 1.1515 miles for a minute of latitude, 111.19 km for a degree."
  },
  {
   "property": "C138",
   "status": "partial",
   "theorems": [
    "Metaf.Props.C138_places",
    "Metaf.Props.C138_found",
    "Metaf.Props.C138_accepted",
    "Metaf.Props.C138_accepted_found",
    "Metaf.Props.C138_documented_partial",
    "Metaf.Props.C138_violated"
   ],
   "note": "Violated: the documentation of keywords says that RMK is recognised in the header; it never is (C138_violated). All else is proved, also for reports read without error alone."
  },
  {
   "property": "C139",
   "status": "proved",
   "theorems": [
    "Metaf.Props.C139_replaced",
    "Metaf.Props.C139_removed",
    "Metaf.Props.C139_unknown",
    "Metaf.Props.C139_remarks",
    "Metaf.Props.C139_first"
   ],
   "note": "In the body and for the remarks as a whole; a word inserted in the remarks is in C114. That a group does not go on over the ends is said with the texts written for groups (C70): it is needed, as `1/2SM` after `1` is another group than `1/2SM`."
  },
  {
   "property": "C14",
   "status": "proved",
   "theorems": [
    "Metaf.Props.C14_location_time",
    "Metaf.Props.C14_accepted"
   ],
   "note": ""
  },
  {
   "property": "C140",
   "status": "proved",
   "theorems": [
    "Metaf.Props.C140_humidity",
    "Metaf.Props.C140_heat_index",
    "Metaf.Props.C140_heat_index_dew_point",
    "Metaf.Props.C140_wind_chill",
    "Metaf.Props.C140_assumption"
   ],
   "note": "The tolerance 0.052 is half of the last digit and the rounding of the floating point arithmetic. Assumed of std::pow: within one part in 2^40 of the power, for a base from 1 to 4000 and an exponent from -6 to 6 (PowNear, shown to be satisfiable). The assumptions on std::pow in C28, C29 and C92 follow from it (C140_assumption)."
  },
  {
   "property": "C141",
   "status": "proved",
   "theorems": [
    "Metaf.Props.C141_heat_index_temperature",
    "Metaf.Props.C141_heat_index_humidity",
    "Metaf.Props.C141_heat_index_dew_point",
    "Metaf.Props.C141_heat_index_floor",
    "Metaf.Props.C141_wind_chill_below",
    "Metaf.Props.C141_wind_chill_temperature",
    "Metaf.Props.C141_wind_chill_wind"
   ],
   "note": "With the assumption on std::pow of C140 (that of C28 suffices for the dew point). Within 40..45 percent the heat index may be below the temperature: 28.9 C and 40 percent give 28.5 C, as the published formula does."
  },
  {
   "property": "C142",
   "status": "proved",
   "theorems": [
    "Metaf.Props.C142_felt",
    "Metaf.Props.C142_mild",
    "Metaf.Props.C142_cold",
    "Metaf.Props.C142_warm",
    "Metaf.Props.C142_reported"
   ],
   "note": "The tolerance of 1.11 is the dropped fraction and the rounding to tenths of a degree. The humidity which selects the heat index may be off by a hundredth of a percent (C140). With the assumption PowNear on std::pow (C140). A wind chill of -250 degrees Fahrenheit would need air colder than -60 degrees Celsius."
  },
  {
   "property": "C143",
   "status": "proved",
   "theorems": [
    "Metaf.Props.C143_replaced",
    "Metaf.Props.C143_removed",
    "Metaf.Props.C143_unknown"
   ],
   "note": "For the remarks what C139 says of the body. The words which the new remarks are divided into are described by the table of remarks of C72 and the division of C73, with the hour of the report as the reports own metadata says it."
  },
  {
   "property": "C144",
   "status": "proved",
   "theorems": [
    "Metaf.Props.C144_written",
    "Metaf.Props.C144_whole"
   ],
   "note": "The counterpart of C70 for remarks. The words of a remark are those of the table of C72. The flag that a remark could go on is cleared in the result (`settled`); for complete remarks the group is exactly the one written."
  },
  {
   "property": "C145",
   "status": "proved",
   "theorems": [
    "Metaf.Props.C145_header",
    "Metaf.Props.C145_hour",
    "Metaf.Props.C145_untyped",
    "Metaf.Props.C145_metadata"
   ],
   "note": "FullHeader and Opening are the headers of the specification of C84. The hour matters because times in remarks may be given in minutes only and because some precipitation remarks mean three or six hours depending on it."
  },
  {
   "property": "C146",
   "status": "proved",
   "theorems": [
    "Metaf.Props.C146_taf",
    "Metaf.Props.C146_changes",
    "Metaf.Props.C146_steady_changes"
   ],
   "note": "The counterpart of C112 for TAF reports. With the maintenance indicator in the remarks the TAF is refused as a whole (C111). The last two theorems show that the exceptions occur; whether they are intended is not documented in the code."
  },
  {
   "property": "C147",
   "status": "proved",
   "theorems": [
    "Metaf.Props.C147_metar",
    "Metaf.Props.C147_taf",
    "Metaf.Props.C147_forecast",
    "Metaf.Props.C147_group",
    "Metaf.Props.C147_word",
    "Metaf.Props.C147_order",
    "Metaf.Props.C147_taf_group",
    "Metaf.Props.C147_taf_word",
    "Metaf.Props.C147_taf_order"
   ],
   "note": "C147_order and C147_taf_order are about summaries which are computed, as all are by C92. Wind and temperature are one matter, as the temperature felt is computed with the wind written before it: an example shows that their order counts."
  },
  {
   "property": "C148",
   "status": "proved",
   "theorems": [
    "Metaf.Props.C148_page",
    "Metaf.Props.C148_removed",
    "Metaf.Props.C148_replaced",
    "Metaf.Props.C148_remarks",
    "Metaf.Props.C148_word",
    "Metaf.Props.C148_header"
   ],
   "note": "RowOf gives the text of a group and what the visitor says of it; what that is, is in C103 to C109. C148_header assumes PowTen as C92."
  },
  {
   "property": "C149",
   "status": "proved",
   "theorems": [
    "Metaf.Props.C149_said",
    "Metaf.Props.C149_pressure",
    "Metaf.Props.C149_trends_remarks",
    "Metaf.Props.C149_remarks"
   ],
   "note": "An end-to-end theorem from the words of a report to the numbers of its summary, for the usual order of groups. Pressure in inches is the subject of C97. What remarks without a trend before them can change is the subject of C112."
  },
  {
   "property": "C15",
   "status": "partial",
   "theorems": [
    "Metaf.Props.C15_metar_partial",
    "Metaf.Props.C15_first_span",
    "Metaf.Props.C15_taf",
    "Metaf.Props.C15_violated"
   ],
   "note": "The claim about METAR is false in the code (witness proved): a time span in the body of a METAR is copied to the metadata. The exact rule and the claim about TAF are proved."
  },
  {
   "property": "C150",
   "status": "proved",
   "theorems": [
    "Metaf.Props.C150_said"
   ],
   "note": "An end-to-end theorem from the words of a TAF to the numbers of the summary, for the usual order of groups. The highest and lowest temperatures forecast are not among these members."
  },
  {
   "property": "C151",
   "status": "proved",
   "theorems": [
    "Metaf.Props.C151_pair",
    "Metaf.Props.C151_single",
    "Metaf.Props.C151_time"
   ],
   "note": "End-to-end theorems from the words to the numbers of the summary. As in C94 the month is not checked to have that many days."
  },
  {
   "property": "C152",
   "status": "proved",
   "theorems": [
    "Metaf.Props.C152_group",
    "Metaf.Props.C152_row",
    "Metaf.Props.C152_hour_needed"
   ],
   "note": "Whether a text is recognised at all may depend on what stands before it, so this is among the hypotheses. A group with an empty text is what remains of a rejected remark."
  },
  {
   "property": "C153",
   "status": "proved",
   "theorems": [
    "Metaf.Props.C153_same",
    "Metaf.Props.C153_group",
    "Metaf.Props.C153_span"
   ],
   "note": ""
  },
  {
   "property": "C154",
   "status": "partial",
   "theorems": [
    "Metaf.Props.C154_partial",
    "Metaf.Props.C154_violated",
    "Metaf.Props.C154_near",
    "Metaf.Props.C154_whole",
    "Metaf.Props.C154_metar",
    "Metaf.Props.C154_taf",
    "Metaf.Props.C154_written"
   ],
   "note": "Does not hold: 55SM, a value which is to be reported according to FMH-1, gives 88514 metres, and 55 miles are 88513.92 metres. Proved: the value is always the whole part or one more; it is the whole part for all values of FMH-1 up to 50 miles; of whole numbers of miles exactly the fifteen given are shown one metre too great. In imperial units the whole number of miles is given."
  },
  {
   "property": "C155",
   "status": "proved",
   "theorems": [
    "Metaf.Props.C155_written_inches",
    "Metaf.Props.C155_written_hectopascals",
    "Metaf.Props.C155_metar_inches",
    "Metaf.Props.C155_metar_hectopascals",
    "Metaf.Props.C155_inches",
    "Metaf.Props.C155_hectopascals"
   ],
   "note": "With the arithmetic of IEEE 754. The range covers all pressures at sea level ever measured."
  },
  {
   "property": "C16",
   "status": "proved",
   "theorems": [
    "Metaf.Props.C16_type_detection",
    "Metaf.Props.C16_first_group"
   ],
   "note": ""
  },
  {
   "property": "C17",
   "status": "proved",
   "theorems": [
    "Metaf.Props.C17_error_freezes",
    "Metaf.Props.C17_error_freezes_text"
   ],
   "note": ""
  },
  {
   "property": "C18",
   "status": "proved",
   "theorems": [
    "Metaf.Props.C18_earlier_groups_kept"
   ],
   "note": ""
  },
  {
   "property": "C19",
   "status": "proved",
   "theorems": [
    "Metaf.Props.C19_priority"
   ],
   "note": ""
  },
  {
   "property": "C20",
   "status": "proved",
   "theorems": [
    "Metaf.Props.C20_not_absorbed",
    "Metaf.Props.C20_own_group",
    "Metaf.Props.C20_first_word"
   ],
   "note": ""
  },
  {
   "property": "C21",
   "status": "proved",
   "theorems": [
    "Metaf.Props.C21_empty_not_absorbed",
    "Metaf.Props.C21_no_trailing_blank"
   ],
   "note": ""
  },
  {
   "property": "C22",
   "status": "proved",
   "theorems": [
    "Metaf.Props.C22_number",
    "Metaf.Props.C22_number_exact",
    "Metaf.Props.C22_digits",
    "Metaf.Props.C22_decimal_unique"
   ],
   "note": ""
  },
  {
   "property": "C23",
   "status": "proved",
   "theorems": [
    "Metaf.Props.C23_fraction"
   ],
   "note": ""
  },
  {
   "property": "C24",
   "status": "proved",
   "theorems": [
    "Metaf.Props.C24_runway",
    "Metaf.Props.C24_valid",
    "Metaf.Props.C24_codes"
   ],
   "note": ""
  },
  {
   "property": "C25",
   "status": "proved",
   "theorems": [
    "Metaf.Props.C25_ddhhmm",
    "Metaf.Props.C25_ddhh",
    "Metaf.Props.C25_valid",
    "Metaf.Props.C25_round_trip"
   ],
   "note": ""
  },
  {
   "property": "C26",
   "status": "partial",
   "theorems": [
    "Metaf.Props.C26_date_partial",
    "Metaf.Props.C26_no_day",
    "Metaf.Props.C26_exists",
    "Metaf.Props.C26_violated"
   ],
   "note": "The claim is false in the code (witness proved): a date such as 31 February is produced. Everything else is proved: the day is kept, the result is not after the reference date and in the same or the previous month."
  },
  {
   "property": "C27",
   "status": "proved",
   "theorems": [
    "Metaf.Props.C27_two_digits",
    "Metaf.Props.C27_remark",
    "Metaf.Props.C27_value"
   ],
   "note": ""
  },
  {
   "property": "C28",
   "status": "proved",
   "theorems": [
    "Metaf.Props.C28_available",
    "Metaf.Props.C28_range",
    "Metaf.Props.C28_mono",
    "Metaf.Props.C28_strict",
    "Metaf.Props.C28_saturated",
    "Metaf.Props.powTen_ieee"
   ],
   "note": "For temperatures within -100..100 C and IEEE rounding. What is needed of std::pow is the hypothesis PowTen, which powTen_ieee shows can be met."
  },
  {
   "property": "C29",
   "status": "proved",
   "theorems": [
    "Metaf.Props.C29_heat_index",
    "Metaf.Props.C29_heat_index_dew_point",
    "Metaf.Props.C29_wind_chill",
    "Metaf.Props.C29_speeds"
   ],
   "note": "For temperatures within -100..100 C and IEEE rounding."
  },
  {
   "property": "C30",
   "status": "proved",
   "theorems": [
    "Metaf.Props.C30_speed",
    "Metaf.Props.C30_unit"
   ],
   "note": ""
  },
  {
   "property": "C31",
   "status": "proved",
   "theorems": [
    "Metaf.Props.C31_speed_own",
    "Metaf.Props.C31_speed_value",
    "Metaf.Props.C31_speed_order",
    "Metaf.Props.C31_speed_back",
    "Metaf.Props.C31_distance_own",
    "Metaf.Props.C31_distance_value",
    "Metaf.Props.C31_distance_order",
    "Metaf.Props.C31_distance_back",
    "Metaf.Props.C31_pressure_own",
    "Metaf.Props.C31_pressure_value",
    "Metaf.Props.C31_pressure_order",
    "Metaf.Props.C31_pressure_back",
    "Metaf.Props.C31_precipitation_own",
    "Metaf.Props.C31_precipitation_value",
    "Metaf.Props.C31_precipitation_order",
    "Metaf.Props.C31_precipitation_back",
    "Metaf.Props.C31_wave_height",
    "Metaf.Props.C31_wave_height_order",
    "Metaf.Props.C31_temperature_own",
    "Metaf.Props.C31_temperature_value",
    "Metaf.Props.C31_temperature_order"
   ],
   "note": "The stated tolerance is 2 parts in 100000 per conversion."
  },
  {
   "property": "C32",
   "status": "proved",
   "theorems": [
    "Metaf.Props.C32_miles",
    "Metaf.Props.C32_miles_remark",
    "Metaf.Props.C32_exact",
    "Metaf.Props.C32_truncated",
    "Metaf.Props.C32_sum",
    "Metaf.Props.C32_sum_only"
   ],
   "note": ""
  },
  {
   "property": "C33",
   "status": "proved",
   "theorems": [
    "Metaf.Props.C33_reportable",
    "Metaf.Props.C33_available",
    "Metaf.Props.C33_mono",
    "Metaf.Props.C33_not_above",
    "Metaf.Props.C33_round_trip"
   ],
   "note": "Above 200 miles the error of the float grows; the distances of every report are at most that (C135)."
  },
  {
   "property": "C34",
   "status": "proved",
   "theorems": [
    "Metaf.Props.C34_nearest",
    "Metaf.Props.C34_exact",
    "Metaf.Props.C34_other"
   ],
   "note": ""
  },
  {
   "property": "C35",
   "status": "partial",
   "theorems": [
    "Metaf.Props.C35_sector_partial",
    "Metaf.Props.C35_other_partial",
    "Metaf.Props.C35_unknown_partial",
    "Metaf.Props.C35_ends",
    "Metaf.Props.C35_violated"
   ],
   "note": "The claim is false in the code for arguments a user can construct (witness proved): the enumeration does not end exactly when one end of the sector is UNKNOWN and the other one has a value within 0..360 degrees (C35_ends). The other theorems cover every other pair of arguments."
  },
  {
   "property": "C36",
   "status": "proved",
   "theorems": [
    "Metaf.Props.C36_pressure",
    "Metaf.Props.C36_forecast",
    "Metaf.Props.C36_slp",
    "Metaf.Props.C36_qfe",
    "Metaf.Props.C36_tendency",
    "Metaf.Props.C36_inHg_value",
    "Metaf.Props.C36_slp_value",
    "Metaf.Props.C36_distinct",
    "Metaf.Props.C36_tendency_value"
   ],
   "note": ""
  },
  {
   "property": "C37",
   "status": "proved",
   "theorems": [
    "Metaf.Props.C37_deposits",
    "Metaf.Props.C37_deposits_mono",
    "Metaf.Props.C37_rainfall",
    "Metaf.Props.C37_rain_value",
    "Metaf.Props.C37_remark",
    "Metaf.Props.C37_remark_value",
    "Metaf.Props.C37_snincr"
   ],
   "note": ""
  },
  {
   "property": "C38",
   "status": "proved",
   "theorems": [
    "Metaf.Props.C38_friction",
    "Metaf.Props.C38_action_code",
    "Metaf.Props.C38_action_mono",
    "Metaf.Props.C38_coefficient"
   ],
   "note": ""
  },
  {
   "property": "C39",
   "status": "proved",
   "theorems": [
    "Metaf.Props.C39_wave_height",
    "Metaf.Props.C39_state_digit",
    "Metaf.Props.C39_state_mono"
   ],
   "note": ""
  },
  {
   "property": "C40",
   "status": "proved",
   "theorems": [
    "Metaf.Props.C40_lossless",
    "Metaf.Props.C40_constructors",
    "Metaf.Props.C40_cut"
   ],
   "note": ""
  },
  {
   "property": "C41",
   "status": "proved",
   "theorems": [
    "Metaf.Props.C41_weather",
    "Metaf.Props.C41_accepted",
    "Metaf.Props.C41_valid",
    "Metaf.Props.C41_unique"
   ],
   "note": ""
  },
  {
   "property": "C42",
   "status": "proved",
   "theorems": [
    "Metaf.Props.C42_events",
    "Metaf.Props.C42_event_fields",
    "Metaf.Props.C42_parse",
    "Metaf.Props.C42_remark",
    "Metaf.Props.C42_append",
    "Metaf.Props.C42_words",
    "Metaf.Props.C42_unchanged",
    "Metaf.Props.C42_limit",
    "Metaf.Props.C42_recent"
   ],
   "note": "Everything the weather group recognises, every step of appending, and the limit over all histories."
  },
  {
   "property": "C43",
   "status": "proved",
   "theorems": [
    "Metaf.Props.C43_type",
    "Metaf.Props.C43_parse",
    "Metaf.Props.C43_all",
    "Metaf.Props.C43_elsewhere",
    "Metaf.Props.C43_append",
    "Metaf.Props.C43_count",
    "Metaf.Props.C43_valid"
   ],
   "note": "Everything the cloud types group recognises, every step of appending, and the count over all histories."
  },
  {
   "property": "C44",
   "status": "proved",
   "theorems": [
    "Metaf.Props.C44_parse",
    "Metaf.Props.C44_ordered",
    "Metaf.Props.C44_not_above",
    "Metaf.Props.C44_labelled",
    "Metaf.Props.C44_other",
    "Metaf.Props.C44_complete",
    "Metaf.Props.C44_valid",
    "Metaf.Props.C44_observed",
    "Metaf.Props.C44_six_hourly"
   ],
   "note": ""
  },
  {
   "property": "C45",
   "status": "proved",
   "theorems": [
    "Metaf.Props.C45_parse",
    "Metaf.Props.C45_times",
    "Metaf.Props.C45_type",
    "Metaf.Props.C45_append"
   ],
   "note": ""
  },
  {
   "property": "C46",
   "status": "proved",
   "theorems": [
    "Metaf.Props.C46_wind",
    "Metaf.Props.C46_unique",
    "Metaf.Props.C46_sector",
    "Metaf.Props.C46_degrees",
    "Metaf.Props.C46_degrees_valid"
   ],
   "note": "All surface-wind and wind-shear texts for every report part; the varying-sector group; direction values and their validity."
  },
  {
   "property": "C47",
   "status": "proved",
   "theorems": [
    "Metaf.Props.C47_metar",
    "Metaf.Props.C47_taf",
    "Metaf.Props.C47_visibility_meters",
    "Metaf.Props.C47_runway_visual_range",
    "Metaf.Props.C47_fraction",
    "Metaf.Props.C47_fraction_needed",
    "Metaf.Props.C47_remark",
    "Metaf.Props.C47_elsewhere",
    "Metaf.Props.C47_meters",
    "Metaf.Props.C47_kilometers",
    "Metaf.Props.C47_rvr",
    "Metaf.Props.C47_cardinal"
   ],
   "note": "Everything the visibility group recognises in each part of a report, and with which components."
  },
  {
   "property": "C48",
   "status": "proved",
   "theorems": [
    "Metaf.Props.C48_cloud",
    "Metaf.Props.C48_remark",
    "Metaf.Props.C48_ceiling",
    "Metaf.Props.C48_variable",
    "Metaf.Props.C48_obscuration",
    "Metaf.Props.C48_where",
    "Metaf.Props.C48_place",
    "Metaf.Props.C48_okta",
    "Metaf.Props.C48_height",
    "Metaf.Props.C48_layer"
   ],
   "note": "Everything the cloud group recognises in each part of a report, the groups that follow it in remarks, and the okta values of every group so built."
  },
  {
   "property": "C49",
   "status": "proved",
   "theorems": [
    "Metaf.Props.C49_location",
    "Metaf.Props.C49_time",
    "Metaf.Props.C49_time_valid"
   ],
   "note": ""
  },
  {
   "property": "C50",
   "status": "proved",
   "theorems": [
    "Metaf.Props.C50_dispatch",
    "Metaf.Props.C50_total",
    "Metaf.Props.C50_in_order"
   ],
   "note": ""
  },
  {
   "property": "C51",
   "status": "proved",
   "theorems": [
    "Metaf.Props.C51_body",
    "Metaf.Props.C51_remark",
    "Metaf.Props.C51_elsewhere",
    "Metaf.Props.C51_missing",
    "Metaf.Props.C51_complete",
    "Metaf.Props.C51_valid",
    "Metaf.Props.C51_valid_remark"
   ],
   "note": "Everything the temperature group recognises, the MISG note, and validity."
  },
  {
   "property": "C52",
   "status": "proved",
   "theorems": [
    "Metaf.Props.C52_body",
    "Metaf.Props.C52_forecast",
    "Metaf.Props.C52_remark",
    "Metaf.Props.C52_elsewhere",
    "Metaf.Props.C52_append",
    "Metaf.Props.C52_complete"
   ],
   "note": "Everything the pressure group recognises in each part of a report, and every append."
  },
  {
   "property": "C53",
   "status": "proved",
   "theorems": [
    "Metaf.Props.C53_tendency",
    "Metaf.Props.C53_elsewhere",
    "Metaf.Props.C53_append",
    "Metaf.Props.C53_trend"
   ],
   "note": "Everything the pressure tendency group recognises, and the trend by code."
  },
  {
   "property": "C54",
   "status": "proved",
   "theorems": [
    "Metaf.Props.C54_state",
    "Metaf.Props.C54_elsewhere",
    "Metaf.Props.C54_append",
    "Metaf.Props.C54_valid"
   ],
   "note": "Everything the runway state group recognises, and validity."
  },
  {
   "property": "C55",
   "status": "proved",
   "theorems": [
    "Metaf.Props.C55_sea_surface",
    "Metaf.Props.C55_elsewhere",
    "Metaf.Props.C55_append"
   ],
   "note": "Everything the sea surface group recognises."
  },
  {
   "property": "C56",
   "status": "proved",
   "theorems": [
    "Metaf.Props.C56_remark",
    "Metaf.Props.C56_amount",
    "Metaf.Props.C56_rainfall",
    "Metaf.Props.C56_elsewhere",
    "Metaf.Props.C56_append",
    "Metaf.Props.C56_append_once",
    "Metaf.Props.C56_valid"
   ],
   "note": "Everything the precipitation group recognises and takes, for every report time, under any rounding of floating point numbers within the IEEE bounds."
  },
  {
   "property": "C57",
   "status": "proved",
   "theorems": [
    "Metaf.Props.C57_layer",
    "Metaf.Props.C57_elsewhere",
    "Metaf.Props.C57_append",
    "Metaf.Props.C57_base_below_top"
   ],
   "note": "Everything the layer forecast group recognises."
  },
  {
   "property": "C58",
   "status": "proved",
   "theorems": [
    "Metaf.Props.C58_clouds",
    "Metaf.Props.C58_elsewhere",
    "Metaf.Props.C58_append",
    "Metaf.Props.C58_valid"
   ],
   "note": "Everything the group recognises, and validity."
  },
  {
   "property": "C59",
   "status": "proved",
   "theorems": [
    "Metaf.Props.C59_sector",
    "Metaf.Props.C59_accepts",
    "Metaf.Props.C59_covered"
   ],
   "note": "Octants in the middle of the text are checked for their spelling only; they need not lie between the ends."
  },
  {
   "property": "C60",
   "status": "proved",
   "theorems": [
    "Metaf.Props.C60_history",
    "Metaf.Props.C60_remark",
    "Metaf.Props.C60_rejected",
    "Metaf.Props.C60_directions",
    "Metaf.Props.C60_valid"
   ],
   "note": "Codes after the sixth are ignored by the code, and so is their spelling; stated as such."
  },
  {
   "property": "C61",
   "status": "proved",
   "theorems": [
    "Metaf.Props.C61_history",
    "Metaf.Props.C61_remark",
    "Metaf.Props.C61_rejected",
    "Metaf.Props.C61_complete",
    "Metaf.Props.C61_directions"
   ],
   "note": ""
  },
  {
   "property": "C62",
   "status": "proved",
   "theorems": [
    "Metaf.Props.C62_history",
    "Metaf.Props.C62_rejected",
    "Metaf.Props.C62_density",
    "Metaf.Props.C62_hail"
   ],
   "note": "The value of density altitude is rounded to float above 2^24 feet and reduced modulo 2^32 as in the code. Whole inches of hail (GR 1) without quarters are an incomplete group and therefore invalid: stated as such."
  },
  {
   "property": "C63",
   "status": "proved",
   "theorems": [
    "Metaf.Props.C63_history",
    "Metaf.Props.C63_rejected",
    "Metaf.Props.C63_valid_wind",
    "Metaf.Props.C63_valid"
   ],
   "note": "A wind speed of 999 without gusts is reported as invalid by the code; the theorem states this."
  },
  {
   "property": "C64",
   "status": "proved",
   "theorems": [
    "Metaf.Props.C64_history",
    "Metaf.Props.C64_rejected",
    "Metaf.Props.C64_valid"
   ],
   "note": "A distance in metres after a direction is not accepted, and a lone fraction or metres after VIS is discarded unless a runway follows; the theorems state this."
  },
  {
   "property": "C65",
   "status": "proved",
   "theorems": [
    "Metaf.Props.C65_reparse",
    "Metaf.Props.C65_raw_strings_determine"
   ],
   "note": ""
  },
  {
   "property": "C66",
   "status": "proved",
   "theorems": [
    "Metaf.Props.C66_one_kind",
    "Metaf.Props.C66_ambiguous",
    "Metaf.Props.C66_order_free",
    "Metaf.Props.C66_unknown",
    "Metaf.Props.C66_second_try",
    "Metaf.Props.C66_second_unknown"
   ],
   "note": ""
  },
  {
   "property": "C67",
   "status": "proved",
   "theorems": [
    "Metaf.Props.C67_other_kind",
    "Metaf.Props.C67_unchanged",
    "Metaf.Props.C67_unfinished"
   ],
   "note": "The same kind is necessary but not sufficient; a word of the same kind may still begin a new group."
  },
  {
   "property": "C68",
   "status": "proved",
   "theorems": [
    "Metaf.Props.C68_cut_exists",
    "Metaf.Props.C68_body",
    "Metaf.Props.C68_remarks"
   ],
   "note": "Reports without a report type, bodies containing NIL or CNL, and the division of the remarks into groups are not covered by this claim."
  },
  {
   "property": "C69",
   "status": "proved",
   "theorems": [
    "Metaf.Props.C69_written",
    "Metaf.Props.C69_unique",
    "Metaf.Props.C69_exists",
    "Metaf.Props.C69_division_unique",
    "Metaf.Props.C69_body",
    "Metaf.Props.C69_remarks"
   ],
   "note": "Reports without a report type and bodies containing NIL or CNL are not covered by C69_body and C69_remarks."
  },
  {
   "property": "C70",
   "status": "proved",
   "theorems": [
    "Metaf.Props.C70_groups",
    "Metaf.Props.C70_layout",
    "Metaf.Props.C70_report",
    "Metaf.Props.C70_remarks"
   ],
   "note": "Unfinished groups (WS, WS ALL, a whole number of miles) and the words that end a body (NIL, CNL, RMK, the maintenance indicator) are excluded from the groups of the body."
  },
  {
   "property": "C71",
   "status": "proved",
   "theorems": [
    "Metaf.Props.C71_valid"
   ],
   "note": "Groups of the header and of remarks are not covered."
  },
  {
   "property": "C72",
   "status": "proved",
   "theorems": [
    "Metaf.Props.C72_clouds",
    "Metaf.Props.C72_clouds_rejected",
    "Metaf.Props.C72_remark",
    "Metaf.Props.C72_unique",
    "Metaf.Props.C72_continues",
    "Metaf.Props.C72_rejected"
   ],
   "note": ""
  },
  {
   "property": "C73",
   "status": "proved",
   "theorems": [
    "Metaf.Props.C73_exists",
    "Metaf.Props.C73_unique",
    "Metaf.Props.C73_report"
   ],
   "note": ""
  },
  {
   "property": "C74",
   "status": "proved",
   "theorems": [
    "Metaf.Props.C74_remark",
    "Metaf.Props.C74_header",
    "Metaf.Props.C74_body",
    "Metaf.Props.C74_report"
   ],
   "note": ""
  },
  {
   "property": "C75",
   "status": "proved",
   "theorems": [
    "Metaf.Props.C75_said",
    "Metaf.Props.C75_header",
    "Metaf.Props.C75_valid"
   ],
   "note": ""
  },
  {
   "property": "C76",
   "status": "proved",
   "theorems": [
    "Metaf.Props.C76_visibility",
    "Metaf.Props.C76_values"
   ],
   "note": "The documentation says that sectorDirections() always returns an empty vector; for the types named it does not."
  },
  {
   "property": "C77",
   "status": "proved",
   "theorems": [
    "Metaf.Props.C77_clouds",
    "Metaf.Props.C77_values"
   ],
   "note": ""
  },
  {
   "property": "C78",
   "status": "proved",
   "theorems": [
    "Metaf.Props.C78_wind"
   ],
   "note": ""
  },
  {
   "property": "C79",
   "status": "proved",
   "theorems": [
    "Metaf.Props.C79_trend"
   ],
   "note": ""
  },
  {
   "property": "C80",
   "status": "proved",
   "theorems": [
    "Metaf.Props.C80_weather"
   ],
   "note": ""
  },
  {
   "property": "C81",
   "status": "proved",
   "theorems": [
    "Metaf.Props.C81_temperature",
    "Metaf.Props.C81_pressure",
    "Metaf.Props.C81_seaSurface",
    "Metaf.Props.C81_minMax"
   ],
   "note": ""
  },
  {
   "property": "C82",
   "status": "proved",
   "theorems": [
    "Metaf.Props.C82_precipitation",
    "Metaf.Props.C82_runwayState",
    "Metaf.Props.C82_layerForecast",
    "Metaf.Props.C82_tendency"
   ],
   "note": "The documentation says that recent() is only for SNOW_INCREASING_RAPIDLY; it also is given for RAINFALL_9AM_10MIN."
  },
  {
   "property": "C83",
   "status": "proved",
   "theorems": [
    "Metaf.Props.C83_cloudTypes",
    "Metaf.Props.C83_cloudCodes",
    "Metaf.Props.C83_lightning",
    "Metaf.Props.C83_vicinity",
    "Metaf.Props.C83_misc"
   ],
   "note": ""
  },
  {
   "property": "C84",
   "status": "proved",
   "theorems": [
    "Metaf.Props.C84_outcome",
    "Metaf.Props.C84_exists",
    "Metaf.Props.C84_unique",
    "Metaf.Props.C84_meaning_unique"
   ],
   "note": "With the limit 3 a report without type ends with its third word still taken for a part of the header; the specification has this as a case of its own."
  },
  {
   "property": "C85",
   "status": "proved",
   "theorems": [
    "Metaf.Props.C85_record",
    "Metaf.Props.C85_result"
   ],
   "note": ""
  },
  {
   "property": "C86",
   "status": "proved",
   "theorems": [
    "Metaf.Props.C86_accepted"
   ],
   "note": ""
  },
  {
   "property": "C87",
   "status": "proved",
   "theorems": [
    "Metaf.Props.C87_metar"
   ],
   "note": "The summary program is modelled from lines 14 to 700; the Embind bindings after it are not."
  },
  {
   "property": "C88",
   "status": "proved",
   "theorems": [
    "Metaf.Props.C88_taf",
    "Metaf.Props.C88_high_low",
    "Metaf.Props.C88_no_high_low"
   ],
   "note": "Any wind group counts, also wind shear; only the last group with temperatures counts, so the report with several pairs is summarised by the last pair."
  },
  {
   "property": "C89",
   "status": "partial",
   "theorems": [
    "Metaf.Props.C89_sky_partial",
    "Metaf.Props.C89_sky_taf_partial",
    "Metaf.Props.C89_exact",
    "Metaf.Props.C89_exact_taf",
    "Metaf.Props.C89_fails_iff",
    "Metaf.Props.C89_violated"
   ],
   "note": "The code violates it: the condition on the previous cover for few and scattered layers always holds, so BKN010 SCT020 gives MOSTLY_CLEAR. C89_violated is the witness; the partial theorems hold when no few or scattered layer follows a broken or overcast one. C89_exact says what it is for every report, C89_fails_iff exactly when the claim fails."
  },
  {
   "property": "C90",
   "status": "proved",
   "theorems": [
    "Metaf.Props.C90_codes",
    "Metaf.Props.C90_ice_pellets",
    "Metaf.Props.C90_inverse"
   ],
   "note": ""
  },
  {
   "property": "C91",
   "status": "proved",
   "theorems": [
    "Metaf.Props.C91_metar",
    "Metaf.Props.C91_no_metar",
    "Metaf.Props.C91_no_taf",
    "Metaf.Props.C91_nothing",
    "Metaf.Props.C91_high_low",
    "Metaf.Props.C91_trend"
   ],
   "note": ""
  },
  {
   "property": "C92",
   "status": "proved",
   "theorems": [
    "Metaf.Props.C92_total"
   ],
   "note": "Assumes of std::pow that powers of ten grow and stay within 1e-8 to 1e8 on the range used (PowTen), and that the power used for wind chill of a speed from 1 to 4000 is at most 4000; both shown for the concrete arithmetic."
  },
  {
   "property": "C93",
   "status": "proved",
   "theorems": [
    "Metaf.Props.C93_units",
    "Metaf.Props.C93_reported"
   ],
   "note": "C93_reported assumes PowTen as C92."
  },
  {
   "property": "C94",
   "status": "proved",
   "theorems": [
    "Metaf.Props.C94_metar",
    "Metaf.Props.C94_taf"
   ],
   "note": "The date may not exist (31 February), as in C26."
  },
  {
   "property": "C95",
   "status": "proved",
   "theorems": [
    "Metaf.Props.C95_metar",
    "Metaf.Props.C95_taf",
    "Metaf.Props.C95_high_low"
   ],
   "note": "Not claimed of the temperature felt. C95_metar assumes PowTen as C92."
  },
  {
   "property": "C96",
   "status": "proved",
   "theorems": [
    "Metaf.Props.C96_celsius",
    "Metaf.Props.C96_fahrenheit",
    "Metaf.Props.C96_speed",
    "Metaf.Props.C96_metres",
    "Metaf.Props.C96_miles",
    "Metaf.Props.C96_metres_to_miles",
    "Metaf.Props.C96_metar",
    "Metaf.Props.C96_taf",
    "Metaf.Props.C96_high_low"
   ],
   "note": ""
  },
  {
   "property": "C97",
   "status": "partial",
   "theorems": [
    "Metaf.Props.C97_hectopascals",
    "Metaf.Props.C97_inches_partial",
    "Metaf.Props.C97_exact",
    "Metaf.Props.C97_violated"
   ],
   "note": "The code violates it: A2993 gives 2992 in imperial units, since the product 29.93 * 100 is cut and not rounded (C97_violated). Proved: the value is the number written or the one before; C97_exact lists, with the arithmetic of IEEE 754, the pressures from 27 to 32 inches given wrong."
  },
  {
   "property": "C98",
   "status": "partial",
   "theorems": [
    "Metaf.Props.C98_total_partial",
    "Metaf.Props.C98_stray",
    "Metaf.Props.C98_violated"
   ],
   "note": "The code violates it: the text of a variable runway visual range reads the runway, which is empty for R///////V0800 (C98_violated). C98_total_partial: all other texts are explained. C98_stray: exactly those texts fail, and only in this way. Assumes PowTen as C92."
  },
  {
   "property": "C99",
   "status": "proved",
   "theorems": [
    "Metaf.Props.C99_page",
    "Metaf.Props.C99_history"
   ],
   "note": ""
  }
 ]
}