import Verif.Spec.Explanation

/-!
Specification of the words in which the page explains the codes of a report: for every code of the tables of
the standards which the library knows, the lines of its explanation.
-/

namespace Metaf.Spec

open Metaf

/-- The line which says that something is wrong with a group. -/
def doubtful : Str := c!"Data in this group may be errorneous, incomplete or inconsistent"

/-- Every code of one table with the lines made from its meaning. -/
def coded (codes : List (Str × Str)) (before after : Str) (lines : Str → List Str) : List (Str × List Str) :=
  codes.map fun (c, t) => (before ++ c ++ after, lines t)

/-! ### The header -/

/-- The words of the header. -/
def headerWords : List (Str × List Str) := [
  (c!"METAR", [c!"Report type: METAR (weather observation report)"]),
  (c!"SPECI",
    [c!"Report type: unscheduled METAR (weather observation report)",
     c!"Unscheduled report is issued due to sudden changes in weather conditions: wind shift, \
      visibility decrease, severe weather, clouds formed or dissipated, etc."]),
  (c!"TAF", [c!"Report type: TAF (terminal aerodrome forecast)"]),
  (c!"AMD", [c!"Amended report"]),
  (c!"COR", [c!"Correctional report"]),
  (c!"NIL", [c!"Missing report"]),
  (c!"CNL", [c!"Cancelled report"])]

/-! ### The body -/

/-- The words which are the same in observations and forecasts. -/
def bodyWords : List (Str × List Str) := [
  (c!"CAVOK",
    [c!"Ceiling and visibility OK",
     c!"Visibility 10 km or more in all directions, no cloud below 5000 feet (1500 meters), no \
      cumulonimbus or towering cumulus clouds, no significant weather phenomena"]),
  (c!"BECMG", [c!"Weather conditions are expected to gradually change as follows"]),
  (c!"TEMPO", [c!"The following temporary weather conditions may arise  for less than 60 minutes"]),
  (c!"INTER", [c!"The following temporary weather conditions may arise for less than 30 minutes"]),
  (c!"NSW", [c!"Nil significant weather", c!"Indicates end of significant weather phenomena"])]

/-- The words of observations only. -/
def observationWords : List (Str × List Str) := [
  (c!"AUTO", [c!"Fully automated report with no human intervention or oversight"]),
  (c!"COR", [c!"Correctional report"]),
  (c!"CCA", [c!"This report is the corrected weather observation, correction number is 1"]),
  (c!"CCB", [c!"This report is the corrected weather observation, correction number is 2"]),
  (c!"NOSIG", [c!"No significant weather changes expected"]),
  (c!"$", [c!"Automated station requires maintenance"]),
  (c!"WS ALL RWY",
    [c!"Wind shear significant to aircraft operations is present along the take-off path or approach \
      path between runway level and 500 metres (1 600 ft) at all runways"]),
  (c!"WS R99",
    [c!"Wind shear significant to aircraft operations is present along the take-off path or approach \
      path between runway level and 500 metres (1 600 ft) at same runway (repetition of last \
      message)"]),
  (c!"SNOCLO", [c!"State of all runways:", c!"Aerodrome closed due to snow accumulation"]),
  (c!"R/SNOCLO", [c!"State of all runways:", c!"Aerodrome closed due to snow accumulation"])]

/-- The words of forecasts only. -/
def forecastWords : List (Str × List Str) := [
  (c!"PROB30",
    [doubtful,
     c!"The weather conditions probability is as follows",
     c!"Trend probability is 30 percent"]),
  (c!"PROB40",
    [doubtful,
     c!"The weather conditions probability is as follows",
     c!"Trend probability is 40 percent"]),
  (c!"PROB30 TEMPO",
    [c!"The following temporary weather conditions may arise  for less than 60 minutes",
     c!"Trend probability is 30 percent"]),
  (c!"PROB40 TEMPO",
    [c!"The following temporary weather conditions may arise  for less than 60 minutes",
     c!"Trend probability is 40 percent"]),
  (c!"PROB30 INTER",
    [c!"The following temporary weather conditions may arise for less than 30 minutes",
     c!"Trend probability is 30 percent"]),
  (c!"WSCONDS",
    [c!"Potential wind shear conditions are present but there's not enough information to reliably \
      forecast height, direction and speed of wind shear"]),
  (c!"FN20001",
    [c!"Report issuer identifier is 20001",
     c!"This forecast is issued at The Fleet Weather Center Norfolk, VA."]),
  (c!"FS30091",
    [c!"Report issuer identifier is 30091",
     c!"This forecast is issued at The Fleet Weather Center San Diego, CA (FS)."])]

/-- Winds without numbers. -/
def windWords : List (Str × List Str) := [
  (c!"00000KT", [c!"No wind"]),
  (c!"/////KT", [c!"Surface wind", c!"Wind direction: not reported", c!"Wind speed: not reported"]),
  (c!"VRB//KT", [c!"Surface wind", c!"Wind direction: variable", c!"Wind speed: not reported"])]

/-- The state of the sky without numbers. -/
def skyWords : List (Str × List Str) := [
  (c!"NSC",
    [c!"No significant cloud: no cloud below 5000 feet (1500 meters), no cumulonimbus or towering \
      cumulus clouds, no vertical visibility restriction"]),
  (c!"NCD",
    [c!"No cloud detected: automated weather station did not detect any clouds; this can happen due to \
      either no clouds present or sensor error"]),
  (c!"CLR",
    [c!"Clear sky: no cloud layers are detected at or below 12000 feet (3700 meters) (US) or 25000 \
      feet (7600 meters) (Canada); indicates that station is at least partly automated"]),
  (c!"SKC",
    [c!"Clear sky: In North America indicates report producted by human rather than automatic weather \
      station"]),
  (c!"VV///", [c!"Sky is obscured, vertical visibility is not reported"])]

/-- Cloud amounts. -/
def amounts : List (Str × Str) := [
  (c!"FEW", c!"Few clouds (1/8 to 2/8 sky covered)"),
  (c!"SCT", c!"Scattered clouds (3/8 to 4/8 sky covered)"),
  (c!"BKN", c!"Broken clouds (5/8 to 7/8 sky covered)"),
  (c!"OVC", c!"Overcast (8/8 sky covered)"),
  (c!"///", c!"Cloud amount not reported")]

/-- Convective clouds. -/
def convective : List (Str × Str) := [
  (c!"CB", c!"cumulonimbus"),
  (c!"TCU", c!"towering cumulus"),
  (c!"///", c!"not reported")]

/-- Cloud layers of which the height is not reported. -/
def cloudWords : List (Str × List Str) :=
  coded (amounts.take 4) [] c!"///" (fun t => [c!"Cloud layer", t, c!"Base height not reported"]) ++
  amounts.flatMap fun (a, t) => coded (convective.take 2) (a ++ c!"///") [] fun k =>
    [c!"Cloud layer", t, c!"Base height not reported", c!"Convective type: " ++ k]

/-- The directions of the compass. -/
def compass : List (Str × Str) := [
  (c!"N", c!"north"),
  (c!"NE", c!"northeast"),
  (c!"E", c!"east"),
  (c!"SE", c!"southeast"),
  (c!"S", c!"south"),
  (c!"SW", c!"southwest"),
  (c!"W", c!"west"),
  (c!"NW", c!"northwest")]

/-- Visibility of ten kilometers or more. -/
def farMeters : Str := c!"&gt;10000 meters (6 statute miles / 32808 feet)"

/-- Visibility of nothing. -/
def noMeters : Str := c!"0 meters (0 statute miles / 0 feet)"

/-- Visibility. -/
def visibilityWords : List (Str × List Str) := [
  (c!"9999", [c!"Prevailing visibility is " ++ farMeters]),
  (c!"0000", [c!"Prevailing visibility is " ++ noMeters]),
  (c!"////", [c!"Prevailing visibility is not reported"]),
  (c!"////SM", [c!"Prevailing visibility is not reported"]),
  (c!"P6SM", [c!"Prevailing visibility is &gt;6 statute miles (9656 meters / 31680 feet)"]),
  (c!"M1/4SM", [c!"Prevailing visibility is &lt;1/4 statute miles (402 meters / 1320 feet)"]),
  (c!"9999NDV", [c!"Prevailing visibility is " ++ farMeters,
    c!"This station cannot differentiate the directional variation of visibility"])] ++
  coded compass c!"9999" [] fun t => [c!"Directional visibility toward " ++ t ++ c!" is " ++ farMeters]

/-- Runways. -/
def runways : List (Str × Str) := [
  (c!"01", c!"runway 01"),
  (c!"01L", c!"runway 01 LEFT"),
  (c!"01C", c!"runway 01 CENTER"),
  (c!"01R", c!"runway 01 RIGHT"),
  (c!"88", c!"all runways"),
  (c!"99", c!"same runway (repetition of last message)")]

/-- Runway visual range. -/
def rangeWords : List (Str × List Str) :=
  coded runways c!"R" c!"/////" (fun t => [c!"Runway visual range for " ++ t ++ c!" is not reported"]) ++
  coded [(c!"U", c!"upward"), (c!"D", c!"downward"), (c!"N", c!"neutral")] c!"R01/0000" [] (fun t =>
    [c!"Runway visual range for runway 01 is " ++ noMeters ++ c!", and the trend is " ++ t])

/-- The phenomena for which the intensity is reported, each with its words and the descriptors it is
reported with. -/
def precipitations : List (Str × Str × List Str) := [
  (c!"DZ", c!"drizzle ", [c!"TS", c!"FZ"]),
  (c!"RA", c!"rain ", [c!"SH", c!"TS", c!"FZ"]),
  (c!"SN", c!"snow ", [c!"SH", c!"TS"]),
  (c!"SG", c!"snow grains ", [c!"TS"]),
  (c!"PL", c!"ice pellets ", [c!"SH", c!"TS"]),
  (c!"GR", c!"hail ", [c!"SH", c!"TS"]),
  (c!"GS", c!"small hail (graupel) ", [c!"SH", c!"TS"]),
  (c!"UP", c!"undetermined precipitation ", [c!"SH", c!"TS", c!"FZ"]),
  (c!"RASN", c!"rain and snow mix ", [c!"SH", c!"TS", c!"FZ"]),
  (c!"SNRA", c!"snow and rain mix ", [c!"SH", c!"TS"]),
  (c!"DZRA", c!"drizzle rain ", [c!"TS", c!"FZ"]),
  (c!"RAGR", c!"rain hail ", [c!"SH", c!"TS"])]

/-- The words with the word of a descriptor. -/
def described (descriptor phenomenon : Str) : Str :=
  if descriptor = c!"SH" then phenomenon ++ c!"showers "
  else if descriptor = c!"TS" then phenomenon ++ c!"with thunderstorm "
  else if descriptor = c!"FZ" then c!"freezing " ++ phenomenon
  else phenomenon

/-- Intensities, the first of them not being written. -/
def intensities : List (Str × Str) := [([], c!"moderate "), (c!"-", c!"light "), (c!"+", c!"heavy ")]

/-- Other phenomena. -/
def otherWeather : List (Str × Str) := [
  (c!"BR", c!"mist "),
  (c!"FG", c!"fog "),
  (c!"MIFG", c!"shallow fog (ground fog)"),
  (c!"PRFG", c!"fog covering part of the location"),
  (c!"BCFG", c!"patches of fog randomly covering the location"),
  (c!"FZFG", c!"fog at freezing temperture (may or may not deposit rime)"),
  (c!"FU", c!"smoke "),
  (c!"VA", c!"volcanic ash "),
  (c!"DU", c!"widespread dust"),
  (c!"DRDU", c!"low drifting dust "),
  (c!"BLDU", c!"blowing dust "),
  (c!"SA", c!"sand "),
  (c!"DRSA", c!"low drifting sand "),
  (c!"BLSA", c!"blowing sand "),
  (c!"DRSN", c!"low drifting snow "),
  (c!"BLSN", c!"blowing snow "),
  (c!"HZ", c!"haze "),
  (c!"BLPY", c!"blowing spray "),
  (c!"IC", c!"ice crystals (diamond dust)"),
  (c!"PO", c!"dust or sand whirls "),
  (c!"SQ", c!"squalls "),
  (c!"FC", c!"funnel cloud "),
  (c!"+FC", c!"tornado or waterspout"),
  (c!"SS", c!"sand storm "),
  (c!"+SS", c!"heavy sand storm "),
  (c!"DS", c!"dust storm "),
  (c!"+DS", c!"heavy dust storm "),
  (c!"TS", c!"thunderstorm "),
  (c!"VCTS", c!"thunderstorm in vicinity (5 to 10 miles away)"),
  (c!"VCSH", c!"precipitation in vicinity (up to 10 miles away)"),
  (c!"VCFG", c!"fog in vicinity (5 to 10 miles away)"),
  (c!"VCFC", c!"tornadic activity in vicinity"),
  (c!"VCPO", c!"dust or sand whirls in vicinity (5 to 10 miles away)"),
  (c!"VCVA", c!"volcanic ash in vicinity (5 to 10 miles away)"),
  (c!"VCBLSN", c!"blowing snow in vicinity (5 to 10 miles away)"),
  (c!"VCBLDU", c!"blowing dust in vicinity (5 to 10 miles away)"),
  (c!"VCBLSA", c!"blowing sand in vicinity (5 to 10 miles away)"),
  (c!"VCSS", c!"sand storm in vicinity (5 to 10 miles away)"),
  (c!"VCDS", c!"dust storm in vicinity (5 to 10 miles away)")]

/-- Weather. -/
def weatherWords : List (Str × List Str) :=
  (precipitations.flatMap fun (c, t, ds) => intensities.flatMap fun (i, n) => ([] :: ds).map fun d =>
    (i ++ d ++ c, [c!"Weather phenomena:", n ++ described d t])) ++
  coded otherWeather [] [] (fun t => [c!"Weather phenomena:", t])

/-- Recent weather. -/
def recentWords : List (Str × List Str) :=
  (precipitations.flatMap fun (c, t, ds) => ([] :: ds).map fun d =>
    (c!"RE" ++ d ++ c, [c!"Recent weather:", described d t])) ++
  [(c!"RETS", [c!"Recent weather:", c!"thunderstorm "]), (c!"RE//", [c!"Recent weather:", c!"not reported "])]

/-- Values which are not reported. -/
def missingWords : List (Str × List Str) := [
  (c!"/////", [c!"Ambient air temperature: not reported", c!"Dew point: not reported"]),
  (c!"Q////",
    [c!"Observed mean atmospheric pressure (normalised to sea level) / altimeter setting: not reported"]),
  (c!"A////",
    [c!"Observed mean atmospheric pressure (normalised to sea level) / altimeter setting: not reported"]),
  (c!"//", [c!"Weather phenomena:", c!"not reported "])]

/-- Deposits on a runway. -/
def deposits : List (Str × Str) := [
  (c!"1", c!"damp"),
  (c!"2", c!"wet and water patches"),
  (c!"3", c!"rime and frost covered"),
  (c!"4", c!"dry snow"),
  (c!"5", c!"wet snow"),
  (c!"6", c!"slush"),
  (c!"7", c!"ice"),
  (c!"8", c!"compacted or rolled snow"),
  (c!"9", c!"frozen ruts or ridges"),
  (c!"/", c!"not reported")]

/-- How much of a runway is covered. -/
def extents : List (Str × Str) := [
  (c!"0", c!"none"),
  (c!"1", c!"&lt;10 percent"),
  (c!"2", c!"11 to 25 percent"),
  (c!"5", c!"26 to 50 percent"),
  (c!"9", c!"&gt;51 percent"),
  (c!"/", c!"not reported")]

/-- Reserved codes. -/
def reservedExtents : List (Str × Str) := [
  (c!"3", c!"[reserved_extent_value 3]"),
  (c!"4", c!"[reserved_extent_value 4]"),
  (c!"6", c!"[reserved_extent_value 6]"),
  (c!"7", c!"[reserved_extent_value 7]"),
  (c!"8", c!"[reserved_extent_value 8]")]

/-- Depths of deposits. -/
def depths : List (Str × Str) := [
  (c!"00", c!"trace amount"),
  (c!"92", c!"100.0 mm / 3.93 inches"),
  (c!"93", c!"150.0 mm / 5.90 inches"),
  (c!"94", c!"200.0 mm / 7.87 inches"),
  (c!"95", c!"250.0 mm / 9.84 inches"),
  (c!"96", c!"300.0 mm / 11.81 inches"),
  (c!"97", c!"350.0 mm / 13.77 inches"),
  (c!"98", c!"400.0 mm / 15.74 inches")]

/-- Surface friction. -/
def frictions : List (Str × Str) := [
  (c!"00", c!"friction coefficient 0.00"),
  (c!"90", c!"friction coefficient 0.90"),
  (c!"91", c!"braking action poor (friction coefficient 0.0 to 0.25)"),
  (c!"92", c!"braking action medium/poor (friction coefficient 0.26 to 0.29)"),
  (c!"93", c!"braking action medium (friction coefficient 0.30 to 0.35)"),
  (c!"94", c!"braking action medium/good (friction coefficient 0.36 to 0.40)"),
  (c!"95", c!"braking action good (friction coefficient 0.40 to 1.00)"),
  (c!"99", c!"unreliable or unmeasurable"),
  (c!"//", c!"not reported")]

/-- What is reported about deposits, how deep they are, how much they cover and the friction. -/
def surface (deposits depth extent friction : Str) : List Str :=
  [deposits, c!"Depth of deposits on runway: " ++ depth, c!"Runway contamination extent: " ++ extent,
   c!"Surface friction: " ++ friction]

/-- Not reported. -/
def notReported : Str := c!"not reported"

/-- The state of runways. -/
def runwayWords : List (Str × List Str) :=
  runways.flatMap (fun (r, n) => coded deposits (c!"R" ++ r ++ c!"/") c!"/////" (fun t =>
    (c!"State of " ++ n ++ c!":") :: surface t notReported notReported notReported)) ++
  coded runways c!"R" c!"/0/////" (fun n =>
    [c!"State of " ++ n ++ c!":", c!"clear and dry", c!"Surface friction: not reported"]) ++
  coded extents c!"R88//" c!"////" (fun t =>
    c!"State of all runways:" :: surface notReported notReported t notReported) ++
  coded reservedExtents c!"R88//" c!"////" (fun t =>
    doubtful :: c!"State of all runways:" :: surface notReported notReported t notReported) ++
  coded depths c!"R88///" c!"//" (fun t =>
    c!"State of all runways:" :: surface notReported t notReported notReported) ++
  coded frictions c!"R88/////" [] (fun t =>
    c!"State of all runways:" :: surface notReported notReported notReported t) ++
  coded frictions c!"R88/CLRD" [] (fun t => [c!"State of all runways:",
    c!"Deposits on runway were cleared or ceased to exist", c!"Surface friction: " ++ t]) ++
  coded runways c!"R" c!"///99//" (fun n => [c!"State of " ++ n ++ c!":", c!"Runway is not operational"]) ++
  coded runways c!"R" c!"/SNOCLO" (fun n =>
    [c!"State of " ++ n ++ c!":", c!"Runway closed due to snow accumulation"])

/-- States of the surface of the sea. -/
def seas : List (Str × Str) := [
  (c!"0", c!"calm (glassy), no waves"),
  (c!"1", c!"calm (rippled), wave height &lt;0.1 meters / &lt;1/3 feet"),
  (c!"2", c!"smooth, wave height 0.1 to 0.5 meters / 1/3 to 1 1/2 feet"),
  (c!"3", c!"slight, wave height 0.5 to 1.25 meters / 1 1/2 to 4 feet"),
  (c!"4", c!"moderate, wave height 1.25 to 2.5 meters / 4 to 8 feet"),
  (c!"5", c!"rough, wave height 2.5 to 4 meters / 8 to 13 feet"),
  (c!"6", c!"very rough, wave height 4 to 6 meters / 13 to 20 feet"),
  (c!"7", c!"high, wave height 6 to 9 meters / 20 to 30 feet"),
  (c!"8", c!"very high, wave height 9 to 14 meters / 30 to 46 feet"),
  (c!"9", c!"phenomenal, wave height >14 meters / &gt;46 feet"),
  (c!"/", c!"not reported")]

/-- The state of the sea. -/
def seaWords : List (Str × List Str) :=
  coded seas c!"W///S" [] fun t => [c!"Sea surface temperature not reported, state of sea surface: " ++ t]

/-- Colour codes. -/
def colours : List (Str × Str) := [
  (c!"BLU+", c!"BLUE+: visibility &gt;8000 m and lowest cloud base height &ge;20000 ft"),
  (c!"BLU", c!"BLUE: visibility &gt;8000 m and lowest cloud base height &gt;2500 ft"),
  (c!"WHT", c!"WHITE: visibility &gt;5000 m and lowest cloud base height &gt;1500 ft"),
  (c!"GRN", c!"GREEN: visibility &gt;3700 m and lowest cloud base height &gt;700 ft"),
  (c!"YLO", c!"YELLOW: visibility &gt;2500 m and lowest cloud base height &gt;500 ft"),
  (c!"YLO1", c!"YELLOW 1: visibility &gt;2500 m and lowest cloud base height &gt;500 ft"),
  (c!"YLO2", c!"YELLOW 2: visibility &gt;1600 m and lowest cloud base height &gt;300 ft"),
  (c!"AMB", c!"AMBER: visibility &gt;800 m and lowest cloud base height &gt;200 ft"),
  (c!"RED", c!"RED: either visibility &lt;800 m or lowest cloud base height &lt;200 ft or both")]

/-- Colour codes, also those with the word for a closed aerodrome. -/
def colourWords : List (Str × List Str) :=
  coded colours [] [] (fun t => [c!"Colour code " ++ t]) ++
  coded colours c!"BLACK" [] (fun t =>
    [c!"Colour code BLACK: aerodrome closed due to snow accumulation or non-weather reasons",
     c!"Colour code " ++ t])

/-- Icing. -/
def icing : List (Str × Str) := [
  (c!"0", c!"Trace icing or no icing"),
  (c!"1", c!"Light mixed icing"),
  (c!"2", c!"Light rime icing in cloud"),
  (c!"3", c!"Light clear icing in precipitation"),
  (c!"4", c!"Moderate mixed icing"),
  (c!"5", c!"Moderate rime icing in cloud"),
  (c!"6", c!"Moderate clear icing in precipitation"),
  (c!"7", c!"Severe mixed icing"),
  (c!"8", c!"Severe rime icing in cloud"),
  (c!"9", c!"Severe clear icing in precipitation")]

/-- Turbulence. -/
def turbulence : List (Str × Str) := [
  (c!"0", c!"No turbulence"),
  (c!"1", c!"Light turbulence"),
  (c!"2", c!"Occasional moderate turbulence in clear air"),
  (c!"3", c!"Frequent moderate turbulence in clear air"),
  (c!"4", c!"Occasional moderate turbulence in cloud"),
  (c!"5", c!"Frequent moderate turbulence in cloud"),
  (c!"6", c!"Occasional severe turbulence in clear air"),
  (c!"7", c!"Frequent severe turbulence in clear air"),
  (c!"8", c!"Occasional severe turbulence in cloud"),
  (c!"9", c!"Frequent severe turbulence in cloud"),
  (c!"X", c!"Extreme turbulence")]

/-- Forecasts of icing and turbulence from the surface to 1000 feet. -/
def layerWords : List (Str × List Str) :=
  let lines t := [t ++ c!" at heights from 0 feet (0 meters / 0 statute miles) \
    to 1000 feet (304 meters / 3/16 statute miles)"]
  coded icing c!"6" c!"0001" lines ++ coded turbulence c!"5" c!"0001" lines

/-! ### Remarks -/

/-- Remarks about the station and its instruments. -/
def stationWords : List (Str × List Str) := [
  (c!"AO1", [c!"This automated station is not equipped with a precipitation discriminator"]),
  (c!"AO2", [c!"This automated station is equipped with a precipitation discriminator"]),
  (c!"AO1A",
    [c!"This automated station is not equipped with a precipitation discriminator",
     c!"Automated observation is augmented by a human observer"]),
  (c!"AO2A",
    [c!"This automated station is equipped with a precipitation discriminator",
     c!"Automated observation is augmented by a human observer"]),
  (c!"NOSPECI", [c!"This manual station does not issue SPECI (unscheduled) reports"]),
  (c!"$", [c!"Automated station requires maintenance"]),
  (c!"PWINO",
    [c!"This automated station is equipped with present weather identifier and this sensor is not \
      operating"]),
  (c!"TSNO", [c!"This automated station is equipped with lightning detector and this sensor is not operating"]),
  (c!"PNO",
    [c!"This automated station is equipped with tipping bucket rain gauge and this sensor is not \
      operating"]),
  (c!"FZRANO",
    [c!"This automated station is equipped with freezing rain sensor and this sensor is not operating"]),
  (c!"SLPNO", [c!"Mean sea-level pressure information is not available"]),
  (c!"RVRNO", [c!"Runway visual range should be reported but is missing"]),
  (c!"FROIN", [c!"Frost on the instrument (e.g. due to freezing fog depositing rime)."]),
  (c!"WND MISG", [c!"Wind data is missing"]),
  (c!"VIS MISG", [c!"Visibility data missing"]),
  (c!"RVR MISG", [c!"Runway visual range data is missing"]),
  (c!"CLD MISG", [c!"Sky condition data (cloud data) is missing"]),
  (c!"WX MISG", [c!"Weather phenomena data is missing"]),
  (c!"TS/LTNG TEMPO UNAVBL", [c!"Thunderstorm / lightning data is missing"]),
  (c!"PRES MISG", [c!"Atmospheric pressure (altimeter) data is missing"]),
  (c!"T MISG", [c!"Temperature data is missing"]),
  (c!"TD MISG", [c!"Dew point data is missing"]),
  (c!"PCPN MISG", [c!"Precipitation data is missing"]),
  (c!"ICG MISG", [c!"Icing data is missing"]),
  (c!"DENSITY ALT MISG", [c!"Density altitude data missing"])]

/-- Remarks about changes. -/
def changeWords : List (Str × List Str) := [
  (c!"WSHFT",
    [c!"Wind direction changed 45&deg; or more in less than 15 minutes with sustained wind speed of 10 \
      knots (5.1 m/s / 18.5 km/h / 11.5 mph)"]),
  (c!"PRESRR",
    [c!"Atmospheric pressure is rising rapidly at a rate of at least 0.06 inch of mercury (2.03 \
      hectopascal) per hour and the pressure change totals 0.02 inch of mercury (0.68 hectopascal) \
      or more at the time of the observation"]),
  (c!"PRESFR",
    [c!"Atmospheric pressure is falling rapidly at a rate of at least 0.06 inch of mercury (2.03 \
      hectopascal) per hour and the pressure change totals 0.02 inch of mercury (0.68 hectopascal) \
      or more at the time of the observation"]),
  (c!"SNINCR 0/0",
    [c!"Snow increasing rapidly",
     c!"For the last hour snow increased by trace amount",
     c!"Total snowfall: trace amount"])]

/-- Remarks about data which is missing in a place. -/
def absentWords : List (Str × List Str) := [
  (c!"VISNO", [c!"Visibility data not awailable"]),
  (c!"CHINO", [c!"Ceiling data not awailable"])] ++
  coded compass c!"VISNO " [] (fun t => [c!"Visibility data not awailable in the direction of " ++ t]) ++
  coded compass c!"CHINO " [] (fun t => [c!"Ceiling data not awailable towards " ++ t]) ++
  coded runways c!"VISNO RWY" [] (fun t => [c!"Visibility data not awailable for " ++ t]) ++
  coded runways c!"CHINO RWY" [] (fun t => [c!"Ceiling data not awailable at " ++ t])

/-- Low clouds. -/
def lowClouds : List (Str × Str) := [
  (c!"0", c!"No low layer clouds"),
  (c!"1", c!"Cumulus clouds showing little vertical extent (Cumulus humilis or Cumulus fractus of dry weather \
    or both)"),
  (c!"2", c!"Cumulus clouds showing moderate or significant vertical extent (Cumulus mediocris or Cumulus \
    congestus, with or without Cumulus humilis or Cumulus fractus or stratocumulus, all having their \
    bases on the same level)"),
  (c!"3", c!"Cumulonimbus clouds without fibrous or striated parts at summit (Cumulonimbus calvus with or \
    without Cumulus, Stratocumulus or Stratus)"),
  (c!"4", c!"Stratocumulus clouds resulting from the spreading out of Cumulus (Stratocumulus cumulogenitus; \
    Cumulus may also be present)"),
  (c!"5", c!"Stratocumulus clouds not resulting from the spreading out of Cumulus (Stratocumulus \
    non-cumulogenitus)"),
  (c!"6", c!"Stratus clouds which consist of a continuous single sheet or layer with a fairly uniform base, \
    or transitory stage during the formation or the dissipation of such clouds (Stratus nebulosus or \
    Stratus fractus of dry weather, or both)"),
  (c!"7", c!"Ragged grey clouds which form below precipitating clouds (Stratus fractus or Cumulus fractus of \
    wet weather, or both (pannus) )"),
  (c!"8", c!"Cumulus and Stratocumulus not formed by spreading of Cumulus with bases at different levels"),
  (c!"9", c!"Cumulonimbus clouds with fibrous or striated summits, often with an anvil (Cumulonimbus \
    capillatus or Cumulonimbus capillatus incus)"),
  (c!"/", c!"Clouds are not observable due to fog, blowing dust or sand, or other similar phenomena")]

/-- Middle clouds. -/
def midClouds : List (Str × Str) := [
  (c!"0", c!"No mid-layer clouds"),
  (c!"1", c!"A veil of greyish or bluish colour translucent enough to reveal the position of the Sun or Moon \
    (Altostratus translucidus)"),
  (c!"2", c!"A veil of a darker grey or a darker bluish grey dense enough to completely mask the Sun or Moon \
    (Altostratus opacus or Nimbostratus)"),
  (c!"3", c!"Altocumulus (mackerel sky) clouds in patches or sheets at the same level or in a single layer \
    (Altocumulus translucidus at a single level)"),
  (c!"4", c!"Patches, often lenticular (lens or almond-shaped), of Altocumulus translucidus, continually \
    changing and occurring at one or more levels"),
  (c!"5", c!"Altocumulus translucidus in bands, or one or more layers of Altocumulus translucidus or \
    Altocumulus opacus, progressively invading the sky"),
  (c!"6", c!"Altocumulus resulting generally from the spreading out of the summits of Cumulus; or Alcocumulus \
    clouds acompanying Cumulonimbus (Altocumulus cumulogenitus or Altocumulus cumulonimbogenitus)"),
  (c!"7", c!"Altocumulus duplicatus, or Altocumulus opacus in a single layer, not progressively invading the \
    sky, or Altocumulus with Altostratus or Nimbostratus."),
  (c!"8", c!"Turrets at appear to be arranged in lines with a common horizontal base or scattered tufts with \
    rounded and slightly bulging upper parts (Altocumulus castellanus or Altocumulus floccus)"),
  (c!"9", c!"Sky of chaotic, heavy and stagnant appearance, which consists of superposed, more or less broken \
    cloud sheets of ill-defined species or varieties"),
  (c!"/", c!"Clouds are not observable due to fog, blowing dust or sand, or other similar phenomena or \
    because of a continuous layer of lower clouds")]

/-- High clouds. -/
def highClouds : List (Str × Str) := [
  (c!"0", c!"No high-layer clouds"),
  (c!"1", c!"Nearly straight or more or less curved filaments; more rarely, they are shaped like commas \
    topped with either a hook or a tuft that is not rounded (Cirrus fibratus and sometimes Cirrus \
    uncinus, not progressively invading the sky)"),
  (c!"2", c!"Cirrus spissatus, in patches or entangled sheaves, that usually do not increase and sometimes \
    appear to be the remains of the upper part of a Cumulonimbus; or Cirrus clouds with small \
    fibrous turrets rising from common base; or more or less isolated tufts, often with trails \
    (Cirrus spissatus or Cirrus castellanus or Cirrus floccus)"),
  (c!"3", c!"Cirrus clouds originated from a Cumulonimbus cloud(s) (Cirrus spissatus cumulonimbogenitus)"),
  (c!"4", c!"Cirrus uncinus, Cirrus fibratus or both, progressively invading the sky; they generally thicken \
    as a whole"),
  (c!"5", c!"Cirrus (often in bands) and Cirrostratus, or Cirrostratus alone, progressively invading the sky; \
    they generally thicken as a whole, but the continuous veil does not reach 45&deg; above the \
    horizon"),
  (c!"6", c!"Cirrus (often in bands) and Cirrostratus, or Cirrostratus alone, progressively invading the sky; \
    they generally thicken as a whole; the continuous veil extends more than 45&deg; above the \
    horizon, without the sky being totally covered"),
  (c!"7", c!"Light, uniform and nebulous veil showing no distinct detailsor a white and fibrous veil with \
    more or less clear-cut striations, covering the whole sky(Cirrostratus nebulosus or Cirrostratus \
    fibratus covering the whole sky)"),
  (c!"8", c!"A veil of Cirrostratus that is not (or no longer) invading the sky progressively and that does \
    not completely cover the whole sky"),
  (c!"9", c!"Cirrocumulus alone, or predominant among the high-layer clouds; when alone, its elements are \
    frequently grouped into more or less extensive patches with very characteristic small wavelets"),
  (c!"/", c!"Clouds are not observable due to fog, blowing dust or sand, or other similar phenomena or \
    because of a continuous layer of lower clouds")]

/-- The three layers of clouds. -/
def layersOfCloud (low mid high : Str) : List Str :=
  [c!"Low cloud layer:", low, c!"Mid cloud layer:", mid, c!"High cloud layer:", high]

/-- The three layers of clouds: each kind of low clouds under clouds which are not seen, each kind of middle
clouds with no low clouds and each kind of high clouds with neither low nor middle clouds. -/
def layersWords : List (Str × List Str) :=
  let none (t : List (Str × Str)) := (t.headD ([], [])).2
  let hidden (t : List (Str × Str)) := (t.getLastD ([], [])).2
  coded lowClouds c!"8/" c!"//" (fun t => layersOfCloud t (hidden midClouds) (hidden highClouds)) ++
  coded midClouds c!"8/0" c!"/" (fun t => layersOfCloud (none lowClouds) t (hidden highClouds)) ++
  coded highClouds c!"8/00" [] (fun t => layersOfCloud (none lowClouds) (none midClouds) t)

/-- Pressure tendencies. -/
def tendencies : List (Str × List Str) := [
  (c!"50///",
    [c!"During last 3 hours the atmospheric pressure was increasing, then decreasing",
     c!"Now the atmospheric pressure is higher or the same as 3 hours ago",
     c!"Absolute pressure change is not reported"]),
  (c!"51///",
    [c!"During last 3 hours the atmospheric pressure was increasing, then steady, or increasing then \
      increasing more slowly",
     c!"Now the atmospheric pressure is higher than 3 hours ago",
     c!"Absolute pressure change is not reported"]),
  (c!"52///",
    [c!"During last 3 hours the atmospheric pressure was increasing steadily or unsteadily",
     c!"Now the atmospheric pressure is higher than 3 hours ago",
     c!"Absolute pressure change is not reported"]),
  (c!"53///",
    [c!"During last 3 hours the atmospheric pressure was decreasing or steady, then increasing; or \
      increasing then increasing more rapidly",
     c!"Now the atmospheric pressure is higher than 3 hours ago",
     c!"Absolute pressure change is not reported"]),
  (c!"54///",
    [c!"During last 3 hours the atmospheric pressure was steady",
     c!"Now the atmospheric pressure is same as 3 hours ago",
     c!"Absolute pressure change is not reported"]),
  (c!"55///",
    [c!"During last 3 hours the atmospheric pressure was decreasing, then increasing",
     c!"Now the atmospheric pressure is lower or the same as 3 hours ago",
     c!"Absolute pressure change is not reported"]),
  (c!"56///",
    [c!"During last 3 hours the atmospheric pressure was decreasing then steady; or decreasing then \
      decreasing more slowly",
     c!"Now the atmospheric pressure is lower than 3 hours ago",
     c!"Absolute pressure change is not reported"]),
  (c!"57///",
    [c!"During last 3 hours the atmospheric pressure was decreasing steadily or unsteadily",
     c!"Now the atmospheric pressure is lower than 3 hours ago",
     c!"Absolute pressure change is not reported"]),
  (c!"58///",
    [c!"During last 3 hours the atmospheric pressure was steady or increasing, then decreasing; or \
      decreasing then decreasing more rapidly",
     c!"Now the atmospheric pressure is lower than 3 hours ago",
     c!"Absolute pressure change is not reported"]),
  (c!"5////",
    [c!"3-hourly pressure tendency is not reported",
     c!"Absolute pressure change is not reported"])]

/-- How far something is seen. -/
def seenAt : List (Str × Str) := [
  (c!"DSNT", c!" at distance 10 to 30 nautical miles (19 to 55 km, 12 to 35 statue miles)"),
  (c!"VC", c!" at distance 5 to 10 nautical miles (9 to 19 km, 6 to 12 statue miles)")]

/-- Where something is seen. -/
def seenIn : List (Str × Str) := compass ++ [
  (c!"OHD", c!"overhead"), (c!"ALQDS", c!"all quadrants (in all directions)")]

/-- Types of lightning. -/
def strikes : List (Str × Str) := [
  (c!"CG", c!"cloud-to-ground"),
  (c!"IC", c!"in-cloud"),
  (c!"CC", c!"cloud-to-cloud"),
  (c!"CA", c!"cloud-to-air without strike to ground")]

/-- How often lightning strikes. -/
def frequencies : List (Str × Str) := [
  (c!"OCNL", c!"Less than 1 strike per minute"),
  (c!"FRQ", c!"1 to 6 strikes per minute"),
  (c!"CONS", c!"More than 6 strikes per minute")]

/-- Lightning. -/
def lightningWords : List (Str × List Str) :=
  (c!"LTG", [c!"Lightning strikes observed"]) ::
  coded frequencies [] c!" LTG" (fun t => [c!"Lightning strikes observed", t]) ++
  coded strikes c!"LTG" [] (fun t =>
    [c!"Lightning strikes observed", c!"The following lightning types are observed: ", t]) ++
  coded seenAt c!"LTG " [] (fun t => [c!"Lightning strikes observed" ++ t]) ++
  coded seenIn c!"LTG " [] (fun t =>
    [c!"Lightning strikes observed", c!"Lightning strikes observed in the following directions: " ++ t])

/-- What is seen near the station. -/
def sights : List (Str × Str) := [
  (c!"TS", c!"Thunderstorm"),
  (c!"CB", c!"Cumulonimbus cloud(s)"),
  (c!"CBMAM", c!"Cumulonimbus cloud(s) with mammatus"),
  (c!"TCU", c!"Towering cumulus cloud(s)"),
  (c!"ACC", c!"Altocumulus cloud(s)"),
  (c!"SCSL", c!"Stratocumulus standing lenticular cloud(s)"),
  (c!"ACSL", c!"Altocumulus standing lenticular cloud(s)"),
  (c!"CCSL", c!"Cirrocumulus standing lenticular cloud(s)"),
  (c!"ROTOR CLD", c!"Rotor cloud(s)"),
  (c!"VIRGA", c!"Virga"),
  (c!"VCSH", c!"Precipitation"),
  (c!"BCFG", c!"Patches of fog"),
  (c!"MIFG", c!"Shallow fog"),
  (c!"HZ", c!"Haze")]

/-- What is seen near the station, how far, where, and which way it moves. -/
def sightWords : List (Str × List Str) := sights.flatMap fun (v, n) =>
  coded seenAt (v ++ c!" ") [] (fun t => [n ++ c!" observed" ++ t]) ++
  coded seenIn (v ++ c!" ") [] (fun t =>
    [n ++ c!" observed", c!"Observed in the following directions: " ++ t]) ++
  coded compass (v ++ c!" OHD MOV ") [] (fun t =>
    [n ++ c!" observed", c!"Observed in the following directions: overhead", c!"Moving towards " ++ t])

/-- What covers the sky. -/
def obscurations : List (Str × Str) := [
  (c!"CB", c!"cumulonimbus"),
  (c!"TCU", c!"towering cumulus"),
  (c!"CU", c!"cumulus"),
  (c!"CF", c!"cumulus fractus"),
  (c!"SC", c!"stratocumulus"),
  (c!"NS", c!"nimbostratus"),
  (c!"ST", c!"stratus"),
  (c!"SF", c!"stratus fractus"),
  (c!"AS", c!"altostratus"),
  (c!"AC", c!"altocumulus"),
  (c!"ACC", c!"altocumulus castellanus"),
  (c!"CI", c!"cirrus"),
  (c!"CS", c!"cirrostratus"),
  (c!"CC", c!"cirrocumulus"),
  (c!"BLSN", c!"blowing snow"),
  (c!"BLDU", c!"blowing dust"),
  (c!"BLSA", c!"blowing sand"),
  (c!"IC", c!"ice crystals"),
  (c!"RA", c!"rain"),
  (c!"DZ", c!"drizzle"),
  (c!"SN", c!"snow"),
  (c!"PL", c!"ice pellets"),
  (c!"FU", c!"smoke"),
  (c!"FG", c!"fog"),
  (c!"BR", c!"mist"),
  (c!"HZ", c!"haze"),
  (c!"VA", c!"volcanic ash")]

/-- Eighths of the sky. -/
def eighths : List Str := [c!"1", c!"2", c!"3", c!"4", c!"5", c!"6", c!"7", c!"8"]

/-- How much of the sky is covered by what. -/
def coverWords : List (Str × List Str) := eighths.flatMap fun n => coded obscurations [] n fun t =>
  [c!"Obscuration / cloud layers: ", t ++ c!" covering " ++ n ++ c!"/8 of the sky"]

/-- Sky covered from the ground up. -/
def groundWords : List (Str × List Str) :=
  [c!"BLSN", c!"BLDU", c!"BLSA", c!"FU", c!"FG", c!"VA"].flatMap fun w =>
  [(c!"FEW", c!"2"), (c!"SCT", c!"4"), (c!"BKN", c!"7"), (c!"OVC", c!"8")].map fun (a, n) =>
  (w ++ c!" " ++ a ++ c!"000", [c!"Ground-based obscuration", (obscurations.lookup w).getD [] ++
    c!" covering " ++ n ++ c!"/8 of the sky, base height 0 feet (0 meters / 0 statute miles)"])

/-- What an amount of precipitation or ice is about. -/
def amountsOfWater : List (Str × Str) := [
  (c!"P", c!"Total precipitation for the past hour"),
  (c!"4/", c!"Snow depth on ground"),
  (c!"7", c!"Water equivalent of frozen precipitation for the last 24 hours"),
  (c!"931", c!"Snowfall for the last 6 hours"),
  (c!"933", c!"Water equivalent of snow on ground"),
  (c!"I1", c!"Ice accretion for the last hour"),
  (c!"I3", c!"Ice accretion for the last 3 hours"),
  (c!"I6", c!"Ice accretion for the last 6 hours")]

/-- Traces of precipitation or ice. -/
def traceWords : List (Str × List Str) := amountsOfWater.map fun (c, t) =>
  (if c.length = 1 then c ++ c!"0000" else c ++ c!"000", [t ++ c!": trace amount"])

/-- Traces of frozen precipitation: in reports at some hours since three hours, at some since six hours, and
where neither is known since three or six hours. -/
def frozenWords (hour : Option Nat) : List (Str × List Str) :=
  let since :=
    if hour ∈ [0, 5, 6, 11, 12, 17, 18, 23].map some then c!"for the last 6 hours"
    else if hour ∈ [2, 3, 8, 9, 14, 15, 20, 21].map some then c!" for the last 3 hours"
    else c!" for the last 3 or 6 hours"
  [(c!"60000", [c!"Water equivalent of frozen precipitation" ++ since ++ c!": trace amount"]),
   (c!"6////", [c!"Water equivalent of frozen precipitation" ++ since ++ c!": not reported"])]

/-- Variable sky. -/
def variableSkyWords : List (Str × List Str) := [
  (c!"FEW V SCT",
    [c!"Cloud layer",
     c!"Sky cover variable between few and scattered clouds (sky coverage variable between 1/8 and \
      4/8)",
     c!"Base height not reported"]),
  (c!"SCT V BKN",
    [c!"Cloud layer",
     c!"Sky cover variable between scattered and broken clouds (sky coverage variable between 3/8 and \
      7/8)",
     c!"Base height not reported"]),
  (c!"BKN V OVC",
    [c!"Cloud layer",
     c!"Sky cover variable between broken clouds and overcast (sky coverage variable between 5/8 and \
      8/8)",
     c!"Base height not reported"])]

/-! ### The vocabulary -/

/-- Remarks which say the same at any hour. -/
def remarkWords : List (Str × List Str) :=
  stationWords ++ changeWords ++ absentWords ++ layersWords ++ tendencies ++ lightningWords ++
  sightWords ++ coverWords ++ groundWords ++ traceWords ++ variableSkyWords

/-- The codes of a part of a report made at the hour with the lines which explain them. -/
def vocabulary (hour : Option Nat) : ReportPart → List (Str × List Str)
  | .HEADER => headerWords
  | .METAR => bodyWords ++ observationWords ++ windWords ++ skyWords ++ cloudWords ++ visibilityWords ++
      rangeWords ++ weatherWords ++ recentWords ++ missingWords ++ runwayWords ++ seaWords ++ colourWords
  | .TAF => bodyWords ++ forecastWords ++ windWords ++ skyWords ++ cloudWords ++ visibilityWords ++
      weatherWords ++ layerWords
  | .RMK => remarkWords ++ frozenWords hour
  | .UNKNOWN => []

end Metaf.Spec
