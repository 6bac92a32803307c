import Verif.Model.Parser

/-!
The tables of texts of the example program `/repo/examples/explain.cpp`: for each value of an
enumeration the text shown for it. `std::string_view()` and a view of the temporary `std::string()` are
both the empty text here: the second one points to a string that is gone, but its length is zero and
nothing is read through it.
-/

namespace Metaf.Explain

/-- `VisitorExplain::reportTypeToString`, explain.cpp:1515-1523. -/
def reportTypeToString : ReportType → Str
  | .UNKNOWN => c!"unable to detect"
  | .METAR => c!"METAR (weather observation)"
  | .TAF => c!"TAF (weather forecast)"

/-- `VisitorExplain::reportErrorToString`, explain.cpp:1525-1571. -/
def reportErrorToString : ReportError → Str
  | .NONE => c!"no error"
  | .EMPTY_REPORT => c!"report is empty"
  | .EXPECTED_REPORT_TYPE_OR_LOCATION => c!"expected report type or ICAO location at report start"
  | .EXPECTED_LOCATION => c!"expected ICAO location"
  | .EXPECTED_REPORT_TIME => c!"expected report time"
  | .EXPECTED_TIME_SPAN => c!"expected time span"
  | .UNEXPECTED_REPORT_END => c!"unexpected report end"
  | .UNEXPECTED_GROUP_AFTER_NIL => c!"unexpected group after NIL"
  | .UNEXPECTED_GROUP_AFTER_CNL => c!"unexpected group after CNL"
  | .UNEXPECTED_NIL_OR_CNL_IN_REPORT_BODY => c!"unexpected NIL or CNL in report body"
  | .AMD_ALLOWED_IN_TAF_ONLY => c!"AMD is allowed only in TAF reports"
  | .CNL_ALLOWED_IN_TAF_ONLY => c!"CNL is allowed only in TAF reports"
  | .MAINTENANCE_INDICATOR_ALLOWED_IN_METAR_ONLY =>
    c!"Maintenance indicator is allowed only in METAR reports"
  | .REPORT_TOO_LARGE => c!"Report has too many groups"

/-- `VisitorExplain::speedUnitToString`, explain.cpp:2042-2056. -/
def speedUnitToString : SpeedUnit → Str
  | .KNOTS => c!"knots"
  | .METERS_PER_SECOND => c!"m/s"
  | .KILOMETERS_PER_HOUR => c!"km/h"
  | .MILES_PER_HOUR => c!"mph"

/-- `VisitorExplain::distanceUnitToString`, explain.cpp:2058-2071. -/
def distanceUnitToString : DistanceUnit → Str
  | .METERS => c!"meters"
  | .STATUTE_MILES => c!"statute miles"
  | .FEET => c!"feet"

/-- `VisitorExplain::distanceMilesFractionToString`, explain.cpp:2073-2110. -/
def distanceMilesFractionToString : MilesFraction → Str
  | .NONE => c!""
  | .F_1_16 => c!"1/16"
  | .F_1_8 => c!"1/8"
  | .F_3_16 => c!"3/16"
  | .F_1_4 => c!"1/4"
  | .F_5_16 => c!"5/16"
  | .F_3_8 => c!"3/8"
  | .F_1_2 => c!"1/2"
  | .F_5_8 => c!"5/8"
  | .F_3_4 => c!"3/4"
  | .F_7_8 => c!"7/8"

/-- `VisitorExplain::cardinalDirectionToString`, explain.cpp:2113-2171. -/
def cardinalDirectionToString : Cardinal → Str
  | .NOT_REPORTED => c!"not reported"
  | .N => c!"north"
  | .S => c!"south"
  | .W => c!"west"
  | .E => c!"east"
  | .NW => c!"northwest"
  | .NE => c!"northeast"
  | .SW => c!"southwest"
  | .SE => c!"southeast"
  | .TRUE_N => c!"true north"
  | .TRUE_W => c!"true west"
  | .TRUE_S => c!"true south"
  | .TRUE_E => c!"true east"
  | .NDV => c!"no directional variations"
  | .VRB => c!"variable"
  | .OHD => c!"overhead"
  | .ALQDS => c!"all quadrants (in all directions)"
  | .UNKNOWN => c!"unknown direction"

/-- `VisitorExplain::brakingActionToString`, explain.cpp:2173-2195. -/
def brakingActionToString : BrakingAction → Str
  | .NONE => c!"not reported"
  | .POOR => c!"poor (friction coefficient 0.0 to 0.25)"
  | .MEDIUM_POOR => c!"medium/poor (friction coefficient 0.26 to 0.29)"
  | .MEDIUM => c!"medium (friction coefficient 0.30 to 0.35)"
  | .MEDIUM_GOOD => c!"medium/good (friction coefficient 0.36 to 0.40)"
  | .GOOD => c!"good (friction coefficient 0.40 to 1.00)"

/-- `VisitorExplain::stateOfSeaSurfaceToString`, explain.cpp:2197-2234. -/
def stateOfSeaSurfaceToString : StateOfSurface → Str
  | .NOT_REPORTED => c!"not reported"
  | .CALM_GLASSY => c!"calm (glassy), no waves"
  | .CALM_RIPPLED => c!"calm (rippled), wave height &lt;0.1 meters / &lt;1/3 feet"
  | .SMOOTH => c!"smooth, wave height 0.1 to 0.5 meters / 1/3 to 1 1/2 feet"
  | .SLIGHT => c!"slight, wave height 0.5 to 1.25 meters / 1 1/2 to 4 feet"
  | .MODERATE => c!"moderate, wave height 1.25 to 2.5 meters / 4 to 8 feet"
  | .ROUGH => c!"rough, wave height 2.5 to 4 meters / 8 to 13 feet"
  | .VERY_ROUGH => c!"very rough, wave height 4 to 6 meters / 13 to 20 feet"
  | .HIGH => c!"high, wave height 6 to 9 meters / 20 to 30 feet"
  | .VERY_HIGH => c!"very high, wave height 9 to 14 meters / 30 to 46 feet"
  | .PHENOMENAL => c!"phenomenal, wave height >14 meters / &gt;46 feet"

/-- `VisitorExplain::cloudAmountToString`, explain.cpp:2236-2285. -/
def cloudAmountToString : Amount → Str
  | .NOT_REPORTED => c!"Cloud amount not reported"
  | .NSC =>
    c!"No significant cloud: no cloud below 5000 feet (1500 meters), no cumulonimbus or towering \
      cumulus clouds, no vertical visibility restriction"
  | .NCD =>
    c!"No cloud detected: automated weather station did not detect any clouds; this can happen \
      due to either no clouds present or sensor error"
  | .NONE_CLR =>
    c!"Clear sky: no cloud layers are detected at or below 12000 feet (3700 meters) (US) or \
      25000 feet (7600 meters) (Canada); indicates that station is at least partly automated"
  | .NONE_SKC =>
    c!"Clear sky: In North America indicates report producted by human rather than automatic \
      weather station"
  | .FEW => c!"Few clouds (1/8 to 2/8 sky covered)"
  | .SCATTERED => c!"Scattered clouds (3/8 to 4/8 sky covered)"
  | .BROKEN => c!"Broken clouds (5/8 to 7/8 sky covered)"
  | .OVERCAST => c!"Overcast (8/8 sky covered)"
  | .OBSCURED => c!"Sky obscured"
  | .VARIABLE_FEW_SCATTERED =>
    c!"Sky cover variable between few and scattered clouds (sky coverage variable between 1/8 \
      and 4/8)"
  | .VARIABLE_SCATTERED_BROKEN =>
    c!"Sky cover variable between scattered and broken clouds (sky coverage variable between 3/8 \
      and 7/8)"
  | .VARIABLE_BROKEN_OVERCAST =>
    c!"Sky cover variable between broken clouds and overcast (sky coverage variable between 5/8 \
      and 8/8)"

/-- `VisitorExplain::convectiveTypeToString`, explain.cpp:2287-2303. -/
def convectiveTypeToString : ConvectiveType → Str
  | .NONE => c!""
  | .NOT_REPORTED => c!"not reported"
  | .TOWERING_CUMULUS => c!"towering cumulus"
  | .CUMULONIMBUS => c!"cumulonimbus"

/-- `VisitorExplain::weatherPhenomenaQualifierToString`, explain.cpp:2305-2327. -/
def weatherPhenomenaQualifierToString : Qualifier → Str
  | .NONE => c!""
  | .RECENT => c!""
  | .VICINITY => c!""
  | .LIGHT => c!"light"
  | .MODERATE => c!"moderate"
  | .HEAVY => c!"heavy"

/-- `VisitorExplain::weatherPhenomenaDescriptorToString`, explain.cpp:2329-2360. -/
def weatherPhenomenaDescriptorToString : Descriptor → Str
  | .NONE => c!""
  | .SHALLOW => c!"shallow"
  | .PARTIAL => c!"partial"
  | .PATCHES => c!"patches of "
  | .LOW_DRIFTING => c!"low drifting"
  | .BLOWING => c!"blowing"
  | .SHOWERS => c!""
  | .THUNDERSTORM => c!""
  | .FREEZING => c!"freezing"

/-- `VisitorExplain::weatherPhenomenaWeatherToString`, explain.cpp:2362-2435. -/
def weatherPhenomenaWeatherToString : Weather → Str
  | .NOT_REPORTED => c!"not reported"
  | .DRIZZLE => c!"drizzle"
  | .RAIN => c!"rain"
  | .SNOW => c!"snow"
  | .SNOW_GRAINS => c!"snow grains"
  | .ICE_CRYSTALS => c!"ice crystals"
  | .ICE_PELLETS => c!"ice pellets"
  | .HAIL => c!"hail"
  | .SMALL_HAIL => c!"small hail (graupel)"
  | .UNDETERMINED => c!"undetermined precipitation"
  | .MIST => c!"mist"
  | .FOG => c!"fog"
  | .SMOKE => c!"smoke"
  | .VOLCANIC_ASH => c!"volcanic ash"
  | .DUST => c!"dust"
  | .SAND => c!"sand"
  | .HAZE => c!"haze"
  | .SPRAY => c!"spray"
  | .DUST_WHIRLS => c!"dust or sand whirls"
  | .SQUALLS => c!"squalls"
  | .FUNNEL_CLOUD => c!"funnel cloud"
  | .SANDSTORM => c!"sand storm"
  | .DUSTSTORM => c!"dust storm"

/-- `VisitorExplain::probabilityToString`, explain.cpp:2523-2536. -/
def probabilityToString : Probability → Str
  | .PROB_30 => c!"Trend probability is 30 percent"
  | .PROB_40 => c!"Trend probability is 40 percent"
  | .NONE => c!""

/-- `VisitorExplain::visTrendToString`, explain.cpp:2538-2557. -/
def visTrendToString : RvrTrend → Str
  | .NONE => c!""
  | .NOT_REPORTED => c!"not reported"
  | .UPWARD => c!"upward"
  | .NEUTRAL => c!"neutral"
  | .DOWNWARD => c!"downward"

/-- `VisitorExplain::runwayStateDepositsToString`, explain.cpp:2559-2596. -/
def runwayStateDepositsToString : Deposits → Str
  | .NOT_REPORTED => c!"not reported"
  | .CLEAR_AND_DRY => c!"clear and dry"
  | .DAMP => c!"damp"
  | .WET_AND_WATER_PATCHES => c!"wet and water patches"
  | .RIME_AND_FROST_COVERED => c!"rime and frost covered"
  | .DRY_SNOW => c!"dry snow"
  | .WET_SNOW => c!"wet snow"
  | .SLUSH => c!"slush"
  | .ICE => c!"ice"
  | .COMPACTED_OR_ROLLED_SNOW => c!"compacted or rolled snow"
  | .FROZEN_RUTS_OR_RIDGES => c!"frozen ruts or ridges"

/-- `VisitorExplain::runwayStateExtentToString`, explain.cpp:2598-2635. -/
def runwayStateExtentToString : Extent → Str
  | .NOT_REPORTED => c!"not reported"
  | .NONE => c!"none"
  | .LESS_THAN_10_PERCENT => c!"&lt;10 percent"
  | .FROM_11_TO_25_PERCENT => c!"11 to 25 percent"
  | .FROM_26_TO_50_PERCENT => c!"26 to 50 percent"
  | .MORE_THAN_51_PERCENT => c!"&gt;51 percent"
  | .RESERVED_3 => c!"[reserved_extent_value 3]"
  | .RESERVED_4 => c!"[reserved_extent_value 4]"
  | .RESERVED_6 => c!"[reserved_extent_value 6]"
  | .RESERVED_7 => c!"[reserved_extent_value 7]"
  | .RESERVED_8 => c!"[reserved_extent_value 8]"

/-- `VisitorExplain::layerForecastGroupTypeToString`, explain.cpp:2637-2715. -/
def layerForecastGroupTypeToString : LayerForecastType → Str
  | .ICING_TRACE_OR_NONE => c!"Trace icing or no icing"
  | .ICING_LIGHT_MIXED => c!"Light mixed icing"
  | .ICING_LIGHT_RIME_IN_CLOUD => c!"Light rime icing in cloud"
  | .ICING_LIGHT_CLEAR_IN_PRECIPITATION => c!"Light clear icing in precipitation"
  | .ICING_MODERATE_MIXED => c!"Moderate mixed icing"
  | .ICING_MODERATE_RIME_IN_CLOUD => c!"Moderate rime icing in cloud"
  | .ICING_MODERATE_CLEAR_IN_PRECIPITATION => c!"Moderate clear icing in precipitation"
  | .ICING_SEVERE_MIXED => c!"Severe mixed icing"
  | .ICING_SEVERE_RIME_IN_CLOUD => c!"Severe rime icing in cloud"
  | .ICING_SEVERE_CLEAR_IN_PRECIPITATION => c!"Severe clear icing in precipitation"
  | .TURBULENCE_NONE => c!"No turbulence"
  | .TURBULENCE_LIGHT => c!"Light turbulence"
  | .TURBULENCE_MODERATE_IN_CLEAR_AIR_OCCASIONAL => c!"Occasional moderate turbulence in clear air"
  | .TURBULENCE_MODERATE_IN_CLEAR_AIR_FREQUENT => c!"Frequent moderate turbulence in clear air"
  | .TURBULENCE_MODERATE_IN_CLOUD_OCCASIONAL => c!"Occasional moderate turbulence in cloud"
  | .TURBULENCE_MODERATE_IN_CLOUD_FREQUENT => c!"Frequent moderate turbulence in cloud"
  | .TURBULENCE_SEVERE_IN_CLEAR_AIR_OCCASIONAL => c!"Occasional severe turbulence in clear air"
  | .TURBULENCE_SEVERE_IN_CLEAR_AIR_FREQUENT => c!"Frequent severe turbulence in clear air"
  | .TURBULENCE_SEVERE_IN_CLOUD_OCCASIONAL => c!"Occasional severe turbulence in cloud"
  | .TURBULENCE_SEVERE_IN_CLOUD_FREQUENT => c!"Frequent severe turbulence in cloud"
  | .TURBULENCE_EXTREME => c!"Extreme turbulence"

/-- `VisitorExplain::pressureTendencyTypeToString`, explain.cpp:2718-2770. -/
def pressureTendencyTypeToString : PressureTendencyType → Str
  | .INCREASING_THEN_DECREASING => c!"increasing, then decreasing"
  | .INCREASING_MORE_SLOWLY =>
    c!"increasing, then steady, or increasing then increasing more slowly"
  | .INCREASING => c!"increasing steadily or unsteadily"
  | .INCREASING_MORE_RAPIDLY =>
    c!"decreasing or steady, then increasing; or increasing then increasing more rapidly"
  | .STEADY => c!"steady"
  | .DECREASING_THEN_INCREASING => c!"decreasing, then increasing"
  | .DECREASING_MORE_SLOWLY => c!"decreasing then steady; or decreasing then decreasing more slowly"
  | .DECREASING => c!"decreasing steadily or unsteadily"
  | .DECREASING_MORE_RAPIDLY =>
    c!"steady or increasing, then decreasing; or decreasing then decreasing more rapidly"
  | .NOT_REPORTED => c!"not reported"
  | .RISING_RAPIDLY =>
    c!"rising rapidly at a rate of at least 0.06 inch of mercury (2.03 hectopascal) per hour and \
      the pressure change totals 0.02 inch of mercury (0.68 hectopascal) or more at the time of \
      the observation"
  | .FALLING_RAPIDLY =>
    c!"falling rapidly at a rate of at least 0.06 inch of mercury (2.03 hectopascal) per hour \
      and the pressure change totals 0.02 inch of mercury (0.68 hectopascal) or more at the \
      time of the observation"

/-- `VisitorExplain::pressureTendencyTrendToString`, explain.cpp:2772-2794. -/
def pressureTendencyTrendToString : TendencyTrend → Str
  | .NOT_REPORTED => c!"not reported"
  | .HIGHER => c!"higher than"
  | .HIGHER_OR_SAME => c!"higher or the same as"
  | .SAME => c!"same as"
  | .LOWER_OR_SAME => c!"lower or the same as"
  | .LOWER => c!"lower than"

/-- `VisitorExplain::cloudTypeToString`, explain.cpp:2796-2884. -/
def cloudTypeToString : CloudTypeKind → Str
  | .NOT_REPORTED => c!"cumulonimbus"
  | .CUMULONIMBUS => c!"cumulonimbus"
  | .TOWERING_CUMULUS => c!"towering cumulus"
  | .CUMULUS => c!"cumulus"
  | .CUMULUS_FRACTUS => c!"cumulus fractus"
  | .STRATOCUMULUS => c!"stratocumulus"
  | .NIMBOSTRATUS => c!"nimbostratus"
  | .STRATUS => c!"stratus"
  | .STRATUS_FRACTUS => c!"stratus fractus"
  | .ALTOSTRATUS => c!"altostratus"
  | .ALTOCUMULUS => c!"altocumulus"
  | .ALTOCUMULUS_CASTELLANUS => c!"altocumulus castellanus"
  | .CIRRUS => c!"cirrus"
  | .CIRROSTRATUS => c!"cirrostratus"
  | .CIRROCUMULUS => c!"cirrocumulus"
  | .BLOWING_SNOW => c!"blowing snow"
  | .BLOWING_DUST => c!"blowing dust"
  | .BLOWING_SAND => c!"blowing sand"
  | .ICE_CRYSTALS => c!"ice crystals"
  | .RAIN => c!"rain"
  | .DRIZZLE => c!"drizzle"
  | .SNOW => c!"snow"
  | .ICE_PELLETS => c!"ice pellets"
  | .SMOKE => c!"smoke"
  | .FOG => c!"fog"
  | .MIST => c!"mist"
  | .HAZE => c!"haze"
  | .VOLCANIC_ASH => c!"volcanic ash"

/-- `VisitorExplain::cloudLowLayerToString`, explain.cpp:2886-2943. -/
def cloudLowLayerToString : LowLayer → Str
  | .NONE => c!"No low layer clouds"
  | .CU_HU_CU_FR =>
    c!"Cumulus clouds showing little vertical extent (Cumulus humilis or Cumulus fractus of dry \
      weather or both)"
  | .CU_MED_CU_CON =>
    c!"Cumulus clouds showing moderate or significant vertical extent (Cumulus mediocris or \
      Cumulus congestus, with or without Cumulus humilis or Cumulus fractus or stratocumulus, \
      all having their bases on the same level)"
  | .CB_CAL =>
    c!"Cumulonimbus clouds without fibrous or striated parts at summit (Cumulonimbus calvus with \
      or without Cumulus, Stratocumulus or Stratus)"
  | .SC_CUGEN =>
    c!"Stratocumulus clouds resulting from the spreading out of Cumulus (Stratocumulus \
      cumulogenitus; Cumulus may also be present)"
  | .SC_NON_CUGEN =>
    c!"Stratocumulus clouds not resulting from the spreading out of Cumulus (Stratocumulus \
      non-cumulogenitus)"
  | .ST_NEB_ST_FR =>
    c!"Stratus clouds which consist of a continuous single sheet or layer with a fairly uniform \
      base, or transitory stage during the formation or the dissipation of such clouds (Stratus \
      nebulosus or Stratus fractus of dry weather, or both)"
  | .ST_FR_CU_FR_PANNUS =>
    c!"Ragged grey clouds which form below precipitating clouds (Stratus fractus or Cumulus \
      fractus of wet weather, or both (pannus) )"
  | .CU_SC_NON_CUGEN_DIFFERENT_LEVELS =>
    c!"Cumulus and Stratocumulus not formed by spreading of Cumulus with bases at different \
      levels"
  | .CB_CAP =>
    c!"Cumulonimbus clouds with fibrous or striated summits, often with an anvil (Cumulonimbus \
      capillatus or Cumulonimbus capillatus incus)"
  | .NOT_OBSERVABLE =>
    c!"Clouds are not observable due to fog, blowing dust or sand, or other similar phenomena"

/-- `VisitorExplain::cloudMidLayerToString`, explain.cpp:2945-3005. -/
def cloudMidLayerToString : MidLayer → Str
  | .NONE => c!"No mid-layer clouds"
  | .AS_TR =>
    c!"A veil of greyish or bluish colour translucent enough to reveal the position of the Sun \
      or Moon (Altostratus translucidus)"
  | .AS_OP_NS =>
    c!"A veil of a darker grey or a darker bluish grey dense enough to completely mask the Sun \
      or Moon (Altostratus opacus or Nimbostratus)"
  | .AC_TR =>
    c!"Altocumulus (mackerel sky) clouds in patches or sheets at the same level or in a single \
      layer (Altocumulus translucidus at a single level)"
  | .AC_TR_LEN_PATCHES =>
    c!"Patches, often lenticular (lens or almond-shaped), of Altocumulus translucidus, \
      continually changing and occurring at one or more levels"
  | .AC_TR_AC_OP_SPREADING =>
    c!"Altocumulus translucidus in bands, or one or more layers of Altocumulus translucidus or \
      Altocumulus opacus, progressively invading the sky"
  | .AC_CUGEN_AC_CBGEN =>
    c!"Altocumulus resulting generally from the spreading out of the summits of Cumulus; or \
      Alcocumulus clouds acompanying Cumulonimbus (Altocumulus cumulogenitus or Altocumulus \
      cumulonimbogenitus)"
  | .AC_DU_AC_OP_AC_WITH_AS_OR_NS =>
    c!"Altocumulus duplicatus, or Altocumulus opacus in a single layer, not progressively \
      invading the sky, or Altocumulus with Altostratus or Nimbostratus."
  | .AC_CAS_AC_FLO =>
    c!"Turrets at appear to be arranged in lines with a common horizontal base or scattered \
      tufts with rounded and slightly bulging upper parts (Altocumulus castellanus or \
      Altocumulus floccus)"
  | .AC_OF_CHAOTIC_SKY =>
    c!"Sky of chaotic, heavy and stagnant appearance, which consists of superposed, more or less \
      broken cloud sheets of ill-defined species or varieties"
  | .NOT_OBSERVABLE =>
    c!"Clouds are not observable due to fog, blowing dust or sand, or other similar phenomena or \
      because of a continuous layer of lower clouds"

/-- `VisitorExplain::cloudHighLayerToString`, explain.cpp:3007-3074. -/
def cloudHighLayerToString : HighLayer → Str
  | .NONE => c!"No high-layer clouds"
  | .CI_FIB_CI_UNC =>
    c!"Nearly straight or more or less curved filaments; more rarely, they are shaped like \
      commas topped with either a hook or a tuft that is not rounded (Cirrus fibratus and \
      sometimes Cirrus uncinus, not progressively invading the sky)"
  | .CI_SPI_CI_CAS_CI_FLO =>
    c!"Cirrus spissatus, in patches or entangled sheaves, that usually do not increase and \
      sometimes appear to be the remains of the upper part of a Cumulonimbus; or Cirrus clouds \
      with small fibrous turrets rising from common base; or more or less isolated tufts, often \
      with trails (Cirrus spissatus or Cirrus castellanus or Cirrus floccus)"
  | .CI_SPI_CBGEN =>
    c!"Cirrus clouds originated from a Cumulonimbus cloud(s) (Cirrus spissatus \
      cumulonimbogenitus)"
  | .CI_FIB_CI_UNC_SPREADING =>
    c!"Cirrus uncinus, Cirrus fibratus or both, progressively invading the sky; they generally \
      thicken as a whole"
  | .CI_CS_LOW_ABOVE_HORIZON =>
    c!"Cirrus (often in bands) and Cirrostratus, or Cirrostratus alone, progressively invading \
      the sky; they generally thicken as a whole, but the continuous veil does not reach \
      45&deg; above the horizon"
  | .CI_CS_HIGH_ABOVE_HORIZON =>
    c!"Cirrus (often in bands) and Cirrostratus, or Cirrostratus alone, progressively invading \
      the sky; they generally thicken as a whole; the continuous veil extends more than 45&deg; \
      above the horizon, without the sky being totally covered"
  | .CS_NEB_CS_FIB_COVERING_ENTIRE_SKY =>
    c!"Light, uniform and nebulous veil showing no distinct detailsor a white and fibrous veil \
      with more or less clear-cut striations, covering the whole sky(Cirrostratus nebulosus or \
      Cirrostratus fibratus covering the whole sky)"
  | .CS =>
    c!"A veil of Cirrostratus that is not (or no longer) invading the sky progressively and that \
      does not completely cover the whole sky"
  | .CC =>
    c!"Cirrocumulus alone, or predominant among the high-layer clouds; when alone, its elements \
      are frequently grouped into more or less extensive patches with very characteristic small \
      wavelets"
  | .NOT_OBSERVABLE =>
    c!"Clouds are not observable due to fog, blowing dust or sand, or other similar phenomena or \
      because of a continuous layer of lower clouds"

/-- The `switch` of `VisitorExplain::visitKeywordGroup`, explain.cpp:205-285. -/
def keywordText : KeywordType → Str
  | .METAR => c!"Report type: METAR (weather observation report)"
  | .SPECI =>
    c!"Report type: unscheduled METAR (weather observation report)\nUnscheduled report is issued \
      due to sudden changes in weather conditions: wind shift, visibility decrease, severe \
      weather, clouds formed or dissipated, etc."
  | .TAF => c!"Report type: TAF (terminal aerodrome forecast)"
  | .AMD => c!"Amended report"
  | .NIL => c!"Missing report"
  | .CNL => c!"Cancelled report"
  | .COR => c!"Correctional report"
  | .AUTO => c!"Fully automated report with no human intervention or oversight"
  | .CAVOK =>
    c!"Ceiling and visibility OK\nVisibility 10 km or more in all directions, no cloud below \
      5000 feet (1500 meters), no cumulonimbus or towering cumulus clouds, no significant \
      weather phenomena"
  | .RMK => c!"The remarks are as follows"
  | .MAINTENANCE_INDICATOR => c!"Automated station requires maintenance"
  | .AO1 => c!"This automated station is not equipped with a precipitation discriminator"
  | .AO2 => c!"This automated station is equipped with a precipitation discriminator"
  | .AO1A =>
    c!"This automated station is not equipped with a precipitation discriminator\nAutomated \
      observation is augmented by a human observer"
  | .AO2A =>
    c!"This automated station is equipped with a precipitation discriminator\nAutomated \
      observation is augmented by a human observer"
  | .NOSPECI => c!"This manual station does not issue SPECI (unscheduled) reports"

/-- The `switch` of `VisitorExplain::visitVicinityGroup`, explain.cpp:1267-1343. -/
def vicinityText : VicinityType → Str
  | .THUNDERSTORM => c!"Thunderstorm"
  | .CUMULONIMBUS => c!"Cumulonimbus cloud(s)"
  | .CUMULONIMBUS_MAMMATUS => c!"Cumulonimbus cloud(s) with mammatus"
  | .TOWERING_CUMULUS => c!"Towering cumulus cloud(s)"
  | .ALTOCUMULUS_CASTELLANUS => c!"Altocumulus cloud(s)"
  | .STRATOCUMULUS_STANDING_LENTICULAR => c!"Stratocumulus standing lenticular cloud(s)"
  | .ALTOCUMULUS_STANDING_LENTICULAR => c!"Altocumulus standing lenticular cloud(s)"
  | .CIRROCUMULUS_STANDING_LENTICULAR => c!"Cirrocumulus standing lenticular cloud(s)"
  | .ROTOR_CLOUD => c!"Rotor cloud(s)"
  | .VIRGA => c!"Virga"
  | .PRECIPITATION_IN_VICINITY => c!"Precipitation"
  | .FOG => c!"Fog"
  | .FOG_SHALLOW => c!"Shallow fog"
  | .FOG_PATCHES => c!"Patches of fog"
  | .HAZE => c!"Haze"
  | .SMOKE => c!"Smoke"
  | .BLOWING_SNOW => c!"Blowing snow"
  | .BLOWING_SAND => c!"Blowing sand"
  | .BLOWING_DUST => c!"Blowing dust"

end Metaf.Explain
