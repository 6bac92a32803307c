import Verif.Model.Explain

/-!
Specification of the explanations (`/repo/examples/explain.cpp`): the lines of which the explanation of a group
consists, each told by what the accessors of the group give. The texts of single values (times, runways,
directions, speeds and so on) are the subject of C103 to C105 and C107.
-/

namespace Metaf.Spec

open Metaf Metaf.Explain

variable [FloatSem]

/-- Lines separated by line breaks. -/
def unlines : List Str → Str
  | [] => []
  | [l] => l
  | l :: ls => l ++ '\n' :: unlines ls

/-- A line which is there only under a condition. -/
def lineIf (c : Prop) [Decidable c] (l : Str) : List Str := if c then [l] else []

/-- A line for a value, if there is one. -/
def lineFor {α : Type} (v : Option α) (l : α → Str) : List Str := (v.map l).toList

/-- A part of a line for a value, if there is one. -/
def partFor {α : Type} (v : Option α) (l : α → Str) : Str := (v.map l).getD []

/-- The text of a value that can be shown. -/
def shown : Res Str → Str
  | .ok s => s
  | .error _ => []

/-- The text of a distance. -/
def distanceShown (d : Distance) : Str := shown (explainDistance d)

/-! ### Trends -/

/-- What the type of a trend means. -/
def trendTitle (g : TrendGroup) : Str :=
  match g.t with
  | .NOSIG => c!"No significant weather changes expected"
  | .BECMG => c!"Weather conditions are expected to gradually change as follows"
  | .TEMPO => c!"The following temporary weather conditions may arise  for less than 60 minutes"
  | .INTER => c!"The following temporary weather conditions may arise for less than 30 minutes"
  | .FROM => c!"Weather conditions are expected to change rapidly from " ++ partFor g.tFrom explainMetafTime
  | .UNTIL => c!"The following weather conditions expected to last until " ++ partFor g.tTill explainMetafTime
  | .AT => c!"The following weather conditions expected to occur at " ++ partFor g.tAt explainMetafTime
  | .TIME_SPAN => c!"The following weather condition are expected within time span from " ++
      partFor g.tFrom explainMetafTime ++ c!" until " ++ partFor g.tTill explainMetafTime
  | .PROB => c!"The weather conditions probability is as follows"

/-- The words for the trends that have their times on lines of their own. -/
def timedTrends : List TrendType := [.BECMG, .TEMPO, .INTER]

def trendLines (g : TrendGroup) : List Str :=
  trendTitle g ::
  (if g.t ∈ timedTrends then
    lineFor g.tFrom (c!"From " ++ explainMetafTime ·) ++
    lineFor g.tTill (c!"Until " ++ explainMetafTime ·) ++
    lineFor g.tAt (c!"At " ++ explainMetafTime ·)
  else []) ++
  lineIf (g.t = .FROM) c!"All previous weather conditions are superseded by the following conditions" ++
  lineIf (g.t = .PROB ∨ g.t ∈ [.TEMPO, .INTER, .TIME_SPAN] ∧ g.prob ≠ .NONE) (probabilityToString g.prob)

/-! ### Wind -/

def windTitle (g : WindGroup) : Str :=
  match g.windType with
  | .SURFACE_WIND_CALM => c!"No wind"
  | .SURFACE_WIND => c!"Surface wind"
  | .VARIABLE_WIND_SECTOR => c!"Variable wind sector"
  | .SURFACE_WIND_WITH_VARIABLE_SECTOR => c!"Surface wind with variable with sector"
  | .WIND_SHEAR => c!"Wind shear at height " ++ distanceShown g.wShHeight ++ c!":"
  | .WIND_SHIFT | .WIND_SHIFT_FROPA => c!"Wind direction changed 45&deg; or more in less than 15 minutes with \
      sustained wind speed of 10 knots (5.1 m/s / 18.5 km/h / 11.5 mph)"
  | .PEAK_WIND => c!"Peak wind was observed at " ++ partFor g.evTime explainMetafTime
  | .WIND_SHEAR_IN_LOWER_LAYERS => c!"Wind shear significant to aircraft operations is present along the take-off \
      path or approach path between runway level and 500 metres (1 600 ft)" ++
      partFor g.rw (c!" at " ++ explainRunway ·)
  | .WSCONDS => c!"Potential wind shear conditions are present but there's not enough information to reliably \
      forecast height, direction and speed of wind shear"
  | .WND_MISG => c!"Wind data is missing"

/-- The types of wind groups with a direction and a speed. -/
def blowing : List WindType := [.SURFACE_WIND, .SURFACE_WIND_WITH_VARIABLE_SECTOR, .WIND_SHEAR, .PEAK_WIND]

/-- The lines of a wind group. -/
def windLines (g : WindGroup) : List Str :=
  windTitle g ::
  lineIf (g.windType ∈ blowing) (c!"Wind direction: " ++ explainDirection g.windDir true) ++
  lineIf (g.windType ∈ blowing) (c!"Wind speed: " ++ explainSpeed g.wSpeed) ++
  lineIf (g.windType ∈ blowing ∧ g.windType ≠ .PEAK_WIND ∧ g.gSpeed.isReported)
    (c!"Gust speed: " ++ explainSpeed g.gSpeed) ++
  lineIf (g.windType ∈ [.VARIABLE_WIND_SECTOR, .SURFACE_WIND_WITH_VARIABLE_SECTOR])
    (c!"Variable wind direction sector from " ++ explainDirection g.vsecBegin ++ c!" clockwise to " ++
      explainDirection g.vsecEnd) ++
  (if g.windType ∈ [.WIND_SHIFT, .WIND_SHIFT_FROPA] then
    lineFor g.evTime (c!"Wind shift began at " ++ explainMetafTime ·) else []) ++
  lineIf (g.windType = .WIND_SHIFT_FROPA) c!"This wind shift is associated with weather front passage"

/-! ### Visibility -/

/-- What kind of visibility a group is about. -/
def visibilityTitle (g : VisibilityGroup) : Str :=
  let toward := partFor g.dir explainDirection
  let along := partFor g.rw explainRunway
  match g.visType with
  | .PREVAILING | .PREVAILING_NDV | .VARIABLE_PREVAILING => c!"Prevailing visibility"
  | .DIRECTIONAL | .VARIABLE_DIRECTIONAL => c!"Directional visibility toward " ++ toward
  | .RUNWAY | .VARIABLE_RUNWAY => c!"Visibility for " ++ along
  | .RVR | .VARIABLE_RVR => c!"Runway visual range for " ++ along
  | .SURFACE => c!"Visibility at surface level"
  | .TOWER => c!"Visibility from air traffic control tower"
  | .SECTOR | .VARIABLE_SECTOR => c!"Sector visibility"
  | .VIS_MISG => c!"Visibility data missing"
  | .RVR_MISG => c!"Runway visual range data is missing"
  | .RVRNO => c!"Runway visual range should be reported but is missing"
  | .VISNO => c!"Visibility data not awailable" ++ partFor g.rw (c!" for " ++ explainRunway ·) ++
      partFor g.dir (c!" in the direction of " ++ explainDirection ·)

/-- The visibility or the range of visibilities. -/
def visibilityAmount (g : VisibilityGroup) : Str :=
  if g.visType ∈ [.VIS_MISG, .RVR_MISG, .RVRNO, .VISNO] then []
  else if g.visType ∈ [.VARIABLE_PREVAILING, .VARIABLE_DIRECTIONAL, .VARIABLE_RUNWAY, .VARIABLE_RVR, .VARIABLE_SECTOR]
  then c!" is variable from " ++ distanceShown g.minVisibility ++ c!" to " ++ distanceShown g.maxVisibility
  else c!" is " ++ distanceShown g.visibility

/-- The directions of a sector. -/
def sectorShown (l : Option (List Direction)) : Str := partFor l explainDirectionSector

def visibilityLines (g : VisibilityGroup) : List Str :=
  if g.visType = .RVR ∧ g.rw = none then [c!"Runway visual range not reported "]
  else
    (visibilityTitle g ++ visibilityAmount g ++
      if g.visType ∈ [.RVR, .VARIABLE_RVR] ∧ g.rvrTrend ≠ .NONE then
        c!", and the trend is " ++ visTrendToString g.rvrTrend else []) ::
    lineIf (g.visType = .PREVAILING_NDV)
      c!"This station cannot differentiate the directional variation of visibility" ++
    lineIf (g.visType ∈ [.SECTOR, .VARIABLE_SECTOR])
      (c!"In the following directions: " ++ sectorShown (g.sectorDirections 64))

/-! ### Clouds -/

/-- The type of cloud, its amount in octas and its base. -/
def cloudShown (c : CloudType) : Str :=
  cloudTypeToString c.tp ++ c!" covering " ++ showNat c.okt ++ c!"/8 of the sky" ++
    if c.ht.isReported then c!", base height " ++ distanceShown c.ht else []

/-- The place a ceiling was observed at. -/
def placeShown (g : CloudGroup) : Str :=
  partFor g.rw (c!" at " ++ explainRunway ·) ++ partFor g.dir (c!" towards " ++ explainDirection ·)

def cloudLines (g : CloudGroup) : List Str :=
  match g.tp with
  | .NO_CLOUDS => [cloudAmountToString g.amnt]
  | .CLOUD_LAYER => [c!"Cloud layer", cloudAmountToString g.amnt, c!"Base height " ++ distanceShown g.height] ++
      lineIf (g.convtype ≠ .NONE) (c!"Convective type: " ++ convectiveTypeToString g.convtype)
  | .VERTICAL_VISIBILITY => [c!"Sky is obscured, vertical visibility is " ++ distanceShown g.verticalVisibility]
  | .CEILING => [c!"Ceiling height " ++ distanceShown g.height ++ placeShown g]
  | .VARIABLE_CEILING => [c!"Ceiling height is variable between " ++ distanceShown g.minHeight ++ c!" and " ++
      distanceShown g.maxHeight ++ placeShown g]
  | .CHINO => [c!"Ceiling data not awailable" ++ placeShown g]
  | .CLD_MISG => [c!"Sky condition data (cloud data) is missing"]
  | .OBSCURATION =>
      lineFor g.height.distance (fun h => if h = 0 then c!"Ground-based obscuration" else c!"Aloft obscuration") ++
      [partFor g.cloudType cloudShown]

/-! ### Weather -/

def weatherTitle : WeatherGroupType → Str
  | .CURRENT => c!"Weather phenomena:"
  | .RECENT => c!"Recent weather:"
  | .EVENT => c!"Precipitation beginning/ending time:"
  | .NSW => c!"Nil significant weather"
  | .PWINO => c!"This automated station is equipped with present weather identifier and this sensor is not operating"
  | .TSNO => c!"This automated station is equipped with lightning detector and this sensor is not operating"
  | .WX_MISG => c!"Weather phenomena data is missing"
  | .TS_LTNG_TEMPO_UNAVBL => c!"Thunderstorm / lightning data is missing"

def weatherLines (g : WeatherGroup) : List Str :=
  weatherTitle g.t ::
  (if g.t ∈ [.CURRENT, .RECENT, .EVENT] then g.weatherPhenomena.map explainWeatherPhenomena else []) ++
  lineIf (g.t = .NSW) c!"Indicates end of significant weather phenomena"

/-! ### Temperature and pressure -/

def temperatureLines (g : TemperatureGroup) : List Str :=
  match g.tp with
  | .TEMPERATURE_AND_DEW_POINT =>
    [c!"Ambient air temperature: " ++ explainTemperature g.t, c!"Dew point: " ++ explainTemperature g.dp] ++
    lineFor g.relativeHumidity (fun h => c!"Relative humidity: " ++ shown (showAsInt h) ++ c!" percent")
  | .T_MISG => [c!"Temperature data is missing"]
  | .TD_MISG => [c!"Dew point data is missing"]

def pressureLines (g : PressureGroup) : List Str :=
  match g.t with
  | .OBSERVED_QNH => [c!"Observed mean atmospheric pressure (normalised to sea level) / altimeter setting: " ++
      explainPressure g.p]
  | .FORECAST_LOWEST_QNH => [c!"Forecast lowest sea level pressure: " ++ explainPressure g.p]
  | .OBSERVED_QFE => [c!"Observed actual atmospheric pressure: " ++ explainPressure g.p]
  | .OBSERVED_SLP => [c!"Observed atmospheric pressure normalised to sea level:" ++ explainPressure g.p,
      c!"This is a value that might be more accurate for meteorological purposes and attempts to correct for \
         non-standard temperatures."]
  | .SLPNO => [c!"Mean sea-level pressure information is not available"]
  | .PRES_MISG => [c!"Atmospheric pressure (altimeter) data is missing"]

/-- Observed and forecast extremes. -/
def minMaxLines (g : MinMaxTemperatureGroup) : List Str :=
  let minimum := c!"Minimum ambient air temperature: " ++ explainTemperature g.minTemp
  let maximum := c!"Maximum ambient air temperature: " ++ explainTemperature g.maxTemp
  match g.t with
  | .OBSERVED_6_HOURLY => [c!"Observed 6-hourly minimum/maximum temperature: ", minimum, maximum]
  | .OBSERVED_24_HOURLY => [c!"Observed 24-hourly minimum/maximum temperature: ", minimum, maximum]
  | .FORECAST => [c!"Forecast minimum/maximum temperature"] ++
      lineIf g.minTemp.isReported (minimum ++ c!", expected at " ++ partFor g.minTime explainMetafTime) ++
      lineIf g.maxTemp.isReported (maximum ++ c!", expected at " ++ partFor g.maxTime explainMetafTime)

/-- How the change of pressure is told. -/
def tendencyLines (g : PressureTendencyGroup) : List Str :=
  let change := c!"Absolute pressure change is " ++ explainPressure g.pressureDifference
  if g.tendencyType ∈ [.RISING_RAPIDLY, .FALLING_RAPIDLY] then
    [c!"Atmospheric pressure is " ++ pressureTendencyTypeToString g.tendencyType]
  else if g.tendencyType = .NOT_REPORTED then [c!"3-hourly pressure tendency is not reported", change]
  else
    [c!"During last 3 hours the atmospheric pressure was " ++ pressureTendencyTypeToString g.tendencyType,
     c!"Now the atmospheric pressure is " ++
      pressureTendencyTrendToString (PressureTendencyGroup.trend g.tendencyType) ++ c!" 3 hours ago",
     change]

/-! ### Surfaces -/

/-- The state of a runway. -/
def runwayStateLines (g : RunwayStateGroup) : List Str :=
  (c!"State of " ++ explainRunway g.rw ++ c!":") ::
  (match g.tp with
   | .RUNWAY_STATE => [runwayStateDepositsToString g.dp]
   | .RUNWAY_CLRD => [c!"Deposits on runway were cleared or ceased to exist"]
   | .RUNWAY_SNOCLO => [c!"Runway closed due to snow accumulation"]
   | .AERODROME_SNOCLO => [c!"Aerodrome closed due to snow accumulation"]
   | .RUNWAY_NOT_OPERATIONAL => [c!"Runway is not operational"]) ++
  lineIf (g.tp = .RUNWAY_STATE ∧ g.dp ≠ .CLEAR_AND_DRY)
    (c!"Depth of deposits on runway: " ++ explainPrecipitation g.dDepth) ++
  lineIf (g.tp = .RUNWAY_STATE ∧ g.dp ≠ .CLEAR_AND_DRY)
    (c!"Runway contamination extent: " ++ runwayStateExtentToString g.ext) ++
  lineIf (g.tp ∈ [.RUNWAY_STATE, .RUNWAY_CLRD]) (c!"Surface friction: " ++ explainSurfaceFriction g.sf)

/-- Temperature of the sea and its waves. -/
def seaSurfaceLines (g : SeaSurfaceGroup) : List Str :=
  [c!"Sea surface temperature " ++ explainTemperature g.t ++ c!", " ++ explainWaveHeight g.wh]

/-! ### Precipitation -/

/-- What an amount of precipitation is the amount of. -/
def amountLabel : PrecipitationType → Option Str
  | .TOTAL_PRECIPITATION_HOURLY => some c!"Total precipitation for the past hour: "
  | .SNOW_DEPTH_ON_GROUND => some c!"Snow depth on ground: "
  | .FROZEN_PRECIP_3_OR_6_HOURLY => some c!"Water equivalent of frozen precipitation for the last 3 or 6 hours: "
  | .FROZEN_PRECIP_3_HOURLY => some c!"Water equivalent of frozen precipitation for the last 3 hours: "
  | .FROZEN_PRECIP_6_HOURLY => some c!"Water equivalent of frozen precipitationfor the last 6 hours: "
  | .FROZEN_PRECIP_24_HOURLY => some c!"Water equivalent of frozen precipitation for the last 24 hours: "
  | .SNOW_6_HOURLY => some c!"Snowfall for the last 6 hours: "
  | .WATER_EQUIV_OF_SNOW_ON_GROUND => some c!"Water equivalent of snow on ground: "
  | .ICE_ACCRETION_FOR_LAST_HOUR => some c!"Ice accretion for the last hour: "
  | .ICE_ACCRETION_FOR_LAST_3_HOURS => some c!"Ice accretion for the last 3 hours: "
  | .ICE_ACCRETION_FOR_LAST_6_HOURS => some c!"Ice accretion for the last 6 hours: "
  | .PRECIPITATION_ACCUMULATION_SINCE_LAST_REPORT => some c!"Precipitation accumulation since last report: "
  | .SNOW_INCREASING_RAPIDLY => some c!"Total snowfall: "
  | .RAINFALL_9AM_10MIN => some c!"Rainfall since 9AM (9:00) local time: "
  | _ => none

/-- What a recent amount of precipitation is the amount of. -/
def recentLabel : PrecipitationType → Option Str
  | .SNOW_INCREASING_RAPIDLY => some c!"For the last hour snow increased by "
  | .RAINFALL_9AM_10MIN => some c!"Rainfall for the last 10 minutes before report release time: "
  | _ => none

/-- What is said on precipitation which is not measured. -/
def precipitationNote : PrecipitationType → Option Str
  | .SNOW_INCREASING_RAPIDLY => some c!"Snow increasing rapidly"
  | .PNO => some c!"This automated station is equipped with tipping bucket rain gauge and this sensor is not operating"
  | .FZRANO => some c!"This automated station is equipped with freezing rain sensor and this sensor is not operating"
  | .ICG_MISG => some c!"Icing data is missing"
  | .PCPN_MISG => some c!"Precipitation data is missing"
  | _ => none

def precipitationLines (g : PrecipitationGroup) : List Str :=
  (precipitationNote g.precType).toList ++
  lineFor (recentLabel g.precType) (· ++ explainPrecipitation g.precChange) ++
  lineFor (amountLabel g.precType) (· ++ explainPrecipitation g.precAmount)

/-! ### Layers -/

def layerForecastLines (g : LayerForecastGroup) : List Str :=
  [layerForecastGroupTypeToString g.layerType ++ c!" at " ++
    if g.layerBaseHeight.isReported ∨ g.layerTopHeight.isReported then
      c!"heights from " ++ distanceShown g.layerBaseHeight ++ c!" to " ++ distanceShown g.layerTopHeight
    else c!"all heights"]

def cloudTypesLines (g : CloudTypesGroup) : List Str :=
  c!"Obscuration / cloud layers: " :: g.cloudTypes.map cloudShown

def lowMidHighLines (g : LowMidHighCloudGroup) : List Str :=
  [c!"Low cloud layer:", cloudLowLayerToString g.cloudLowLayer, c!"Mid cloud layer:",
    cloudMidLayerToString g.cloudMidLayer, c!"High cloud layer:", cloudHighLayerToString g.cloudHighLayer]

/-! ### Lightning and vicinity -/

/-- A distance, if there is one. -/
def farShown (d : Distance) : Str := if d.isReported then c!" at distance " ++ distanceShown d else []

/-- How often there were strikes. -/
def frequencyLines : Frequency → List Str
  | .NONE => []
  | .OCCASIONAL => [c!"Less than 1 strike per minute"]
  | .FREQUENT => [c!"1 to 6 strikes per minute"]
  | .CONSTANT => [c!"More than 6 strikes per minute"]

/-- The types of lightning which are recognised. -/
def lightningTypeLines (g : LightningGroup) : List Str :=
  lineIf g.typeCloudGround c!"cloud-to-ground" ++ lineIf g.typeInCloud c!"in-cloud" ++
  lineIf g.typeCloudCloud c!"cloud-to-cloud" ++ lineIf g.typeCloudAir c!"cloud-to-air without strike to ground"

def lightningLines (g : LightningGroup) : List Str :=
  [c!"Lightning strikes observed" ++ farShown g.dist] ++ frequencyLines g.freq ++
  lineIf (lightningTypeLines g ≠ []) c!"The following lightning types are observed: " ++ lightningTypeLines g ++
  lineIf g.typeUnknown c!"Some lightning strike types specified in this group were not recognised by parser" ++
  lineIf (g.directions 64 ≠ some []) (c!"Lightning strikes observed in the following directions: " ++
    sectorShown (g.directions 64))

def vicinityLines (g : VicinityGroup) : List Str :=
  [vicinityText g.t ++ c!" observed" ++ farShown g.dist] ++
  lineIf (g.directions 64 ≠ some []) (c!"Observed in the following directions: " ++ sectorShown (g.directions 64)) ++
  lineIf g.movDir.isReported (c!"Moving towards " ++ cardinalDirectionToString g.movDir.cardinal)

/-! ### Miscellaneous -/

/-- The minima of visibility and cloud base of the colour codes. -/
def colourMeaning : MiscType → Option Str
  | .COLOUR_CODE_BLUE_PLUS | .COLOUR_CODE_BLACKBLUE_PLUS =>
    some c!"Colour code BLUE+: visibility &gt;8000 m and lowest cloud base height &ge;20000 ft"
  | .COLOUR_CODE_BLUE | .COLOUR_CODE_BLACKBLUE =>
    some c!"Colour code BLUE: visibility &gt;8000 m and lowest cloud base height &gt;2500 ft"
  | .COLOUR_CODE_WHITE | .COLOUR_CODE_BLACKWHITE =>
    some c!"Colour code WHITE: visibility &gt;5000 m and lowest cloud base height &gt;1500 ft"
  | .COLOUR_CODE_GREEN | .COLOUR_CODE_BLACKGREEN =>
    some c!"Colour code GREEN: visibility &gt;3700 m and lowest cloud base height &gt;700 ft"
  | .COLOUR_CODE_YELLOW | .COLOUR_CODE_BLACKYELLOW =>
    some c!"Colour code YELLOW: visibility &gt;2500 m and lowest cloud base height &gt;500 ft"
  | .COLOUR_CODE_YELLOW1 | .COLOUR_CODE_BLACKYELLOW1 =>
    some c!"Colour code YELLOW 1: visibility &gt;2500 m and lowest cloud base height &gt;500 ft"
  | .COLOUR_CODE_YELLOW2 | .COLOUR_CODE_BLACKYELLOW2 =>
    some c!"Colour code YELLOW 2: visibility &gt;1600 m and lowest cloud base height &gt;300 ft"
  | .COLOUR_CODE_AMBER | .COLOUR_CODE_BLACKAMBER =>
    some c!"Colour code AMBER: visibility &gt;800 m and lowest cloud base height &gt;200 ft"
  | .COLOUR_CODE_RED | .COLOUR_CODE_BLACKRED =>
    some c!"Colour code RED: either visibility &lt;800 m or lowest cloud base height &lt;200 ft or both"
  | _ => none

/-- The colour codes for an aerodrome which is closed. -/
def blackCodes : List MiscType :=
  [.COLOUR_CODE_BLACKBLUE_PLUS, .COLOUR_CODE_BLACKBLUE, .COLOUR_CODE_BLACKWHITE, .COLOUR_CODE_BLACKGREEN,
   .COLOUR_CODE_BLACKYELLOW, .COLOUR_CODE_BLACKYELLOW1, .COLOUR_CODE_BLACKYELLOW2, .COLOUR_CODE_BLACKAMBER,
   .COLOUR_CODE_BLACKRED]

/-- What is said on all other miscellaneous data. -/
def miscDataLines (g : MiscGroup) : List Str :=
  match g.groupType with
  | .SUNSHINE_DURATION_MINUTES =>
    [if g.groupData = some 0 then c!"No sunshine occurred the previous calendar day"
     else c!"Duration of sunshine that occurred the previous calendar day is " ++ partFor g.groupData showFloat ++
      c!" minutes"]
  | .CORRECTED_WEATHER_OBSERVATION =>
    [c!"This report is the corrected weather observation, correction number is " ++
      partFor g.groupData (fun x => shown (showAsInt x))]
  | .DENSITY_ALTITUDE =>
    [c!"Density altitude " ++ if g.groupData = none then c!"data missing" else
      c!" is " ++ partFor g.groupData showFloat ++ c!" feet"]
  | .HAILSTONE_SIZE => [c!"Largest hailstone size is " ++ partFor g.groupData showFloat ++ c!" inches"]
  | .FROIN => [c!"Frost on the instrument (e.g. due to freezing fog depositing rime)."]
  | .ISSUER_ID_FN =>
    [c!"Report issuer identifier is " ++ partFor g.groupData (fun x => shown (showAsInt x)),
     c!"This forecast is issued at The Fleet Weather Center Norfolk, VA."]
  | .ISSUER_ID_FS =>
    [c!"Report issuer identifier is " ++ partFor g.groupData (fun x => shown (showAsInt x)),
     c!"This forecast is issued at The Fleet Weather Center San Diego, CA (FS)."]
  | _ => []

def miscLines (g : MiscGroup) : List Str :=
  lineIf (g.groupType ∈ blackCodes)
    c!"Colour code BLACK: aerodrome closed due to snow accumulation or non-weather reasons" ++
  (colourMeaning g.groupType).toList ++ miscDataLines g

/-! ### All groups -/

/-- The lines of the explanation of a group with its text in the report. -/
def groupLines (g : Group) (raw : Str) : List Str :=
  match g with
  | .keyword g => [keywordText g.t]
  | .location g => [c!"ICAO code of station: " ++ g.toString]
  | .reportTime g => [c!"Day and time of report release: " ++ explainMetafTime g.t]
  | .trend g => trendLines g
  | .wind g => windLines g
  | .visibility g => visibilityLines g
  | .cloud g => cloudLines g
  | .weather g => weatherLines g
  | .temperature g => temperatureLines g
  | .pressure g => pressureLines g
  | .runwayState g => runwayStateLines g
  | .seaSurface g => seaSurfaceLines g
  | .minMaxTemperature g => minMaxLines g
  | .precipitation g => precipitationLines g
  | .layerForecast g => layerForecastLines g
  | .pressureTendency g => tendencyLines g
  | .cloudTypes g => cloudTypesLines g
  | .lowMidHighCloud g => lowMidHighLines g
  | .lightning g => lightningLines g
  | .vicinity g => vicinityLines g
  | .misc g => miscLines g
  | .unknown _ => [c!"Not recognised by parser: " ++ raw]

end Metaf.Spec
