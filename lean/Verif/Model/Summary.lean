import Verif.Model.Parser

/-!
Model of the example program `/repo/examples/summary.cpp`: a summary of the current weather made from
a METAR and a TAF report, as a program that uses the library makes it.  The bindings to JavaScript at
the end of the file (summary.cpp:702-818) are in `Model/Page.lean`.
-/

namespace Metaf.Summary

variable [FloatSem]

/-- `valueNotSpecified`, summary.cpp:14. -/
def valueNotSpecified : Int := -250

/-- `Cloud`, summary.cpp:16-22. -/
inductive Sky | NOT_SPECIFIED | CLEAR | MOSTLY_CLEAR | MOSTLY_CLOUDY | OVERCAST
  deriving DecidableEq, Repr

/-- `Weather`, summary.cpp:24-108. -/
inductive Code
  | NOT_SPECIFIED | PRECIPITATION_IN_VICINITY | THUNDERSTORM_IN_VICINITY | FOG_IN_VICINITY
  | VOLCANIC_ASH_IN_VICINITY | DUST_WHIRLS_IN_VICINITY | BLOWING_SNOW_IN_VICINITY
  | BLOWING_DUST_IN_VICINITY | BLOWING_SAND_IN_VICINITY | SANDSTORM_IN_VICINITY
  | DUSTSTORM_IN_VICINITY | DRIFTING_SAND | DRIFTING_DUST | DRIFTING_SNOW | BLOWING_SAND
  | BLOWING_DUST | BLOWING_SNOW | BLOWING_SPRAY | FOG | FOG_SHALLOW | FOG_PARTIAL | FOG_PATCHES
  | FOG_FREEZING | ICE_CRYSTALS | MIST | SMOKE | VOLCANIC_ASH | WIDESPREAD_DUST | SAND | HAZE
  | DRIZZLE_LIGHT | DRIZZLE_MODERATE | DRIZZLE_HEAVY | RAIN_LIGHT | RAIN_MODERATE | RAIN_HEAVY
  | SNOW_LIGHT | SNOW_MODERATE | SNOW_HEAVY | ICE_PELLETS_LIGHT | ICE_PELLETS_MODERATE
  | ICE_PELLETS_HEAVY | SNOW_GRAINS_LIGHT | SNOW_GRAINS_MODERATE | SNOW_GRAINS_HEAVY | GRAUPEL
  | HAIL | UNDETERMINED_LIGHT | UNDETERMINED_MODERATE | UNDETERMINED_HEAVY | RAIN_SHOWERS_LIGHT
  | RAIN_SHOWERS_MODERATE | RAIN_SHOWERS_HEAVY | SNOW_SHOWERS_LIGHT | SNOW_SHOWERS_MODERATE
  | SNOW_SHOWERS_HEAVY | ICE_PELLETS_SHOWERS_LIGHT | ICE_PELLETS_SHOWERS_MODERATE
  | ICE_PELLETS_SHOWERS_HEAVY | DRIZZLE_FREEZING_LIGHT | DRIZZLE_FREEZING_MODERATE
  | DRIZZLE_FREEZING_HEAVY | RAIN_FREEZING_LIGHT | RAIN_FREEZING_MODERATE | RAIN_FREEZING_HEAVY
  | THUNDERSTORM | DUST_WHIRLS | SQUALLS | FUNNEL_CLOUD | TORNADO | SANDSTORM | SANDSTORM_HEAVY
  | DUSTSTORM | DUSTSTORM_HEAVY
  deriving DecidableEq, Repr

/-- `static_cast<int>` of a `Weather`, summary.cpp:24-108. -/
def Code.num : Code → Nat
  | .NOT_SPECIFIED => 0 | .PRECIPITATION_IN_VICINITY => 1 | .THUNDERSTORM_IN_VICINITY => 2
  | .FOG_IN_VICINITY => 3 | .VOLCANIC_ASH_IN_VICINITY => 4 | .DUST_WHIRLS_IN_VICINITY => 5
  | .BLOWING_SNOW_IN_VICINITY => 6 | .BLOWING_DUST_IN_VICINITY => 7
  | .BLOWING_SAND_IN_VICINITY => 8 | .SANDSTORM_IN_VICINITY => 9 | .DUSTSTORM_IN_VICINITY => 10
  | .DRIFTING_SAND => 11 | .DRIFTING_DUST => 12 | .DRIFTING_SNOW => 13 | .BLOWING_SAND => 14
  | .BLOWING_DUST => 15 | .BLOWING_SNOW => 16 | .BLOWING_SPRAY => 17 | .FOG => 18
  | .FOG_SHALLOW => 19 | .FOG_PARTIAL => 20 | .FOG_PATCHES => 21 | .FOG_FREEZING => 22
  | .ICE_CRYSTALS => 23 | .MIST => 24 | .SMOKE => 25 | .VOLCANIC_ASH => 26
  | .WIDESPREAD_DUST => 27 | .SAND => 28 | .HAZE => 29 | .DRIZZLE_LIGHT => 30
  | .DRIZZLE_MODERATE => 31 | .DRIZZLE_HEAVY => 32 | .RAIN_LIGHT => 33 | .RAIN_MODERATE => 34
  | .RAIN_HEAVY => 35 | .SNOW_LIGHT => 36 | .SNOW_MODERATE => 37 | .SNOW_HEAVY => 38
  | .ICE_PELLETS_LIGHT => 39 | .ICE_PELLETS_MODERATE => 40 | .ICE_PELLETS_HEAVY => 41
  | .SNOW_GRAINS_LIGHT => 42 | .SNOW_GRAINS_MODERATE => 43 | .SNOW_GRAINS_HEAVY => 44
  | .GRAUPEL => 45 | .HAIL => 46 | .UNDETERMINED_LIGHT => 47 | .UNDETERMINED_MODERATE => 48
  | .UNDETERMINED_HEAVY => 49 | .RAIN_SHOWERS_LIGHT => 50 | .RAIN_SHOWERS_MODERATE => 51
  | .RAIN_SHOWERS_HEAVY => 52 | .SNOW_SHOWERS_LIGHT => 53 | .SNOW_SHOWERS_MODERATE => 54
  | .SNOW_SHOWERS_HEAVY => 55 | .ICE_PELLETS_SHOWERS_LIGHT => 56
  | .ICE_PELLETS_SHOWERS_MODERATE => 57 | .ICE_PELLETS_SHOWERS_HEAVY => 58
  | .DRIZZLE_FREEZING_LIGHT => 59 | .DRIZZLE_FREEZING_MODERATE => 60
  | .DRIZZLE_FREEZING_HEAVY => 61 | .RAIN_FREEZING_LIGHT => 62 | .RAIN_FREEZING_MODERATE => 63
  | .RAIN_FREEZING_HEAVY => 64 | .THUNDERSTORM => 65 | .DUST_WHIRLS => 66 | .SQUALLS => 67
  | .FUNNEL_CLOUD => 68 | .TORNADO => 69 | .SANDSTORM => 70 | .SANDSTORM_HEAVY => 71
  | .DUSTSTORM => 72 | .DUSTSTORM_HEAVY => 73

/-- `CurrentWeather`, summary.cpp:110-131. The member `cloud` is an `int` in the source and holds only
values of the enumeration. -/
structure CurrentWeather where
  windDirection : Int := valueNotSpecified
  isWindVariable : Bool := false
  windSpeed : Int := valueNotSpecified
  gustSpeed : Int := valueNotSpecified
  visibility : Int := valueNotSpecified
  cloud : Sky := .NOT_SPECIFIED
  isStormClouds : Bool := false
  weather : List Nat := []
  airTemperature : Int := valueNotSpecified
  perceivedTemperature : Int := valueNotSpecified
  airTemperatureHigh : Int := valueNotSpecified
  airTemperatureLow : Int := valueNotSpecified
  relativeHumidity : Int := valueNotSpecified
  atmosphericPressure : Int := valueNotSpecified
  updateYear : Int := valueNotSpecified
  updateMonth : Int := valueNotSpecified
  updateDay : Int := valueNotSpecified
  updateHour : Int := valueNotSpecified
  updateMinute : Int := valueNotSpecified
  deriving DecidableEq, Repr

/-- Conversion of a `float` to `int` at summary.cpp:475, 497, 500, 512, 541, 542, 545, 552, 557, 566, 585,
602, 605, 610, 651 and 654: the fraction is dropped; the behaviour is undefined if the value does not fit. -/
def toInt (q : Rat) : Res Int :=
  let n : Int := if q < 0 then -(-q).floor else q.floor
  if -2147483648 ≤ n ∧ n ≤ 2147483647 then .ok n else .error .conversion

/-- `if (const auto v = ...; v.has_value()) member = v.value();`, at the same lines as `toInt`. -/
def assign (v : Option Rat) (old : Int) : Res Int :=
  match v with
  | none => .ok old
  | some q => toInt q

/-- Conversion of an `int` to `unsigned int`, summary.cpp:667. -/
def toUnsigned (n : Int) : Nat := (n % (uintRange : Int)).toNat

/-- Conversion of an `unsigned int` to `int`, summary.cpp:490, 595 and 670-674 (modulo the range, as all
compilers supported do). -/
def toSigned (n : Nat) : Int :=
  if wrap n < 2147483648 then (wrap n : Int) else (wrap n : Int) - (uintRange : Int)

/-- `temperatureUnit`, summary.cpp:135-137. -/
def temperatureUnit (isImperialUnit : Bool) : TemperatureUnit := if isImperialUnit then .F else .C

/-- `pressureUnit`, summary.cpp:139-142. -/
def pressureUnit (isImperialUnit : Bool) : PressureUnit :=
  if isImperialUnit then .INCHES_HG else .HECTOPASCAL

/-- `visibilityUnit`, summary.cpp:144-147. -/
def visibilityUnit (isImperialUnit : Bool) : DistanceUnit :=
  if isImperialUnit then .STATUTE_MILES else .METERS

/-- `speedUnit`, summary.cpp:149-152. -/
def speedUnit (isImperialUnit : Bool) : SpeedUnit :=
  if isImperialUnit then .MILES_PER_HOUR else .KILOMETERS_PER_HOUR

/-- `cloudFromCloudGroupAmount`, summary.cpp:154-181. The test at line 168 joins two inequalities by
"or" as the source does. -/
def cloudFromCloudGroupAmount (prev : Sky) (newAmount : Amount) : Sky :=
  match newAmount with
  | .NCD | .NONE_CLR | .NONE_SKC | .VARIABLE_FEW_SCATTERED =>
    if prev = .NOT_SPECIFIED then .CLEAR else prev
  | .NSC | .FEW | .SCATTERED | .VARIABLE_SCATTERED_BROKEN | .VARIABLE_BROKEN_OVERCAST =>
    if prev ≠ .OVERCAST ∨ prev ≠ .MOSTLY_CLOUDY then .MOSTLY_CLEAR else prev
  | .BROKEN => if prev ≠ .OVERCAST then .MOSTLY_CLOUDY else prev
  | .OVERCAST | .OBSCURED => .OVERCAST
  | .NOT_REPORTED => prev

/-- `phenomena`, summary.cpp:183-194. -/
def phenomena (qualifier : Qualifier) (light moderate heavy : Code) : Code :=
  match qualifier with
  | .LIGHT => light
  | .MODERATE => moderate
  | .HEAVY => heavy
  | _ => moderate

/-- `weatherRain`, summary.cpp:196-224. -/
def weatherRain (qualifier : Qualifier) (descriptor : Descriptor) : Code :=
  match descriptor with
  | .FREEZING =>
    phenomena qualifier .RAIN_FREEZING_LIGHT .RAIN_FREEZING_MODERATE .RAIN_FREEZING_HEAVY
  | .SHOWERS => phenomena qualifier .RAIN_SHOWERS_LIGHT .RAIN_SHOWERS_MODERATE .RAIN_SHOWERS_HEAVY
  | .NONE => phenomena qualifier .RAIN_LIGHT .RAIN_MODERATE .RAIN_HEAVY
  | _ => phenomena qualifier .RAIN_LIGHT .RAIN_MODERATE .RAIN_HEAVY

/-- `weatherSnow`, summary.cpp:226-254. -/
def weatherSnow (qualifier : Qualifier) (descriptor : Descriptor) : Code :=
  match descriptor with
  | .SHOWERS => phenomena qualifier .SNOW_SHOWERS_LIGHT .SNOW_SHOWERS_MODERATE .SNOW_SHOWERS_HEAVY
  | .NONE => phenomena qualifier .SNOW_LIGHT .SNOW_MODERATE .SNOW_HEAVY
  | .LOW_DRIFTING => .DRIFTING_SNOW
  | .BLOWING => .BLOWING_SNOW
  | _ => phenomena qualifier .SNOW_LIGHT .SNOW_MODERATE .SNOW_HEAVY

/-- `weatherFog`, summary.cpp:256-264. -/
def weatherFog (descriptor : Descriptor) : Code :=
  match descriptor with
  | .SHALLOW => .FOG_SHALLOW
  | .PARTIAL => .FOG_PARTIAL
  | .PATCHES => .FOG_PATCHES
  | .FREEZING => .FOG_FREEZING
  | _ => .FOG

/-- `phenomenaFromWeatherGroup`, summary.cpp:266-378. Both branches for ice pellets give showers, as in
the source (lines 303-314). -/
def phenomenaFromWeatherGroup (qualifier : Qualifier) (descriptor : Descriptor) (weather : Weather) :
    Code :=
  match weather with
  | .NOT_REPORTED => .NOT_SPECIFIED
  | .DRIZZLE =>
    if descriptor = .FREEZING then
      phenomena qualifier .DRIZZLE_FREEZING_LIGHT .DRIZZLE_FREEZING_MODERATE .DRIZZLE_FREEZING_HEAVY
    else phenomena qualifier .DRIZZLE_LIGHT .DRIZZLE_MODERATE .DRIZZLE_HEAVY
  | .RAIN => weatherRain qualifier descriptor
  | .SNOW => weatherSnow qualifier descriptor
  | .SNOW_GRAINS => phenomena qualifier .SNOW_GRAINS_LIGHT .SNOW_GRAINS_MODERATE .SNOW_GRAINS_HEAVY
  | .ICE_CRYSTALS => .ICE_CRYSTALS
  | .ICE_PELLETS =>
    if descriptor = .SHOWERS then
      phenomena qualifier .ICE_PELLETS_SHOWERS_LIGHT .ICE_PELLETS_SHOWERS_MODERATE
        .ICE_PELLETS_SHOWERS_HEAVY
    else
      phenomena qualifier .ICE_PELLETS_SHOWERS_LIGHT .ICE_PELLETS_SHOWERS_MODERATE
        .ICE_PELLETS_SHOWERS_HEAVY
  | .HAIL => .HAIL
  | .SMALL_HAIL => .GRAUPEL
  | .UNDETERMINED => phenomena qualifier .UNDETERMINED_LIGHT .UNDETERMINED_MODERATE .UNDETERMINED_HEAVY
  | .MIST => .MIST
  | .FOG => weatherFog descriptor
  | .SMOKE => .SMOKE
  | .VOLCANIC_ASH => .VOLCANIC_ASH
  | .DUST =>
    if descriptor = .LOW_DRIFTING then .DRIFTING_DUST
    else if descriptor = .BLOWING then .BLOWING_DUST
    else .WIDESPREAD_DUST
  | .SAND =>
    if descriptor = .LOW_DRIFTING then .DRIFTING_SAND
    else if descriptor = .BLOWING then .BLOWING_SAND
    else .SAND
  | .HAZE => .HAZE
  | .SPRAY => .BLOWING_SPRAY
  | .DUST_WHIRLS => .DUST_WHIRLS
  | .SQUALLS => .SQUALLS
  | .FUNNEL_CLOUD => if qualifier = .HEAVY then .TORNADO else .FUNNEL_CLOUD
  | .SANDSTORM => if qualifier = .HEAVY then .SANDSTORM_HEAVY else .SANDSTORM
  | .DUSTSTORM => if qualifier = .HEAVY then .DUSTSTORM_HEAVY else .DUSTSTORM

/-- The second `switch` of `phenomenaInVicinity`, summary.cpp:409-427. -/
def vicinityFromWeather (weather : Weather) : Code :=
  match weather with
  | .FOG => .FOG_IN_VICINITY
  | .VOLCANIC_ASH => .VOLCANIC_ASH_IN_VICINITY
  | .DUST_WHIRLS => .DUST_WHIRLS_IN_VICINITY
  | .DUSTSTORM => .DUSTSTORM_IN_VICINITY
  | .SANDSTORM => .SANDSTORM_IN_VICINITY
  | _ => .PRECIPITATION_IN_VICINITY

/-- `phenomenaInVicinity`, summary.cpp:380-428. -/
def phenomenaInVicinity (descriptor : Descriptor) (weather : Weather) : Code :=
  match descriptor with
  | .SHOWERS => .PRECIPITATION_IN_VICINITY
  | .THUNDERSTORM => .THUNDERSTORM_IN_VICINITY
  | .BLOWING =>
    match weather with
    | .DUST => .BLOWING_DUST_IN_VICINITY
    | .SAND => .BLOWING_SAND_IN_VICINITY
    | .SNOW => .BLOWING_SNOW_IN_VICINITY
    | w => vicinityFromWeather w
  | _ => vicinityFromWeather weather

/-- `weatherFromWeatherPhenomena`, summary.cpp:430-454. -/
def weatherFromWeatherPhenomena (qualifier : Qualifier) (descriptor : Descriptor)
    (weather : List Weather) : List Nat :=
  if qualifier = .VICINITY then
    [(phenomenaInVicinity descriptor (weather.headD .NOT_REPORTED)).num]
  else if descriptor = .THUNDERSTORM then
    Code.THUNDERSTORM.num :: weather.map fun w => (phenomenaFromWeatherGroup qualifier .NONE w).num
  else weather.map fun w => (phenomenaFromWeatherGroup qualifier descriptor w).num

/-- `parseReport`, summary.cpp:456-461. -/
def parseReport (report : Str) (type : ReportType) : Res (List GroupInfo) :=
  match Parser.parse report with
  | .error f => .error f
  | .ok parsed =>
    if parsed.reportMetadata.type ≠ type ∨ parsed.reportMetadata.error ≠ .NONE then .ok []
    else .ok parsed.groups

/-- The handling of `CAVOK`, summary.cpp:472-478 and 582-588. -/
def keywordGroup (isImperialUnit : Bool) (gr : KeywordGroup) (r : CurrentWeather) :
    Res CurrentWeather :=
  if gr.t = .CAVOK then do
    let v ← assign (Distance.cavokVisibility.toUnit (visibilityUnit isImperialUnit)) r.visibility
    .ok { r with visibility := v, cloud := .MOSTLY_CLEAR }
  else .ok r

/-- The handling of the values of a wind group, summary.cpp:489-501 and 594-606. -/
def windValues (isImperialUnit : Bool) (gr : WindGroup) (r : CurrentWeather) : Res CurrentWeather := do
  let dir : Int := match gr.windDir.degrees with
    | some d => toSigned d
    | none => r.windDirection
  let isVariable := if gr.windDir.dirType = .VARIABLE then true else r.isWindVariable
  let ws ← assign (gr.wSpeed.toUnit (speedUnit isImperialUnit)) r.windSpeed
  let gs ← assign (gr.gSpeed.toUnit (speedUnit isImperialUnit)) r.gustSpeed
  .ok { r with windDirection := dir, isWindVariable := isVariable, windSpeed := ws, gustSpeed := gs }

/-- The handling of a cloud group, summary.cpp:516-522 and 613-619. -/
def cloudGroup (gr : CloudGroup) (r : CurrentWeather) : CurrentWeather :=
  { r with cloud := cloudFromCloudGroupAmount r.cloud gr.amnt,
           isStormClouds := if gr.convtype = .CUMULONIMBUS then true else r.isStormClouds }

/-- The loops over the phenomena of a weather group, summary.cpp:527-536 and 621-630. -/
def weatherCodes (gr : WeatherGroup) : List Nat :=
  gr.weatherPhenomena.flatMap fun wp =>
    weatherFromWeatherPhenomena wp.qualifier wp.descriptor wp.weather

/-- The handling of a temperature group, summary.cpp:539-559. -/
def temperatureGroup (isImperialUnit : Bool) (windSpeed : Speed) (gr : TemperatureGroup)
    (r : CurrentWeather) : Res CurrentWeather := do
  let unit := temperatureUnit isImperialUnit
  let air ← assign (gr.t.toUnit unit) r.airTemperature
  let perceived ← assign (gr.t.toUnit unit) r.perceivedTemperature
  let rh ← assign gr.relativeHumidity r.relativeHumidity
  let perceived ← assign ((Temperature.windChill gr.t windSpeed).toUnit unit) perceived
  let perceived ← assign ((Temperature.heatIndex gr.t gr.dp).toUnit unit) perceived
  .ok { r with airTemperature := air, perceivedTemperature := perceived, relativeHumidity := rh }

/-- The handling of a pressure group, summary.cpp:561-569. -/
def pressureGroup (isImperialUnit : Bool) (gr : PressureGroup) (r : CurrentWeather) :
    Res CurrentWeather :=
  if gr.t = .OBSERVED_QNH then
    match gr.p.toUnit (pressureUnit isImperialUnit) with
    | none => .ok r
    | some p => do
      let v ← toInt (if pressureUnit isImperialUnit = .INCHES_HG then f32 (p * 100) else p)
      .ok { r with atmosphericPressure := v }
  else .ok r

/-- The body of the loop of `currentWeatherFromMetar` for a group that is not a trend,
summary.cpp:472-569. A group is of one type, so of the `if` statements at most one applies. -/
def metarGroup (isImperialUnit : Bool) (group : Group) (windSpeed : Speed) (r : CurrentWeather) :
    Res (Speed × CurrentWeather) :=
  match group with
  | .keyword gr => do .ok (windSpeed, ← keywordGroup isImperialUnit gr r)
  | .wind gr =>
    if gr.windType = .SURFACE_WIND ∨ gr.windType = .SURFACE_WIND_CALM ∨
        gr.windType = .SURFACE_WIND_WITH_VARIABLE_SECTOR then do
      .ok (gr.wSpeed, ← windValues isImperialUnit gr r)
    else .ok (windSpeed, r)
  | .visibility gr =>
    if gr.visType = .PREVAILING ∨ gr.visType = .PREVAILING_NDV then do
      let v ← assign (gr.visibility.toUnit (visibilityUnit isImperialUnit)) r.visibility
      .ok (windSpeed, { r with visibility := v })
    else .ok (windSpeed, r)
  | .cloud gr => .ok (windSpeed, cloudGroup gr r)
  | .weather gr =>
    if gr.t = .CURRENT then .ok (windSpeed, { r with weather := r.weather ++ weatherCodes gr })
    else .ok (windSpeed, r)
  | .temperature gr => do .ok (windSpeed, ← temperatureGroup isImperialUnit windSpeed gr r)
  | .pressure gr => do .ok (windSpeed, ← pressureGroup isImperialUnit gr r)
  | _ => .ok (windSpeed, r)

/-- The loop of `currentWeatherFromMetar`, summary.cpp:470-570; it is left at the first trend. -/
def metarLoop (isImperialUnit : Bool) :
    List GroupInfo → Speed → CurrentWeather → Res CurrentWeather
  | [], _, r => .ok r
  | x :: xs, windSpeed, r =>
    match x.group with
    | .trend _ => .ok r
    | g => do
      let s ← metarGroup isImperialUnit g windSpeed r
      metarLoop isImperialUnit xs s.1 s.2

/-- `currentWeatherFromMetar`, summary.cpp:463-572. -/
def currentWeatherFromMetar (metarGroups : List GroupInfo) (isImperialUnit : Bool) :
    Res CurrentWeather :=
  metarLoop isImperialUnit metarGroups {} {}

/-- The body of the loop of `currentWeatherFromTaf` for a group that is not a trend,
summary.cpp:582-631. The variable `windSpeed` is not used there and left out. -/
def tafGroup (isImperialUnit : Bool) (group : Group) (r : CurrentWeather) : Res CurrentWeather :=
  match group with
  | .keyword gr => keywordGroup isImperialUnit gr r
  | .wind gr => windValues isImperialUnit gr r
  | .visibility gr => do
    let v ← assign (gr.visibility.toUnit (visibilityUnit isImperialUnit)) r.visibility
    .ok { r with visibility := v }
  | .cloud gr => .ok (cloudGroup gr r)
  | .weather gr => .ok { r with weather := r.weather ++ weatherCodes gr }
  | _ => .ok r

/-- The loop of `currentWeatherFromTaf`, summary.cpp:580-632; it is left at the second trend. -/
def tafLoop (isImperialUnit : Bool) : List GroupInfo → Nat → CurrentWeather → Res CurrentWeather
  | [], _, r => .ok r
  | x :: xs, trendCounter, r =>
    match x.group with
    | .trend _ =>
      if trendCounter + 1 > 1 then .ok r else tafLoop isImperialUnit xs (trendCounter + 1) r
    | g => do
      let r ← tafGroup isImperialUnit g r
      tafLoop isImperialUnit xs trendCounter r

/-- `currentWeatherFromTaf`, summary.cpp:574-634. -/
def currentWeatherFromTaf (tafGroups : List GroupInfo) (isImperialUnit : Bool) : Res CurrentWeather :=
  tafLoop isImperialUnit tafGroups 0 {}

/-- The loop of `temperatureForecastFromTaf`, summary.cpp:643-649: minimum and maximum of the last group
of minimum and maximum temperatures. -/
def minMaxLoop : List GroupInfo → Temperature × Temperature → Temperature × Temperature
  | [], t => t
  | x :: xs, t =>
    match x.group with
    | .minMaxTemperature gr => minMaxLoop xs (gr.minTemp, gr.maxTemp)
    | _ => minMaxLoop xs t

/-- `temperatureForecastFromTaf`, summary.cpp:636-656. -/
def temperatureForecastFromTaf (currentWeather : CurrentWeather) (tafGroups : List GroupInfo)
    (isImperialUnit : Bool) : Res CurrentWeather := do
  let t := minMaxLoop tafGroups ({}, {})
  let unit := temperatureUnit isImperialUnit
  let low ← assign (t.1.toUnit unit) currentWeather.airTemperatureLow
  let high ← assign (t.2.toUnit unit) currentWeather.airTemperatureHigh
  .ok { currentWeather with airTemperatureLow := low, airTemperatureHigh := high }

/-- `reportReleaseTime`, summary.cpp:658-677. -/
def reportReleaseTime (currentWeather : CurrentWeather) :
    List GroupInfo → Int → Int → Int → CurrentWeather
  | [], _, _, _ => currentWeather
  | x :: xs, year, month, day =>
    match x.group with
    | .reportTime gr =>
      let currDate : Date :=
        { year := toUnsigned year, month := toUnsigned month, day := toUnsigned day }
      let reportDate := gr.t.dateBeforeRef currDate
      reportReleaseTime
        { currentWeather with
          updateYear := toSigned reportDate.year
          updateMonth := toSigned reportDate.month
          updateDay := toSigned reportDate.day
          updateHour := toSigned gr.t.hourValue
          updateMinute := toSigned gr.t.minuteValue } xs year month day
    | _ => reportReleaseTime currentWeather xs year month day

/-- `getCurrentWeather`, summary.cpp:679-700. -/
def getCurrentWeather (metar taf : Str) (currYear currMonth currDay : Int) (isImperialUnit : Bool) :
    Res CurrentWeather := do
  let metarGroups ← parseReport metar .METAR
  let tafGroups ← parseReport taf .TAF
  let result ←
    if !metarGroups.isEmpty then do
      let r ← currentWeatherFromMetar metarGroups isImperialUnit
      .ok (reportReleaseTime r metarGroups currYear currMonth currDay)
    else do
      let r ← currentWeatherFromTaf tafGroups isImperialUnit
      .ok (reportReleaseTime r tafGroups currYear currMonth currDay)
  temperatureForecastFromTaf result tafGroups isImperialUnit

end Metaf.Summary
