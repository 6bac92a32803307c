import Verif.Model.Explain

/-!
Model of the web page `/repo/examples/shellfiles/summary_shell.html`, which shows the summaries of the weather
near the visitor, and of the bindings by which it calls `getCurrentWeather` (summary.cpp:702-818).

Simplifications. Requests to the data server, the position of the visitor and the DOM are not modelled: the
data received are lists of elements (`Element`), what is shown is the text assigned to `innerHTML`. The distance
between two positions is a parameter. The clock and the time zone of the device are parameters (`Device`); the
zone has the same offset all year. Texts are lists of characters and go to the library as they are (the
conversion from UTF-16 to UTF-8 is left out). Numbers are exact: all of them are integers of 32 bits, or such
integers divided by 100 or by 1000, which have at most 13 significant digits, so that JavaScript prints exactly
the decimal number.
-/

namespace Metaf.Page

open Metaf.Summary (Code Sky CurrentWeather valueNotSpecified)

variable [FloatSem]

/-- How the processing of the data may end early; the `catch` at summary_shell.html:1107 logs it. -/
inductive Failure
  /-- A fault within the library. -/
  | library (f : Fault)
  /-- A member of `undefined` is read (`Module.Weather.NAME.value` if the name is not bound). -/
  | typeError
  /-- `undefined` is passed where the bindings expect a text. -/
  | bindingError
  deriving DecidableEq, Repr

/-- Result of a part of the script. -/
abbrev Js (α : Type) := Except Failure α

/-- A call of the library. -/
def call {α : Type} : Res α → Js α
  | .ok a => .ok a
  | .error f => .error (.library f)

/-! ### Bindings -/

/-- `Cloud` as a number, summary.cpp:16-22. -/
def skyNum : Sky → Int
  | .NOT_SPECIFIED => -1
  | .CLEAR => 0
  | .MOSTLY_CLEAR => 1
  | .MOSTLY_CLOUDY => 2
  | .OVERCAST => 3

/-- `enum_<Cloud>("Cloud")`, summary.cpp:706-712. -/
def cloudBindings : List (Str × Sky) := [
  (c!"NOT_SPECIFIED", .NOT_SPECIFIED),
  (c!"CLEAR", .CLEAR),
  (c!"MOSTLY_CLEAR", .MOSTLY_CLEAR),
  (c!"MOSTLY_CLOUDY", .MOSTLY_CLOUDY),
  (c!"OVERCAST", .OVERCAST)]

/-- `enum_<Weather>("Weather")`, summary.cpp:714-789. -/
def weatherBindings : List (Str × Code) := [
  (c!"NOT_SPECIFIED", .NOT_SPECIFIED),
  (c!"PRECIPITATION_IN_VICINITY", .PRECIPITATION_IN_VICINITY),
  (c!"THUNDERSTORM_IN_VICINITY", .THUNDERSTORM_IN_VICINITY),
  (c!"FOG_IN_VICINITY", .FOG_IN_VICINITY),
  (c!"VOLCANIC_ASH_IN_VICINITY", .VOLCANIC_ASH_IN_VICINITY),
  (c!"DUST_WHIRLS_IN_VICINITY", .DUST_WHIRLS_IN_VICINITY),
  (c!"BLOWING_SNOW_IN_VICINITY", .BLOWING_SNOW_IN_VICINITY),
  (c!"BLOWING_DUST_IN_VICINITY", .BLOWING_DUST_IN_VICINITY),
  (c!"BLOWING_SAND_IN_VICINITY", .BLOWING_SAND_IN_VICINITY),
  (c!"SANDSTORM_IN_VICINITY", .SANDSTORM_IN_VICINITY),
  (c!"DUSTSTORM_IN_VICINITY", .DUSTSTORM_IN_VICINITY),
  (c!"DRIFTING_SAND", .DRIFTING_SAND),
  (c!"DRIFTING_DUST", .DRIFTING_DUST),
  (c!"DRIFTING_SNOW", .DRIFTING_SNOW),
  (c!"BLOWING_SAND", .BLOWING_SAND),
  (c!"BLOWING_DUST", .BLOWING_DUST),
  (c!"BLOWING_SNOW", .BLOWING_SNOW),
  (c!"BLOWING_SPRAY", .BLOWING_SPRAY),
  (c!"FOG", .FOG),
  (c!"FOG_SHALLOW", .FOG_SHALLOW),
  (c!"FOG_PARTIAL", .FOG_PARTIAL),
  (c!"FOG_PATCHES", .FOG_PATCHES),
  (c!"FOG_FREEZING", .FOG_FREEZING),
  (c!"ICE_CRYSTALS", .ICE_CRYSTALS),
  (c!"MIST", .MIST),
  (c!"SMOKE", .SMOKE),
  (c!"VOLCANIC_ASH", .VOLCANIC_ASH),
  (c!"WIDESPREAD_DUST", .WIDESPREAD_DUST),
  (c!"SAND", .SAND),
  (c!"HAZE", .HAZE),
  (c!"DRIZZLE_LIGHT", .DRIZZLE_LIGHT),
  (c!"DRIZZLE_MODERATE", .DRIZZLE_MODERATE),
  (c!"DRIZZLE_HEAVY", .DRIZZLE_HEAVY),
  (c!"RAIN_LIGHT", .RAIN_LIGHT),
  (c!"RAIN_MODERATE", .RAIN_MODERATE),
  (c!"RAIN_HEAVY", .RAIN_HEAVY),
  (c!"SNOW_LIGHT", .SNOW_LIGHT),
  (c!"SNOW_MODERATE", .SNOW_MODERATE),
  (c!"SNOW_HEAVY", .SNOW_HEAVY),
  (c!"ICE_PELLETS_LIGHT", .ICE_PELLETS_LIGHT),
  (c!"ICE_PELLETS_MODERATE", .ICE_PELLETS_MODERATE),
  (c!"ICE_PELLETS_HEAVY", .ICE_PELLETS_HEAVY),
  (c!"SNOW_GRAINS_LIGHT", .SNOW_GRAINS_LIGHT),
  (c!"SNOW_GRAINS_MODERATE", .SNOW_GRAINS_MODERATE),
  (c!"SNOW_GRAINS_HEAVY", .SNOW_GRAINS_HEAVY),
  (c!"GRAUPEL", .GRAUPEL),
  (c!"HAIL", .HAIL),
  (c!"UNDETERMINED_LIGHT", .UNDETERMINED_LIGHT),
  (c!"UNDETERMINED_MODERATE", .UNDETERMINED_MODERATE),
  (c!"UNDETERMINED_HEAVY", .UNDETERMINED_HEAVY),
  (c!"RAIN_SHOWERS_LIGHT", .RAIN_SHOWERS_LIGHT),
  (c!"RAIN_SHOWERS_MODERATE", .RAIN_SHOWERS_MODERATE),
  (c!"RAIN_SHOWERS_HEAVY", .RAIN_SHOWERS_HEAVY),
  (c!"SNOW_SHOWERS_LIGHT", .SNOW_SHOWERS_LIGHT),
  (c!"SNOW_SHOWERS_MODERATE", .SNOW_SHOWERS_MODERATE),
  (c!"SNOW_SHOWERS_HEAVY", .SNOW_SHOWERS_HEAVY),
  (c!"ICE_PELLETS_SHOWERS_LIGHT", .ICE_PELLETS_SHOWERS_LIGHT),
  (c!"ICE_PELLETS_SHOWERS_MODERATE", .ICE_PELLETS_SHOWERS_MODERATE),
  (c!"ICE_PELLETS_SHOWERS_HEAVY", .ICE_PELLETS_SHOWERS_HEAVY),
  (c!"DRIZZLE_FREEZING_LIGHT", .DRIZZLE_FREEZING_LIGHT),
  (c!"DRIZZLE_FREEZING_MODERATE", .DRIZZLE_FREEZING_MODERATE),
  (c!"DRIZZLE_FREEZING_HEAVY", .DRIZZLE_FREEZING_HEAVY),
  (c!"RAIN_FREEZING_LIGHT", .RAIN_FREEZING_LIGHT),
  (c!"RAIN_FREEZING_MODERATE", .RAIN_FREEZING_MODERATE),
  (c!"RAIN_FREEZING_HEAVY", .RAIN_FREEZING_HEAVY),
  (c!"THUNDERSTORM", .THUNDERSTORM),
  (c!"DUST_WHIRLS", .DUST_WHIRLS),
  (c!"SQUALLS", .SQUALLS),
  (c!"FUNNEL_CLOUD", .FUNNEL_CLOUD),
  (c!"TORNADO", .TORNADO),
  (c!"SANDSTORM", .SANDSTORM),
  (c!"SANDSTORM_HEAVY", .SANDSTORM_HEAVY),
  (c!"DUSTSTORM", .DUSTSTORM),
  (c!"DUSTSTORM_HEAVY", .DUSTSTORM_HEAVY)]

/-- What is bound to a name; `undefined` if nothing is (as used at summary_shell.html:188-420 and 638-817). -/
def bound {α : Type} (bindings : List (Str × α)) (name : Str) : Js α :=
  match bindings with
  | [] => .error .typeError
  | b :: bs => if b.1 = name then .ok b.2 else bound bs name

/-- `Module.Cloud.NAME.value`, for example at summary_shell.html:189. -/
def cloudValue (name : Str) : Js Int := do .ok (skyNum (← bound cloudBindings name))

/-- `Module.Weather.NAME.value`, for example at summary_shell.html:200. -/
def weatherValue (name : Str) : Js Nat := do .ok (← bound weatherBindings name).num

/-- The object with the current weather as the script uses it: `value_object<CurrentWeather>`,
summary.cpp:791-811, after `adaptCurrentWeather`. -/
structure Shown where
  windDirection : Option Int := none
  isWindVariable : Bool := false
  windSpeed : Option Int := none
  gustSpeed : Option Int := none
  visibility : Option Int := none
  cloud : Int := -1
  isStormClouds : Bool := false
  weather : List Nat := []
  airTemperature : Option Int := none
  perceivedTemperature : Option Int := none
  airTemperatureHigh : Option Int := none
  airTemperatureLow : Option Int := none
  relativeHumidity : Option Int := none
  atmosphericPressure : Option Int := none
  updateYear : Option Int := none
  updateMonth : Option Int := none
  updateDay : Option Int := none
  updateHour : Option Int := none
  updateMinute : Option Int := none
  deriving DecidableEq, Repr

/-! ### Preparation of the data -/

/-- `nullIfNoValue`, summary_shell.html:155-158. -/
def nullIfNoValue (data noValue : Int) : Option Int := if data = noValue then none else some data

/-- `adaptCurrentWeather`, summary_shell.html:160-185, with the fields bound at summary.cpp:791-811. -/
def adaptCurrentWeather (w : CurrentWeather) (noValue : Int) : Shown where
  windDirection := nullIfNoValue w.windDirection noValue
  isWindVariable := w.isWindVariable
  windSpeed := nullIfNoValue w.windSpeed noValue
  gustSpeed := nullIfNoValue w.gustSpeed noValue
  visibility := nullIfNoValue w.visibility noValue
  cloud := skyNum w.cloud
  isStormClouds := w.isStormClouds
  weather := w.weather
  airTemperature := nullIfNoValue w.airTemperature noValue
  perceivedTemperature := nullIfNoValue w.perceivedTemperature noValue
  airTemperatureHigh := nullIfNoValue w.airTemperatureHigh noValue
  airTemperatureLow := nullIfNoValue w.airTemperatureLow noValue
  relativeHumidity := nullIfNoValue w.relativeHumidity noValue
  atmosphericPressure := nullIfNoValue w.atmosphericPressure noValue
  updateYear := nullIfNoValue w.updateYear noValue
  updateMonth := nullIfNoValue w.updateMonth noValue
  updateDay := nullIfNoValue w.updateDay noValue
  updateHour := nullIfNoValue w.updateHour noValue
  updateMinute := nullIfNoValue w.updateMinute noValue

/-! ### Texts -/

/-- A whole number within a text, for example at summary_shell.html:568. -/
def showInt (n : Int) : Str := Explain.showInt n

/-- Zeros at the end of the decimals are not printed (`toString`, summary_shell.html:943). -/
def dropZeros (s : Str) : Str := (s.reverse.dropWhile (· = '0')).reverse

/-- A whole number divided by 10 to the power `places`, as JavaScript prints it, at summary_shell.html:608 and
943. -/
def showQuotient (n : Int) (places : Nat) : Str :=
  let whole := n.natAbs / 10 ^ places
  let decimals := dropZeros (Explain.digits places (n.natAbs % 10 ^ places))
  (if n < 0 then ['-'] else []) ++ Explain.showNat whole ++ (if decimals = [] then [] else '.' :: decimals)

/-- A `switch` over the values of names in order, `summary_shell.html:188-195` and 199-424: the text of the
first name with the value given. -/
def switchText {α : Type} [DecidableEq α] (value : Str → Js α) (a : α) (default : Str) : List (Str × Str) → Js Str
  | [] => .ok default
  | c :: cs => do
    let v ← value c.1
    if v = a then .ok c.2 else switchText value a default cs

/-- The cases of `cloudToText`, summary_shell.html:189-193. -/
def cloudTexts : List (Str × Str) := [
  (c!"NOT_SPECIFIED", c!"Cloud data not specified"),
  (c!"CLEAR", c!"Clear"),
  (c!"MOSTLY_CLEAR", c!"Mostly clear"),
  (c!"MOSTLY_CLOUDY", c!"Mostly cloudy"),
  (c!"OVERCAST", c!"Overcast")]

/-- `cloudToText`, summary_shell.html:187-196. -/
def cloudToText (cloud : Int) : Js Str := switchText cloudValue cloud c!"Cloud data unknown" cloudTexts

/-- The cases of `weatherPhenomenaToText`, summary_shell.html:200-420. -/
def weatherTexts : List (Str × Str) := [
  (c!"NOT_SPECIFIED", c!"Weather data not specified"),
  (c!"PRECIPITATION_IN_VICINITY", c!"Precipitation in vicinity"),
  (c!"THUNDERSTORM_IN_VICINITY", c!"Thunderstorm in vicinity"),
  (c!"FOG_IN_VICINITY", c!"Fog in vicinity"),
  (c!"VOLCANIC_ASH_IN_VICINITY", c!"Volcanic ash in vicinity"),
  (c!"DUST_WHIRLS_IN_VICINITY", c!"Sand or dust whirls in vicinity"),
  (c!"BLOWING_SNOW_IN_VICINITY", c!"Blowing snow in vicinity"),
  (c!"BLOWING_DUST_IN_VICINITY", c!"Blowing dust in vicinity"),
  (c!"BLOWING_SAND_IN_VICINITY", c!"Blowing sand in vicinity"),
  (c!"SANDSTORM_IN_VICINITY", c!"Sand storm in vicinity"),
  (c!"DUSTSTORM_IN_VICINITY", c!"Dust storm in vicinity"),
  (c!"DRIFTING_SAND", c!"Low drifting sand"),
  (c!"DRIFTING_DUST", c!"Low drifting dust"),
  (c!"DRIFTING_SNOW", c!"Low drifting snow"),
  (c!"BLOWING_SAND", c!"Blowing sand"),
  (c!"BLOWING_DUST", c!"Blowing dust"),
  (c!"BLOWING_SNOW", c!"Blowing snow"),
  (c!"BLOWING_SPRAY", c!"Blowing spray"),
  (c!"FOG", c!"Fog"),
  (c!"FOG_SHALLOW", c!"Ground fog"),
  (c!"FOG_PARTIAL", c!"Location partly covered by fog"),
  (c!"FOG_PATCHES", c!"Random patches of fog"),
  (c!"FOG_FREEZING", c!"Freezing fog"),
  (c!"ICE_CRYSTALS", c!"Airborne ice crystals (diamond dust)"),
  (c!"MIST", c!"Mist"),
  (c!"SMOKE", c!"Smoke"),
  (c!"VOLCANIC_ASH", c!"Volcanic ash"),
  (c!"WIDESPREAD_DUST", c!"Widespread dust"),
  (c!"SAND", c!"Airborne sand particles"),
  (c!"HAZE", c!"Haze"),
  (c!"DRIZZLE_LIGHT", c!"Light drizzle"),
  (c!"DRIZZLE_MODERATE", c!"Moderate drizzle"),
  (c!"DRIZZLE_HEAVY", c!"Heavy drizzle"),
  (c!"RAIN_LIGHT", c!"Light rain"),
  (c!"RAIN_MODERATE", c!"Moderate rain"),
  (c!"RAIN_HEAVY", c!"Heavy rain"),
  (c!"SNOW_LIGHT", c!"Light snow"),
  (c!"SNOW_MODERATE", c!"Moderate snow"),
  (c!"SNOW_HEAVY", c!"Heavy snow"),
  (c!"ICE_PELLETS_LIGHT", c!"Ice pellets (light intensity)"),
  (c!"ICE_PELLETS_MODERATE", c!"Ice pellets (moderate intensity)"),
  (c!"ICE_PELLETS_HEAVY", c!"Ice pellets (heavy intensity)"),
  (c!"SNOW_GRAINS_LIGHT", c!"Snow grains (light intensity)"),
  (c!"SNOW_GRAINS_MODERATE", c!"Snow grains (moderate intensity)"),
  (c!"SNOW_GRAINS_HEAVY", c!"Snow grains (heavy intensity)"),
  (c!"GRAUPEL", c!"Graupel"),
  (c!"HAIL", c!"Hail"),
  (c!"UNDETERMINED_LIGHT", c!"Undetermined precipitation (light)"),
  (c!"UNDETERMINED_MODERATE", c!"Undetermined precipitation (moderate)"),
  (c!"UNDETERMINED_HEAVY", c!"Undetermined precipitation (heavy)"),
  (c!"RAIN_SHOWERS_LIGHT", c!"Light showers"),
  (c!"RAIN_SHOWERS_MODERATE", c!"Moderate showers"),
  (c!"RAIN_SHOWERS_HEAVY", c!"Heavy showers"),
  (c!"SNOW_SHOWERS_LIGHT", c!"Light snow showers"),
  (c!"SNOW_SHOWERS_MODERATE", c!"Moderate snow showers"),
  (c!"SNOW_SHOWERS_HEAVY", c!"Heavy snow showers"),
  (c!"ICE_PELLETS_SHOWERS_LIGHT", c!"Light ice pellet showers"),
  (c!"ICE_PELLETS_SHOWERS_MODERATE", c!"Moderate ice pellet showers"),
  (c!"ICE_PELLETS_SHOWERS_HEAVY", c!"Heavy ice pellet showers"),
  (c!"DRIZZLE_FREEZING_LIGHT", c!"Light freezing drizzle"),
  (c!"DRIZZLE_FREEZING_MODERATE", c!"Moderate freezing drizzle"),
  (c!"DRIZZLE_FREEZING_HEAVY", c!"Heavy freezing drizzle"),
  (c!"RAIN_FREEZING_LIGHT", c!"Light freezing rain"),
  (c!"RAIN_FREEZING_MODERATE", c!"Moderate freezing rain"),
  (c!"RAIN_FREEZING_HEAVY", c!"Heavy freezing rain"),
  (c!"THUNDERSTORM", c!"Thunderstorm"),
  (c!"DUST_WHIRLS", c!"Sand or dust whirls"),
  (c!"SQUALLS", c!"Squalls"),
  (c!"FUNNEL_CLOUD", c!"Funnel cloud"),
  (c!"TORNADO", c!"Tornado or waterspout"),
  (c!"SANDSTORM", c!"Sand storm"),
  (c!"SANDSTORM_HEAVY", c!"Heavy sand storm"),
  (c!"DUSTSTORM", c!"Dust storm"),
  (c!"DUSTSTORM_HEAVY", c!"Heavy dust storm")]

/-- `weatherPhenomenaToText`, summary_shell.html:198-425. -/
def weatherPhenomenaToText (phenomena : Nat) : Js Str :=
  switchText weatherValue phenomena c!"Unknown weather phenomena" weatherTexts

/-- `weatherToText`, summary_shell.html:427-434. -/
def weatherToText (eol : Str) : List Nat → Js Str
  | [] => .ok []
  | value :: rest => do
    let text ← weatherPhenomenaToText value
    let more ← weatherToText eol rest
    .ok (text ++ eol ++ more)

/-- `directionToCardinalText`, summary_shell.html:436-459. -/
def directionToCardinalText (degrees : Int) : Option Str :=
  if degrees > 360 then none
  else if degrees = 360 then some c!"true north"
  else if degrees = 90 then some c!"true east"
  else if degrees = 180 then some c!"true south"
  else if degrees = 270 then some c!"true west"
  else if degrees ≤ 11 then some c!"north"
  else if degrees ≤ 33 then some c!"north-northeast"
  else if degrees ≤ 56 then some c!"northeast"
  else if degrees ≤ 78 then some c!"east-northeast"
  else if degrees ≤ 101 then some c!"east"
  else if degrees ≤ 123 then some c!"east-southeast"
  else if degrees ≤ 146 then some c!"southeast"
  else if degrees ≤ 168 then some c!"south-southeast"
  else if degrees ≤ 191 then some c!"south"
  else if degrees ≤ 213 then some c!"south-southwest"
  else if degrees ≤ 236 then some c!"southwest"
  else if degrees ≤ 258 then some c!"west-southwest"
  else if degrees ≤ 281 then some c!"west"
  else if degrees ≤ 303 then some c!"west-northwest"
  else if degrees ≤ 326 then some c!"northwest"
  else if degrees ≤ 348 then some c!"north-northwest"
  else some c!"north"

/-- Two digits of an hour or minute, summary_shell.html:464-465 and 467-468. -/
def twoDigits (n : Int) : Str := (if n < 10 then c!"0" else []) ++ showInt n

/-- `dateTimeToStr_HH_MM`, summary_shell.html:461-470; the time is given by the minute of the day. -/
def dateTimeToStr_HH_MM (minuteOfDay : Int) : Str :=
  twoDigits (minuteOfDay / 60) ++ c!":" ++ twoDigits (minuteOfDay % 60)

/-- `timeDifferenceMinutesToString`, summary_shell.html:488-506. -/
def timeDifferenceMinutesToString (timeDiffMinutes : Int) : Str :=
  if timeDiffMinutes = 0 then c!"just now"
  else
    let timeDiffHours := timeDiffMinutes.tdiv 60
    let timeDiffMinutesOfHour := timeDiffMinutes - timeDiffHours * 60
    (if timeDiffHours = 0 then [] else if timeDiffHours = 1 then c!"1 hour" else showInt timeDiffHours ++ c!" hours") ++
    (if timeDiffHours ≠ 0 ∧ timeDiffMinutesOfHour ≠ 0 then c!" " else []) ++
    (if timeDiffMinutesOfHour = 0 then [] else if timeDiffMinutesOfHour = 1 then c!"1 minute"
     else showInt timeDiffMinutesOfHour ++ c!" minutes")

/-- The temperature that counts, summary_shell.html:510 and 517. -/
def feltTemperature (actualTemp feelsTemp : Option Int) : Option Int :=
  match feelsTemp with
  | some t => some t
  | none => actualTemp

/-- `isHot`, summary_shell.html:508-513. -/
def isHot (actualTemp feelsTemp : Option Int) (imperialUnits : Bool) : Bool :=
  let hotTemp : Int := if imperialUnits then 86 else 30
  match feltTemperature actualTemp feelsTemp with
  | none => false
  | some temp => decide (temp ≥ hotTemp)

/-- `isCold`, summary_shell.html:515-520. -/
def isCold (actualTemp feelsTemp : Option Int) (imperialUnits : Bool) : Bool :=
  let coldTemp : Int := if imperialUnits then 5 else -15
  match feltTemperature actualTemp feelsTemp with
  | none => false
  | some temp => decide (temp ≤ coldTemp)

/-- `isWindy`, summary_shell.html:522-526. The number 24.85 is compared with whole numbers only. -/
def isWindy (windSpeed : Option Int) (imperialUnits : Bool) : Bool :=
  let windySpeedThreshold : Rat := if imperialUnits then 2485 / 100 else 40
  match windSpeed with
  | none => false
  | some s => decide ((s : Rat) ≥ windySpeedThreshold)

/-! ### Time -/

/-- The device of the visitor: milliseconds since 1970 on its clock and the offset of its time zone in minutes
(east of Greenwich is positive), used at summary_shell.html:79-83, 623-633 and 1098. -/
structure Device where
  now : Int
  zone : Int
  deriving DecidableEq, Repr

/-- `Math.round`, summary_shell.html:82 and 914-915. -/
def mathRound (q : Rat) : Int := (q + 1 / 2).floor

/-- `getActualTimeOffset`, summary_shell.html:79-83; `getTimezoneOffset` is the negative offset of the zone. -/
def getActualTimeOffset (device : Device) (referenceTimeGMT : Int) : Int :=
  let localTimeWithTzOffset := device.now - (-device.zone) * 60000
  mathRound (((localTimeWithTzOffset - referenceTimeGMT : Int) : Rat) / 60000)

/-- Days from 1 January 1970 to 1 January of a year (`DayFromYear` of ECMAScript, used by `new Date` at
summary_shell.html:619). -/
def dayFromYear (y : Int) : Int := 365 * (y - 1970) + (y - 1969) / 4 - (y - 1901) / 100 + (y - 1601) / 400

/-- Is the year a leap year (ECMAScript, `new Date` at summary_shell.html:619)? -/
def isLeap (y : Int) : Bool := y % 4 = 0 && (y % 100 ≠ 0 || y % 400 = 0)

/-- Days of the year before a month, counted from 0 (ECMAScript, `new Date` at summary_shell.html:619). -/
def dayBeforeMonth (leap : Bool) (month : Int) : Int :=
  let before : Int :=
    if month = 0 then 0 else if month = 1 then 31 else if month = 2 then 59 else if month = 3 then 90
    else if month = 4 then 120 else if month = 5 then 151 else if month = 6 then 181 else if month = 7 then 212
    else if month = 8 then 243 else if month = 9 then 273 else if month = 10 then 304 else 334
  if leap && month ≥ 2 then before + 1 else before

/-- Days from 1 January 1970 to a date, the month counted from 0 (`MakeDay` of ECMAScript, used by `new Date` at
summary_shell.html:619). -/
def makeDay (year month day : Int) : Int :=
  let y := year + month / 12
  dayFromYear y + dayBeforeMonth (isLeap y) (month % 12) + (day - 1)

/-- `new Date(year, month, day, hour, minute, 0, 0)` in minutes since 1970, on a device with a time zone,
summary_shell.html:619-626. A year from 0 to 99 means 1900 to 1999. -/
def newDate (device : Device) (year month day hour minute : Int) : Int :=
  let fullYear := if 0 ≤ year ∧ year ≤ 99 then 1900 + year else year
  makeDay fullYear month day * 1440 + hour * 60 + minute - device.zone

/-- `getHours` and `getMinutes` of a time given in minutes since 1970, as the minute of the day in the time zone of
the device, summary_shell.html:464-468. -/
def minuteOfDay (device : Device) (time : Int) : Int := (time + device.zone) % 1440

/-- The line with the time of the report, summary_shell.html:612-634. -/
def updatedText (device : Device) (weather : Shown) (eol : Str) (tzOffsetMinutes : Int) : Str :=
  match weather.updateYear, weather.updateMonth, weather.updateDay, weather.updateHour, weather.updateMinute with
  | some year, some month, some day, some hour, some minute =>
    let updateTimeGMT := newDate device year (month - 1) day hour minute
    let updateTimeLocal := updateTimeGMT + tzOffsetMinutes
    let updatedMinutesAgo := (device.now - updateTimeLocal * 60000).tdiv 60000
    c!"Updated: " ++ dateTimeToStr_HH_MM (minuteOfDay device updateTimeLocal) ++ c!" (" ++
      timeDifferenceMinutesToString updatedMinutesAgo ++ c!" ago)" ++ eol
  | _, _, _, _, _ => []

/-! ### The text about the weather -/

/-- The lines about hot, cold and windy weather, summary_shell.html:539-557. -/
def conditionsText (weather : Shown) (imperialUnits : Bool) (eol : Str) : Str :=
  (if isHot weather.airTemperature weather.perceivedTemperature imperialUnits then c!"Hot" ++ eol else []) ++
  (if isCold weather.airTemperature weather.perceivedTemperature imperialUnits then c!"Cold" ++ eol else []) ++
  (if isWindy weather.windSpeed imperialUnits then c!"Windy" ++ eol else []) ++
  (if isWindy weather.gustSpeed imperialUnits then c!"Gusty wind" ++ eol else [])

/-- The line about the clouds, summary_shell.html:559-561. -/
def cloudLine (weather : Shown) (eol : Str) : Js Str := do
  let text ← cloudToText weather.cloud
  .ok (text ++ (if weather.isStormClouds then c!" (storm clouds in the sky)" else []) ++ eol)

/-- The lines about the temperature, summary_shell.html:563-578. -/
def temperatureText (weather : Shown) (imperialUnits : Bool) (eol : Str) : Str :=
  let tempUnit : Str := if imperialUnits then c!"&deg;F" else c!"&degC"
  c!"Temperature " ++
  (match weather.airTemperature with | some t => showInt t ++ tempUnit | none => c!"not specified") ++
  (match weather.airTemperatureHigh with | some t => c!", high " ++ showInt t ++ tempUnit | none => []) ++
  (match weather.airTemperatureLow with | some t => c!", low " ++ showInt t ++ tempUnit | none => []) ++
  eol ++
  (match weather.perceivedTemperature with
   | some t => c!"Feels like " ++ showInt t ++ tempUnit ++ eol | none => [])

/-- The line about the wind, summary_shell.html:580-597. -/
def windText (weather : Shown) (imperialUnits : Bool) (eol : Str) : Str :=
  let speedUnit : Str := if imperialUnits then c!"mph" else c!"km/h"
  if weather.windDirection ≠ none ∨ weather.windSpeed = none ∨ weather.isWindVariable = true then
    c!"Wind " ++
    (match weather.windDirection with
     | some d =>
       (match directionToCardinalText d with | some cardinal => c!"is " ++ cardinal ++ c!"ern, " | none => []) ++
       showInt d ++ c!"&deg;"
     | none => c!"is variable") ++
    (match weather.windSpeed with | some s => c!", " ++ showInt s ++ c!" " ++ speedUnit | none => []) ++
    (match weather.gustSpeed with
     | some s => c!" with gusts up to " ++ showInt s ++ c!" " ++ speedUnit | none => []) ++
    eol
  else []

/-- The lines about humidity, visibility and pressure, summary_shell.html:599-609. -/
def valuesText (weather : Shown) (imperialUnits : Bool) (eol : Str) : Str :=
  let pressureUnit : Str := if imperialUnits then c!"&quot;Hg" else c!"hPa"
  let visUnit : Str := if imperialUnits then c!"miles" else c!"meters"
  (match weather.relativeHumidity with | some h => c!"RH " ++ showInt h ++ c!"%" ++ eol | none => []) ++
  (match weather.visibility with | some v => c!"Visibility " ++ showInt v ++ c!" " ++ visUnit ++ eol | none => []) ++
  (match weather.atmosphericPressure with
   | some p =>
     c!"Atmospheric pressure " ++ (if imperialUnits then showQuotient p 2 else showInt p) ++ c!" " ++ pressureUnit ++ eol
   | none => [])

/-- `currentWeatherToHTML`, summary_shell.html:528-635. -/
def currentWeatherToHTML (device : Device) (weather : Shown) (imperialUnits : Bool) (eol : Str)
    (tzOffsetMinutes : Int) : Js Str := do
  let phenomena ← weatherToText eol weather.weather
  let clouds ← cloudLine weather eol
  .ok (phenomena ++ conditionsText weather imperialUnits eol ++ clouds ++ temperatureText weather imperialUnits eol ++
    windText weather imperialUnits eol ++ valuesText weather imperialUnits eol ++
    updatedText device weather eol tzOffsetMinutes)

/-! ### The icon -/

/-- `weather.includes(Module.Weather.NAME.value) || ...`, for example at summary_shell.html:642-647. -/
def includesAny (weather : List Nat) : List Str → Js Bool
  | [] => .ok false
  | name :: names => do
    let v ← weatherValue name
    if v ∈ weather then .ok true else includesAny weather names

/-- `cloud === Module.Cloud.NAME.value || ...`, for example at summary_shell.html:639-640. -/
def cloudIsAny (cloud : Int) : List Str → Js Bool
  | [] => .ok false
  | name :: names => do
    let v ← cloudValue name
    if cloud = v then .ok true else cloudIsAny cloud names

/-- `makeWeatherIcon`, summary_shell.html:637-822. Conditions joined by `&&` are evaluated both; as all the names are
bound, this makes no difference. -/
def makeWeatherIcon (w : Shown) (imperialUnits : Bool) : Js Str := do
  let isConsiderablyCloudy ← cloudIsAny w.cloud [c!"MOSTLY_CLOUDY", c!"OVERCAST"]
  let isFog ← includesAny w.weather [c!"FOG", c!"FOG_SHALLOW", c!"FOG_PARTIAL", c!"FOG_PATCHES", c!"FOG_FREEZING",
    c!"FOG_IN_VICINITY"]
  let isSnow ← includesAny w.weather [c!"SNOW_LIGHT", c!"SNOW_MODERATE", c!"SNOW_HEAVY", c!"SNOW_SHOWERS_LIGHT",
    c!"SNOW_SHOWERS_MODERATE", c!"SNOW_SHOWERS_HEAVY"]
  let isRainLight ← includesAny w.weather [c!"RAIN_LIGHT", c!"RAIN_SHOWERS_LIGHT"]
  let isRainModerateToHeavy ← includesAny w.weather [c!"RAIN_MODERATE", c!"RAIN_HEAVY", c!"RAIN_SHOWERS_MODERATE",
    c!"RAIN_SHOWERS_HEAVY"]
  let isRain := isRainLight || isRainModerateToHeavy
  let squalls ← includesAny w.weather [c!"SQUALLS"]
  let isWindyGustsSqualls := isWindy w.windSpeed imperialUnits || isWindy w.gustSpeed imperialUnits || squalls
  -- data not available
  let result : Str := c!"&#xf07b;"
  -- clear or mostly clear
  let clear ← cloudIsAny w.cloud [c!"CLEAR", c!"MOSTLY_CLEAR"]
  let result := if clear then c!"&#x0020;" else result
  -- mostly cloudy or storm clouds
  let mostlyCloudy ← cloudIsAny w.cloud [c!"MOSTLY_CLOUDY"]
  let result := if mostlyCloudy || w.isStormClouds then c!"&#xf041;" else result
  -- overcast
  let overcast ← cloudIsAny w.cloud [c!"OVERCAST"]
  let result := if overcast then c!"&#xf013;" else result
  -- hot, cold
  let result := if isHot w.airTemperature w.perceivedTemperature imperialUnits then c!"&#xf072;" else result
  let result := if isCold w.airTemperature w.perceivedTemperature imperialUnits then c!"&#xf076;" else result
  -- windy, gusts, squalls
  let result := if isWindyGustsSqualls then (if isConsiderablyCloudy then c!"&#xf011;" else c!"&#xf050;") else result
  -- mist, haze
  let mistHaze ← includesAny w.weather [c!"MIST", c!"HAZE"]
  let result := if mistHaze then c!"&#xf021;" else result
  -- fog
  let result := if isFog then c!"&#xf014;" else result
  -- smoke, smog
  let smoke ← includesAny w.weather [c!"SMOKE"]
  let mist ← includesAny w.weather [c!"MIST"]
  let result := if smoke then (if mist || isFog then c!"&#xf074;" else c!"&#xf062;") else result
  -- sand, widespread dust, ice crystals
  let dust ← includesAny w.weather [c!"SAND", c!"WIDESPREAD_DUST", c!"ICE_CRYSTALS"]
  let result := if dust then c!"&#xf063;" else result
  -- precipitation in vicinity
  let nearPrecipitation ← includesAny w.weather [c!"PRECIPITATION_IN_VICINITY"]
  let result := if nearPrecipitation then c!"&#xf084;" else result
  -- drifting or blowing sand or dust, or blowing snow in vicinity
  let drifting ← includesAny w.weather [c!"DRIFTING_DUST", c!"DRIFTING_SAND", c!"BLOWING_SAND", c!"BLOWING_DUST",
    c!"BLOWING_SPRAY", c!"BLOWING_DUST_IN_VICINITY", c!"BLOWING_SAND_IN_VICINITY", c!"BLOWING_SNOW_IN_VICINITY"]
  let result := if drifting then c!"&#xf082;" else result
  -- dust or sand whirls
  let whirls ← includesAny w.weather [c!"DUST_WHIRLS_IN_VICINITY", c!"DUST_WHIRLS"]
  let result := if whirls then c!"&#xf056;" else result
  -- drizzle
  let drizzle ← includesAny w.weather [c!"DRIZZLE_LIGHT", c!"DRIZZLE_MODERATE", c!"DRIZZLE_HEAVY"]
  let result := if drizzle then c!"&#xf01c;" else result
  -- rain or showers
  let result := if isRainLight then c!"&#xf01a;" else result
  let result := if isRainModerateToHeavy then c!"&#xf019;" else result
  -- blowing snow
  let blowingSnow ← includesAny w.weather [c!"BLOWING_SNOW"]
  let result := if blowingSnow then c!"&#xf082;" else result
  -- snow or snow showers
  let result := if isSnow then c!"&#xf01b;" else result
  -- windy with rain
  let result := if isRain && isWindyGustsSqualls then c!"&#xf018;" else result
  -- rain and snow mix
  let result := if isRainLight && isSnow then c!"&#xf017;" else result
  let result := if isRainModerateToHeavy && isSnow then c!"&#xf015;" else result
  -- windy with snow or blowing snow with falling snow
  let result := if isSnow && (isWindyGustsSqualls || blowingSnow) then c!"&#xf064;" else result
  -- sandstorm or duststorm
  let storm ← includesAny w.weather [c!"SANDSTORM", c!"SANDSTORM_HEAVY", c!"SANDSTORM_IN_VICINITY", c!"DUSTSTORM",
    c!"DUSTSTORM_HEAVY", c!"DUSTSTORM_IN_VICINITY"]
  let result := if storm then c!"&#xf082;" else result
  -- hail or graupel
  let hail ← includesAny w.weather [c!"HAIL", c!"GRAUPEL"]
  let result := if hail then c!"&#xf0b5;" else result
  -- thunderstorm in vicinity
  let nearThunderstorm ← includesAny w.weather [c!"THUNDERSTORM_IN_VICINITY"]
  let result := if nearThunderstorm then c!"&#xf016;" else result
  -- thunderstorm
  let thunderstorm ← includesAny w.weather [c!"THUNDERSTORM"]
  let result :=
    if thunderstorm then
      (if isRainModerateToHeavy then c!"&#xf01e;" else if isRainLight then c!"&#xf01d;" else c!"&#xf016;")
    else result
  -- freezing precipitation
  let freezing ← includesAny w.weather [c!"DRIZZLE_FREEZING_LIGHT", c!"DRIZZLE_FREEZING_MODERATE",
    c!"DRIZZLE_FREEZING_HEAVY", c!"RAIN_FREEZING_LIGHT", c!"RAIN_FREEZING_MODERATE", c!"RAIN_FREEZING_HEAVY"]
  let result :=
    if freezing then c!"<img class=\"ww_freezing_precip\" src=\"weather_widget/icicles-solid-wh.svg\">" else result
  -- volcanic ash
  let ash ← includesAny w.weather [c!"VOLCANIC_ASH", c!"VOLCANIC_ASH_IN_VICINITY"]
  let result := if ash then c!"&#xf0c8;" else result
  -- funnel cloud, tornado or waterspout
  let tornado ← includesAny w.weather [c!"FUNNEL_CLOUD", c!"TORNADO"]
  let result := if tornado then c!"&#xf056;" else result
  .ok result

/-! ### The widget -/

/-- A number or `null` within the script (`valueOrNullToString`, summary_shell.html:940-944); the number is a whole
number divided by 10 to the power `places`. -/
def valueOrNullToString (value : Option Int) (places : Nat) (nullValue : Str) : Str :=
  match value with
  | none => nullValue
  | some n => showQuotient n places

/-- `value / 100.0` or `value / 1000` for a number or `null`, summary_shell.html:857 and 869: JavaScript takes `null`
for 0. The result is to be read with as many decimal places. -/
def divided (value : Option Int) : Option Int := some (value.getD 0)

/-- A number or `null` within a text, summary_shell.html:834. -/
def showOrNull : Option Int → Str
  | none => c!"null"
  | some n => showInt n

/-- A line break and indentation within the text of the widget, summary_shell.html:877-893. -/
def indent (tabs : Nat) : Str := '\n' :: List.replicate tabs '\t'

/-- `makeWeatherWidget`, summary_shell.html:824-893. -/
def makeWeatherWidget (w : Shown) (imperialUnits : Bool) : Js Str := do
  let tempStyle : Str := if imperialUnits then c!"ww_temp_f" else c!"ww_temp_c"
  let tempFeelsStyle : Str := if imperialUnits then c!"ww_temp_feels_f" else c!"ww_temp_feels_c"
  let tempHighStyle : Str := if imperialUnits then c!"ww_temp_high_f" else c!"ww_temp_high_c"
  let tempLowStyle : Str := if imperialUnits then c!"ww_temp_low_f" else c!"ww_temp_low_c"
  let pressureStyle : Str := if imperialUnits then c!"ww_pres_inhg" else c!"ww_pres_hpa"
  let windStyle : Str := if imperialUnits then c!"ww_wind_mph" else c!"ww_wind_kmh"
  let visStyle : Str := if imperialUnits then c!"ww_vis_mile" else c!"ww_vis_km"
  let windIconStyle : Str :=
    if w.isWindVariable then []
    else c!" style=\"transform: rotate(" ++ showOrNull w.windDirection ++ c!"deg) scaleY(-1);\""
  let windIconClass : Str := if w.isWindVariable then c!"ww_wind_vrb_icon" else c!"ww_wind_dir_icon"
  let gustStyle : Str :=
    if w.gustSpeed = none then c!"ww_no_gust" else if imperialUnits then c!"ww_gust_mph" else c!"ww_gust_kmh"
  let gustStr := valueOrNullToString w.gustSpeed 0 []
  let tempStr := valueOrNullToString w.airTemperature 0 c!"=="
  let tempFeelsStr := valueOrNullToString w.perceivedTemperature 0 c!"=="
  let tempHighStr := valueOrNullToString w.airTemperatureHigh 0 c!"=="
  let tempLowStr := valueOrNullToString w.airTemperatureLow 0 c!"=="
  let rhStr := valueOrNullToString w.relativeHumidity 0 c!"=="
  let pressureStr :=
    if imperialUnits then valueOrNullToString (divided w.atmosphericPressure) 2 c!"=="
    else valueOrNullToString w.atmosphericPressure 0 c!"=="
  let windStr := valueOrNullToString w.windSpeed 0 c!"=="
  let visStr :=
    if imperialUnits then valueOrNullToString w.visibility 0 c!"=="
    else valueOrNullToString (divided w.visibility) 3 c!"=="
  let weatherIconStr ← makeWeatherIcon w imperialUnits
  .ok (indent 4 ++ c!"<div class=\"weather_widget\">" ++
    indent 5 ++ c!"<div class=\"ww_weather\">" ++ weatherIconStr ++ c!"</div>" ++
    indent 5 ++ c!"<div class=\"ww_temp_icon\">&#xf055;</div>" ++
    indent 5 ++ c!"<div class=\"" ++ tempStyle ++ c!"\">" ++ tempStr ++ c!"</div>" ++
    indent 5 ++ c!"<div class=\"" ++ tempFeelsStyle ++ c!"\">" ++ tempFeelsStr ++ c!"</div>" ++
    indent 5 ++ c!"<div class=\"" ++ windIconClass ++ c!"\"" ++ windIconStyle ++ c!">&#xf0b1;</div>" ++
    indent 5 ++ c!"<div class=\"" ++ windStyle ++ c!"\">" ++ windStr ++ c!"</div>" ++
    indent 5 ++ c!"<div class=\"" ++ gustStyle ++ c!"\">" ++ gustStr ++ c!"</div>" ++
    indent 5 ++ c!"<div class=\"ww_other\">" ++
    indent 6 ++ c!"<span class=\"" ++ tempLowStyle ++ c!"\">" ++ tempLowStr ++ c!"</span>" ++
    indent 6 ++ c!"<span class=\"" ++ tempHighStyle ++ c!"\">" ++ tempHighStr ++ c!"</span>" ++
    indent 6 ++ c!"<span class=\"ww_rh\">" ++ rhStr ++ c!"</span>" ++
    indent 6 ++ c!"<br>" ++
    indent 6 ++ c!"<span class=\"" ++ pressureStyle ++ c!"\">" ++ pressureStr ++ c!"</span>" ++
    indent 6 ++ c!"<span class=\"" ++ visStyle ++ c!"\">" ++ visStr ++ c!"</span>" ++
    indent 5 ++ c!"</div>" ++
    indent 4 ++ c!"</div>")

/-! ### The data received -/

/-- The child elements of an element of the data received: name and contents (`localName` and `innerHTML`,
summary_shell.html:129-136 and 142-151). -/
abbrev Element := List (Str × Str)

/-- The contents of the last child with a name; `undefined` if there is none (the loops at summary_shell.html:129-136
and 142-151). -/
def child (name : Str) : Element → Option Str
  | [] => none
  | c :: cs =>
    match child name cs with
    | some v => some v
    | none => if c.1 = name then some c.2 else none

/-- What `getReportFromNodeList` returns, summary_shell.html:152. -/
structure Report where
  id : Option Str
  lat : Option Str
  lon : Option Str
  report : Option Str
  deriving DecidableEq, Repr

/-- `getReportFromNodeList`, summary_shell.html:140-153. -/
def getReportFromNodeList (nodeList : Element) : Report where
  id := child c!"station_id" nodeList
  lat := child c!"latitude" nodeList
  lon := child c!"longitude" nodeList
  report := child c!"raw_text" nodeList

/-- What is stored for a station, summary_shell.html:1023-1030 and 1042-1049. `undefined` is `none`. A distance that
is not a number is `none`. -/
structure Station where
  name : Option Str
  lat : Option Str
  lon : Option Str
  distKm : Option Rat
  metar : Option Str
  taf : Option Str
  deriving DecidableEq, Repr

/-- A `Map` of the script: keys and values in the order in which the keys were added (summary_shell.html:1017). -/
abbrev Stations := List (Option Str × Station)

/-- `Map.get` and `Map.has`, summary_shell.html:1034, 1035, 1056 and 1057. -/
def Stations.get (m : Stations) (id : Option Str) : Option Station :=
  match m with
  | [] => none
  | e :: es => if e.1 = id then some e.2 else Stations.get es id

/-- `Map.set`, summary_shell.html:1022, 1037, 1040 and 1059: an existing key keeps its place. -/
def Stations.set (m : Stations) (id : Option Str) (s : Station) : Stations :=
  match m with
  | [] => [(id, s)]
  | e :: es => if e.1 = id then (id, s) :: es else e :: Stations.set es id s

/-- Distance in kilometres between the visitor and a position (`distanceKm`, summary_shell.html:85-106, which
computes with sine and cosine); not a number if a coordinate is missing. -/
abbrev Distances := Option Str → Option Str → Option Rat

/-- The loop over the METAR reports of `AWCdataToMap`, summary_shell.html:1019-1031. -/
def addMetars (distance : Distances) : List Element → Stations → Stations
  | [], m => m
  | e :: es, m =>
    let metar := getReportFromNodeList e
    addMetars distance es (m.set metar.id
      { name := some [], lat := metar.lat, lon := metar.lon, distKm := distance metar.lat metar.lon,
        metar := metar.report, taf := some [] })

/-- The loop over the TAF reports of `AWCdataToMap`, summary_shell.html:1033-1050. -/
def addTafs (distance : Distances) : List Element → Stations → Stations
  | [], m => m
  | e :: es, m =>
    let taf := getReportFromNodeList e
    addTafs distance es
      (match m.get taf.id with
       | some weatherDataElement => m.set taf.id { weatherDataElement with taf := taf.report }
       | none => m.set taf.id
          { name := some [], lat := taf.lat, lon := taf.lon, distKm := distance taf.lat taf.lon, metar := some [],
            taf := taf.report })

/-- `AWCdataToMap`, summary_shell.html:1016-1052. -/
def AWCdataToMap (distance : Distances) (metarData tafData : List Element) : Stations :=
  addTafs distance tafData (addMetars distance metarData [])

/-- `addStationNames`, summary_shell.html:1053-1063, with `getStationFromNodeList`, summary_shell.html:127-138. -/
def addStationNames : List Element → Stations → Stations
  | [], m => m
  | e :: es, m =>
    let id := child c!"station_id" e
    addStationNames es
      (match m.get id with
       | some weatherDataElement => m.set id { weatherDataElement with name := child c!"site" e }
       | none => m)

/-! ### The page -/

/-- `displayAerodromeCount`, summary_shell.html:895-900. -/
def displayAerodromeCount (count : Nat) : Str :=
  c!"<div class=\"weatherdataitem\">" ++ (if count > 0 then showInt count else c!"No") ++ c!" " ++
    (if count = 1 then c!"aerodrome" else c!"aerodromes") ++ c!" within selected range</div>"

/-- The distance shown, summary_shell.html:911-918. -/
def distanceText (distKm : Option Rat) (imperialUnits : Bool) : Str :=
  let number (q : Option Rat) : Str := match q with | none => c!"NaN" | some q => showInt (mathRound q)
  c!" (" ++
  (if imperialUnits then number (distKm.map (· / (1609344 / 1000000))) ++ c!" miles" else number distKm ++ c!" km") ++
  c!" away)"

/-- `displayWeatherData`, summary_shell.html:902-930: the text added. -/
def displayWeatherData (device : Device) (name : Option Str) (distKm : Option Rat) (currWeather : Shown)
    (imperialUnits : Bool) (tzOffsetMinutes : Int) : Js Str := do
  let widget ← makeWeatherWidget currWeather imperialUnits
  let text ← currentWeatherToHTML device currWeather imperialUnits c!"<br>" tzOffsetMinutes
  .ok (c!"<div class=\"weatherdataitem\">" ++ c!"<div class=\"weatherstation\">" ++
    (match name with | none => c!"undefined" | some n => if n = [] then c!"NAME UNKNOWN" else n) ++
    distanceText distKm imperialUnits ++ c!"</div>" ++
    c!"<div class=\"widget\">" ++ widget ++ c!"</div>" ++
    c!"<div class=\"weathertext\">" ++ text ++ c!"</div>" ++ c!"</div>")

/-- `displayErrors`, summary_shell.html:993-1014: the text added. For each element with errors the contents of its
child nodes are given; those of a node which is not an element are `undefined`. -/
def displayErrors (caption : Str) (errors : List (List (Option Str))) : Str :=
  let messages := errors.flatten.filterMap id
  if messages = [] then []
  else
    c!"<div class=\"weatherdataitem\">" ++ indent 5 ++ c!"<div class=\"weatherstation\">" ++ caption ++ c!"</div>" ++
      indent 5 ++ (messages.map (· ++ c!"<br>")).flatten ++ indent 4 ++ c!"</div>"

/-- A text passed to the bindings; `undefined` is refused (`std::string` at summary.cpp:679-680). -/
def textArgument : Option Str → Js Str
  | none => .error .bindingError
  | some s => .ok s

/-- The item of one station, summary_shell.html:1100-1102. -/
def stationItem (device : Device) (today : Int × Int × Int) (imperialUnits : Bool) (timeOffset : Int)
    (value : Station) : Js Str := do
  let metar ← textArgument value.metar
  let taf ← textArgument value.taf
  let currWeather ← call (Summary.getCurrentWeather metar taf today.1 today.2.1 today.2.2 imperialUnits)
  displayWeatherData device value.name value.distKm (adaptCurrentWeather currWeather valueNotSpecified) imperialUnits
    timeOffset

/-- The loop over the stations, summary_shell.html:1099-1103: the text added, and why it ended early. -/
def stationItems (device : Device) (today : Int × Int × Int) (imperialUnits : Bool) (timeOffset : Int) :
    Stations → Str × Option Failure
  | [] => ([], none)
  | e :: es =>
    match stationItem device today imperialUnits timeOffset e.2 with
    | .error f => ([], some f)
    | .ok s =>
      let r := stationItems device today imperialUnits timeOffset es
      (s ++ r.1, r.2)

/-- The answers of the data server: reports, stations and errors, summary_shell.html:1077-1085. -/
structure Answers where
  metars : List Element
  tafs : List Element
  stations : List Element
  metarErrors : List (List (Option Str)) := []
  tafErrors : List (List (Option Str)) := []
  stationErrors : List (List (Option Str)) := []

/-- `getAWCweather` once the answers are there, summary_shell.html:1077-1109: the text of the page, and why it ended
early. The date given to the library is that of the device (`today`), summary_shell.html:1098-1100. -/
def showWeather (device : Device) (today : Int × Int × Int) (distance : Distances) (imperialUnits : Bool)
    (timeOffset : Int) (answers : Answers) : Str × Option Failure :=
  let weatherData := addStationNames answers.stations (AWCdataToMap distance answers.metars answers.tafs)
  let items := stationItems device today imperialUnits timeOffset weatherData
  (displayErrors c!"METAR errors" answers.metarErrors ++ displayErrors c!"TAF errors" answers.tafErrors ++
    displayErrors c!"Station data errors" answers.stationErrors ++ displayAerodromeCount weatherData.length ++
    items.1, items.2)

end Metaf.Page
