import Verif.Model.ExplainText
import Verif.Model.Summary
import Verif.Ieee

/-!
Model of the example program `/repo/examples/explain.cpp`: an explanation of each group of a report in
words, made with a visitor, and the HTML table of all explanations.

An output stream is a list of pieces put together by `cat`. A piece that cannot be computed without
undefined behaviour (or whose computation does not end) makes the whole explanation fail.
-/

namespace Metaf.Explain

variable [FloatSem]

/-! ### Output streams and numbers -/

/-- `result << "..."` with a text, used throughout explain.cpp. -/
def text (s : Str) : Res Str := .ok s

/-- `if (condition) result << ...`, used throughout explain.cpp. -/
def opt (condition : Bool) (r : Res Str) : Res Str := if condition then r else text []

/-- `if (const auto v = ...; v.has_value()) result << ... *v ...`, used throughout explain.cpp. -/
def onSome {α : Type} (v : Option α) (f : α → Res Str) : Res Str :=
  match v with
  | none => text []
  | some a => f a

/-- `*v` or `v.value()` without a test, for example at explain.cpp:388, 395, 510, 561 and 1376. Reading an
empty value is undefined behaviour (`*v`) or an exception that nobody catches (`v.value()`). -/
def value {α : Type} (v : Option α) (f : α → Res Str) : Res Str :=
  match v with
  | none => .error .emptyOptional
  | some a => f a

/-- A sequence of `result << ...` on a `std::ostringstream`, used throughout explain.cpp. -/
def cat : List (Res Str) → Res Str
  | [] => .ok []
  | r :: rs => do
    let s ← r
    let t ← cat rs
    .ok (s ++ t)

/-- `result << n` for an `unsigned int`, for example at explain.cpp:1580, 1596, 1635 and 2033. -/
def showNat (n : Nat) : Str := Nat.toDigits 10 n

/-- `result << n` for an `int`, for example at explain.cpp:833, 1389, 1488 and 1733. -/
def showInt (n : Int) : Str := if n < 0 then '-' :: showNat n.natAbs else showNat n.natAbs

/-- `result << static_cast<int>(q)` for a `float`, explain.cpp:833, 1389, 1488, 1494, 1733, 1741 and 1773. -/
def showAsInt (q : Rat) : Res Str := do
  let n ← Summary.toInt q
  text (showInt n)

/-- The last `width` decimal digits of a number, with leading zeros (part of the output of
`std::to_string`, explain.cpp:3081). -/
def digits : Nat → Nat → Str
  | 0, _ => []
  | width + 1, n => digits width (n / 10) ++ [Char.ofNat (48 + n % 10)]

/-- The sign of a number in output (explain.cpp:3081, 1379). Negative zero, which no group holds, is not
modelled. -/
def sign (q : Rat) : Str := if q < 0 then ['-'] else []

/-- `std::to_string(float)`, explain.cpp:3081: the format `%f`, the number rounded to six decimals. -/
def toString (q : Rat) : Str :=
  let n := (roundEven (|q| * 1000000)).toNat
  sign q ++ showNat (n / 1000000) ++ '.' :: digits 6 (n % 1000000)

/-- `VisitorExplain::roundTo`, explain.cpp:3076-3089. -/
def roundTo (number : Rat) (digitsAfterDecimalPoint : Nat) : Str :=
  let numStr := toString number
  match findFrom numStr '.' 0 with
  | none => numStr
  | some decimalPointPos =>
    let decimalsAfterPoint := numStr.length - decimalPointPos
    if decimalsAfterPoint > digitsAfterDecimalPoint then
      substr numStr 0 (decimalPointPos + digitsAfterDecimalPoint + 1)
    else numStr

/-- The decimal exponent of a positive number (part of the output `<<` of a `float`, explain.cpp:1379,
1398 and 1404): the greatest `e` below the start value with `10 ^ e ≤ q`. -/
def exponent (q : Rat) : Nat → Int → Int
  | 0, e => e
  | n + 1, e => if (10 : Rat) ^ e ≤ q then e else exponent q n (e - 1)

/-- A number without the zeros at its end (part of the output `<<` of a `float`, explain.cpp:1379, 1398
and 1404). -/
def stripZeros (s : Str) : Str := (s.reverse.dropWhile (· == '0')).reverse

/-- A fraction with its decimal point, nothing if there is no digit (part of the output `<<` of a
`float`, explain.cpp:1379, 1398 and 1404). -/
def fraction (s : Str) : Str := if s.isEmpty then [] else '.' :: s

/-- `result << q` for a `float`, explain.cpp:1379, 1398 and 1404: the format `%g`, six significant
digits without trailing zeros, in exponential form if the decimal exponent is below -4 or above 5. -/
def showFloat (q : Rat) : Str :=
  if q = 0 then c!"0"
  else
    let e := exponent |q| 90 38
    let m := (roundEven (|q| / (10 : Rat) ^ (e - 5))).toNat
    let (e, m) := if m = 1000000 then (e + 1, 100000) else (e, m)
    if -4 ≤ e ∧ e ≤ 5 then
      let decimals := (5 - e).toNat
      sign q ++ showNat (m / 10 ^ decimals) ++ fraction (stripZeros (digits decimals (m % 10 ^ decimals)))
    else
      sign q ++ showNat (m / 100000) ++ fraction (stripZeros (digits 5 (m % 100000))) ++
        'e' :: (if e < 0 then '-' else '+') ::
          (if e.natAbs < 10 then '0' :: showNat e.natAbs else showNat e.natAbs)

/-! ### Parts of groups -/

/-- `VisitorExplain::explainRunway`, explain.cpp:1573-1589. -/
def explainRunway (runway : Runway) : Str :=
  if runway.isAllRunways then c!"all runways"
  else if runway.isMessageRepetition then c!"same runway (repetition of last message)"
  else
    c!"runway " ++ (if runway.rNumber < 10 then c!"0" else []) ++ showNat runway.rNumber ++
      (match runway.rDesignator with
       | .NONE => []
       | .LEFT => c!" LEFT"
       | .CENTER => c!" CENTER"
       | .RIGHT => c!" RIGHT")

/-- `VisitorExplain::explainMetafTime`, explain.cpp:1591-1603. -/
def explainMetafTime (metafTime : MetafTime) : Str :=
  (match metafTime.dayValue with
   | none => []
   | some day => c!"day " ++ showNat day ++ c!", ") ++
  (if metafTime.hourValue < 10 then c!"0" else []) ++ showNat metafTime.hourValue ++ c!":" ++
  (if metafTime.minuteValue < 10 then c!"0" else []) ++ showNat metafTime.minuteValue ++ c!" GMT"

/-- `VisitorExplain::explainTemperature`, explain.cpp:1605-1630. -/
def explainTemperature (temperature : Temperature) : Str :=
  match temperature.temperature with
  | none => c!"not reported"
  | some v =>
    (if v = 0 ∧ temperature.precise = false then
      if temperature.freezing then c!"slightly less than " else c!"slightly more than "
     else []) ++
    (match temperature.toUnit .C with
     | some t => roundTo t 1 ++ c!" &deg;C"
     | none => c!"[unable to convert temperature to &deg;C]") ++
    c!" / " ++
    (match temperature.toUnit .F with
     | some t => roundTo t 1 ++ c!" &deg;F"
     | none => c!"[unable to convert temperature to &deg;F]")

/-- One of the four conversions in `explainSpeed`, explain.cpp:1640-1684. -/
def speedIn (speed : Speed) (unit : SpeedUnit) (failed : Str) : Str :=
  match speed.toUnit unit with
  | some s => roundTo s 1 ++ c!" " ++ speedUnitToString unit
  | none => failed

/-- `VisitorExplain::explainSpeed`, explain.cpp:1632-1687. -/
def explainSpeed (speed : Speed) : Str :=
  match speed.speedValue with
  | none => c!"not reported"
  | some s =>
    showNat s ++ c!" " ++ speedUnitToString speed.speedUnit ++ c!" (" ++
    (if speed.speedUnit ≠ .KNOTS then
      speedIn speed .KNOTS c!"[unable to convert speed to knots]" ++ c!" / " else []) ++
    (if speed.speedUnit ≠ .METERS_PER_SECOND then
      speedIn speed .METERS_PER_SECOND c!"[unable to convert speed to m/s]" ++ c!" / " else []) ++
    (if speed.speedUnit ≠ .KILOMETERS_PER_HOUR then
      speedIn speed .KILOMETERS_PER_HOUR c!"[unable to convert speed to km/h]" ++
      (if speed.speedUnit ≠ .MILES_PER_HOUR then c!" / " else []) else []) ++
    (if speed.speedUnit ≠ .MILES_PER_HOUR then
      speedIn speed .MILES_PER_HOUR c!"[unable to convert speed to mph]" else []) ++
    c!")"

/-- A number of miles with a fraction, explain.cpp:1723-1728 and 1756-1761. -/
def showMiles (integer : Nat) (fraction : MilesFraction) : Str :=
  (if integer ≠ 0 ∨ fraction = .NONE then showNat integer else []) ++
  (if integer ≠ 0 ∧ fraction ≠ .NONE then c!" " else []) ++
  (if fraction ≠ .NONE then distanceMilesFractionToString fraction else [])

/-- The `switch` of `explainDistance`, explain.cpp:1692-1713. -/
def modifierText : Modifier → Str
  | .NONE => []
  | .LESS_THAN => c!"&lt;"
  | .MORE_THAN => c!"&gt;"
  | .DISTANT => c!"10 to 30 nautical miles (19 to 55 km, 12 to 35 statue miles)"
  | .VICINITY => c!"5 to 10 nautical miles (9 to 19 km, 6 to 12 statue miles)"

/-- The values in other units in `explainDistance`, explain.cpp:1736-1779. -/
def distanceConverted (distance : Distance) : Res Str :=
  cat [
    opt (distance.distUnit != .METERS) (cat [
      match distance.toUnit .METERS with
      | some d => cat [showAsInt d, text c!" ", text (distanceUnitToString .METERS)]
      | none => text c!"[unable to convert distance to meters]",
      text c!" / "]),
    opt (distance.distUnit != .STATUTE_MILES) (cat [
      match distance.miles with
      | some (integer, fraction) =>
        cat [text (showMiles integer fraction), text c!" ", text (distanceUnitToString .STATUTE_MILES)]
      | none => text c!"[unable to convert distance to statute miles]",
      opt (distance.distUnit != .FEET) (text c!" / ")]),
    opt (distance.distUnit != .FEET)
      (match distance.toUnit .FEET with
       | some d => cat [showAsInt d, text c!" ", text (distanceUnitToString .FEET)]
       | none => text c!"[unable to convert distance to feet]")]

/-- `VisitorExplain::explainDistance`, explain.cpp:1689-1781. -/
def explainDistance (distance : Distance) : Res Str :=
  if !distance.isReported then text c!"not reported"
  else if !distance.isValue then text (modifierText distance.distModifier)
  else if distance.distUnit = .STATUTE_MILES then
    match distance.miles with
    | none => text c!"[unable to get distance value in miles]"
    | some (integer, fraction) =>
      cat [text (modifierText distance.distModifier), text (showMiles integer fraction), text c!" ",
        text (distanceUnitToString distance.distUnit), text c!" (", distanceConverted distance,
        text c!")"]
  else
    match distance.toUnit distance.distUnit with
    | none => text c!"[unable to get distance's floating-point value]"
    | some d =>
      cat [text (modifierText distance.distModifier), showAsInt d, text c!" ",
        text (distanceUnitToString distance.distUnit), text c!" (", distanceConverted distance,
        text c!")"]

/-- `VisitorExplain::explainDirection`, explain.cpp:1783-1833. The case of `VALUE_DEGREES` continues
with that of `VALUE_CARDINAL`. -/
def explainDirection (direction : Direction) (trueCardinalDirections : Bool := false) : Str :=
  match direction.dirType with
  | .NOT_REPORTED => c!"not reported"
  | .VARIABLE => c!"variable"
  | .NDV => c!"no directional variation"
  | .VALUE_DEGREES =>
    (match direction.degrees with
     | some d => showNat d ++ c!" degrees"
     | none => c!"[unable to produce value in &deg;]") ++
    (let c := cardinalDirectionToString (direction.cardinal trueCardinalDirections)
     if c.isEmpty then [] else c!"(" ++ c ++ c!")")
  | .VALUE_CARDINAL => cardinalDirectionToString (direction.cardinal trueCardinalDirections)
  | .OVERHEAD => c!"overhead"
  | .ALQDS => c!"all quadrants (all directions)"
  | .UNKNOWN => c!"unknown direction"

/-- `VisitorExplain::explainPressure`, explain.cpp:1835-1862. -/
def explainPressure (pressure : Pressure) : Str :=
  match pressure.pressureValue with
  | none => c!"not reported"
  | some _ =>
    (match pressure.toUnit .HECTOPASCAL with
     | some p => roundTo p 1 ++ c!" hPa"
     | none => c!"[unable to convert pressure to hPa]") ++
    c!" / " ++
    (match pressure.toUnit .INCHES_HG with
     | some p => roundTo p 2 ++ c!" inHg"
     | none => c!"[unable to convert pressure to inHg]") ++
    c!" / " ++
    (match pressure.toUnit .MM_HG with
     | some p => roundTo p 1 ++ c!" mmHg"
     | none => c!"[unable to convert pressure to mmHg]")

/-- `VisitorExplain::explainPrecipitation`, explain.cpp:1864-1887. -/
def explainPrecipitation (precipitation : Precipitation) : Str :=
  if !precipitation.isReported then c!"not reported"
  else if precipitation.precipValue = some 0 then c!"trace amount"
  else
    (match precipitation.toUnit .MM with
     | some p => roundTo p 1 ++ c!" mm"
     | none => c!"[unable to convert precipitation to mm]") ++
    c!" / " ++
    (match precipitation.toUnit .INCHES with
     | some p => roundTo p 2 ++ c!" inches"
     | none => c!"[unable to convert precipitation to inches]")

/-- `VisitorExplain::explainSurfaceFriction`, explain.cpp:1889-1909. -/
def explainSurfaceFriction (surfaceFriction : SurfaceFriction) : Str :=
  match surfaceFriction.sfType with
  | .NOT_REPORTED => c!"not reported"
  | .SURFACE_FRICTION_REPORTED =>
    match surfaceFriction.coefficient with
    | some c => c!"friction coefficient " ++ roundTo c 2
    | none => c!"[unable to produce a friction coefficient]"
  | .BRAKING_ACTION_REPORTED =>
    c!"braking action " ++ brakingActionToString surfaceFriction.brakingAction
  | .UNRELIABLE => c!"unreliable or unmeasurable"

/-- `VisitorExplain::explainWaveHeight`, explain.cpp:1911-1944. -/
def explainWaveHeight (waveHeight : WaveHeight) : Str :=
  match waveHeight.whType with
  | .STATE_OF_SURFACE =>
    c!"state of sea surface: " ++ stateOfSeaSurfaceToString waveHeight.stateOfSurface
  | .WAVE_HEIGHT =>
    if waveHeight.isReported then
      c!"wave height: " ++
      (match waveHeight.toUnit .METERS with
       | some h => roundTo h 1 ++ c!" meters"
       | none => c!"[unable to convert wave height to meters]") ++
      c!" / " ++
      (match waveHeight.toUnit .FEET with
       | some h => roundTo h 1 ++ c!" feet"
       | none => c!"[unable to convert wave height to feet]")
    else c!"wave height not reported"

/-- The table of `specialWeatherPhenomenaToString`, explain.cpp:2448-2508. -/
def specialWeatherPhenomena : List (Qualifier × Descriptor × List Weather × Str) := [
  (.VICINITY, .SHOWERS, [], c!"precipitation in vicinity (up to 10 miles away)"),
  (.NONE, .NONE, [.ICE_CRYSTALS], c!"ice crystals (diamond dust)"),
  (.NONE, .NONE, [.DUST], c!"widespread dust"),
  (.NONE, .NONE, [.UNDETERMINED],
    c!"undetermined precipitation (automated system cannot identify precipitation)"),
  (.NONE, .SHALLOW, [.FOG], c!"shallow fog (ground fog)"),
  (.NONE, .PARTIAL, [.FOG], c!"fog covering part of the location"),
  (.NONE, .PATCHES, [.FOG], c!"patches of fog randomly covering the location"),
  (.NONE, .FREEZING, [.FOG], c!"fog at freezing temperture (may or may not deposit rime)"),
  (.HEAVY, .NONE, [.FUNNEL_CLOUD], c!"tornado or waterspout"),
  (.VICINITY, .NONE, [.FUNNEL_CLOUD], c!"tornadic activity in vicinity")]

/-- `VisitorExplain::specialWeatherPhenomenaToString`, explain.cpp:2437-2521. -/
def specialWeatherPhenomenaToString (wp : WeatherPhenomena) : Str :=
  match specialWeatherPhenomena.find? (fun w =>
      wp.qualifier == w.1 && wp.descriptor == w.2.1 && wp.weather == w.2.2.1) with
  | some w => w.2.2.2
  | none => []

/-- The loop of `explainWeatherPhenomena`, explain.cpp:1977-1989. -/
def weatherWords : Weather → List Weather → Str
  | _, [] => []
  | previous, w :: ws =>
    (if previous = .RAIN ∧ w = .SNOW then c!"and snow mix"
     else if previous = .SNOW ∧ w = .RAIN then c!"and rain mix"
     else weatherPhenomenaWeatherToString w) ++ c!" " ++ weatherWords w ws

/-- The end of `explainWeatherPhenomena`, explain.cpp:1997-2013. -/
def eventText (event : WeatherEvent) (time : Option MetafTime) : Str :=
  match event, time with
  | .BEGINNING, some t => c!" began: " ++ explainMetafTime t
  | .ENDING, some t => c!" ended: " ++ explainMetafTime t
  | _, _ => []

/-- `VisitorExplain::explainWeatherPhenomena`, explain.cpp:1946-2016. -/
def explainWeatherPhenomena (wp : WeatherPhenomena) : Str :=
  let weatherStr := specialWeatherPhenomenaToString wp
  if !weatherStr.isEmpty then weatherStr
  else
    (let q := weatherPhenomenaQualifierToString wp.qualifier
     if q.isEmpty then [] else q ++ c!" ") ++
    (let d := weatherPhenomenaDescriptorToString wp.descriptor
     if d.isEmpty then [] else d ++ c!" ") ++
    weatherWords .NOT_REPORTED wp.weather ++
    (if wp.descriptor = .SHOWERS then c!"showers " else []) ++
    (if wp.descriptor = .THUNDERSTORM then
      (if wp.weather.isEmpty then [] else c!"with ") ++ c!"thunderstorm " else []) ++
    (if wp.qualifier = .VICINITY then c!"in vicinity (5 to 10 miles away)" else []) ++
    eventText wp.event wp.tm

/-- `VisitorExplain::explainDirectionSector`, explain.cpp:2018-2027. -/
def explainDirectionSector (dir : List Direction) : Str :=
  c!", ".intercalate (dir.map (fun d => cardinalDirectionToString d.cardinal))

/-- `VisitorExplain::explainCloudType`, explain.cpp:2029-2040. -/
def explainCloudType (ct : CloudType) : Res Str :=
  cat [text (cloudTypeToString ct.tp), text c!" covering ", text (showNat ct.okt),
    text c!"/8 of the sky",
    opt ct.ht.isReported (cat [text c!", base height ", explainDistance ct.ht])]

/-! ### Groups -/

/-- `VisitorExplain::groupNotValidMessage`, explain.cpp:24-25. -/
def groupNotValidMessage : Str :=
  c!"Data in this group may be errorneous, incomplete or inconsistent"

/-- `if (!group.isValid()) result << groupNotValidMessage << "\n"`, the first lines of each visitor method,
for example explain.cpp:203, 296 and 308. -/
def notice (isValid : Bool) : Res Str := opt (!isValid) (text (groupNotValidMessage ++ c!"\n"))

/-- Directions listed by the library, explain.cpp:598, 644, 1252 and 1350. The bound is the number of
iterations granted to the loop of the library. -/
def listed (directions : Nat → Option (List Direction)) (f : List Direction → Res Str) : Res Str :=
  match directions 64 with
  | none => .error .timeout
  | some l => f l

/-- `VisitorExplain::visitKeywordGroup`, explain.cpp:196-287. -/
def visitKeywordGroup (group : KeywordGroup) : Res Str :=
  cat [notice group.isValid, text (keywordText group.t)]

/-- `VisitorExplain::visitLocationGroup`, explain.cpp:289-299. -/
def visitLocationGroup (group : LocationGroup) : Res Str :=
  cat [notice group.isValid, text c!"ICAO code of station: ", text group.location]

/-- `VisitorExplain::visitReportTimeGroup`, explain.cpp:301-312. -/
def visitReportTimeGroup (group : ReportTimeGroup) : Res Str :=
  cat [notice group.isValid, text c!"Day and time of report release: ", text (explainMetafTime group.t)]

/-- The times of a trend group, explain.cpp:330-341, 347-358 and 368-379. -/
def trendTimes (group : TrendGroup) : Res Str :=
  cat [
    onSome group.tFrom (fun t => cat [text c!"\nFrom ", text (explainMetafTime t)]),
    onSome group.tTill (fun t => cat [text c!"\nUntil ", text (explainMetafTime t)]),
    onSome group.tAt (fun t => cat [text c!"\nAt ", text (explainMetafTime t)])]

/-- The probability of a trend group, explain.cpp:359-362, 380-383 and 409-412. -/
def trendProbability (group : TrendGroup) : Res Str :=
  opt (group.prob != .NONE) (cat [text c!"\n", text (probabilityToString group.prob)])

/-- The `switch` of `VisitorExplain::visitTrendGroup`, explain.cpp:322-419. -/
def trendText (group : TrendGroup) : Res Str :=
  match group.t with
  | .NOSIG => text c!"No significant weather changes expected"
  | .BECMG =>
    cat [text c!"Weather conditions are expected to gradually change as follows", trendTimes group]
  | .TEMPO =>
    cat [text c!"The following temporary weather conditions may arise  for less than 60 minutes",
      trendTimes group, trendProbability group]
  | .INTER =>
    cat [text c!"The following temporary weather conditions may arise for less than 30 minutes",
      trendTimes group, trendProbability group]
  | .FROM =>
    cat [text c!"Weather conditions are expected to change rapidly from ",
      value group.tFrom (fun t => text (explainMetafTime t)),
      text c!"\nAll previous weather conditions are superseded by the following conditions"]
  | .UNTIL =>
    cat [text c!"The following weather conditions expected to last until ",
      value group.tTill (fun t => text (explainMetafTime t))]
  | .AT =>
    cat [text c!"The following weather conditions expected to occur at ",
      value group.tAt (fun t => text (explainMetafTime t))]
  | .TIME_SPAN =>
    cat [text c!"The following weather condition are expected within time span from ",
      value group.tFrom (fun t => text (explainMetafTime t)), text c!" until ",
      value group.tTill (fun t => text (explainMetafTime t)), trendProbability group]
  | .PROB =>
    cat [text c!"The weather conditions probability is as follows\n",
      text (probabilityToString group.prob)]

/-- `VisitorExplain::visitTrendGroup`, explain.cpp:314-421. -/
def visitTrendGroup (group : TrendGroup) : Res Str := cat [notice group.isValid, trendText group]

/-- Direction and speed of the wind, explain.cpp:439-446 and 459-466. -/
def windText (group : WindGroup) : Res Str :=
  cat [text c!"\nWind direction: ", text (explainDirection group.windDir true),
    text c!"\nWind speed: ", text (explainSpeed group.wSpeed),
    opt group.gSpeed.isReported (cat [text c!"\nGust speed: ", text (explainSpeed group.gSpeed)])]

/-- The sector of a variable wind, explain.cpp:451-454 and 467-470. -/
def sectorText (group : WindGroup) : Res Str :=
  cat [text c!"\nVariable wind direction sector from ", text (explainDirection group.vsecBegin),
    text c!" clockwise to ", text (explainDirection group.vsecEnd)]

/-- The text about a wind shift, explain.cpp:488-494 and 498-504. -/
def shiftText (group : WindGroup) : Res Str :=
  cat [text c!"Wind direction changed 45&deg; or more in less than 15 minutes with sustained \
               wind speed of 10 knots (5.1 m/s / 18.5 km/h / 11.5 mph)",
    onSome group.evTime (fun t => cat [text c!"\nWind shift began at ", text (explainMetafTime t)])]

/-- The `switch` of `VisitorExplain::visitWindGroup`, explain.cpp:432-534. -/
def windGroupText (group : WindGroup) : Res Str :=
  match group.windType with
  | .SURFACE_WIND_CALM => text c!"No wind"
  | .SURFACE_WIND => cat [text c!"Surface wind", windText group]
  | .VARIABLE_WIND_SECTOR => cat [text c!"Variable wind sector", sectorText group]
  | .SURFACE_WIND_WITH_VARIABLE_SECTOR =>
    cat [text c!"Surface wind with variable with sector", windText group, sectorText group]
  | .WIND_SHEAR =>
    cat [text c!"Wind shear at height ", explainDistance group.wShHeight,
      text c!":\nWind direction: ", text (explainDirection group.windDir true),
      text c!"Wind speed: ", text (explainSpeed group.wSpeed),
      opt group.gSpeed.isReported (cat [text c!"\nGust speed: ", text (explainSpeed group.gSpeed)])]
  | .WIND_SHIFT => shiftText group
  | .WIND_SHIFT_FROPA =>
    cat [shiftText group, text c!"\nThis wind shift is associated with weather front passage"]
  | .PEAK_WIND =>
    cat [text c!"Peak wind was observed at ",
      value group.evTime (fun t => text (explainMetafTime t)),
      text c!"\nWind direction: ", text (explainDirection group.windDir true),
      text c!"\nWind speed: ", text (explainSpeed group.wSpeed)]
  | .WIND_SHEAR_IN_LOWER_LAYERS =>
    cat [text c!"Wind shear significant to aircraft operations is present along the take-off path \
                 or approach path between runway level and 500 metres (1 600 ft)",
      onSome group.rw (fun rw => cat [text c!" at ", text (explainRunway rw)])]
  | .WSCONDS =>
    text c!"Potential wind shear conditions are present but there's not enough information to \
            reliably forecast height, direction and speed of wind shear"
  | .WND_MISG => text c!"Wind data is missing"

/-- `VisitorExplain::visitWindGroup`, explain.cpp:423-536. -/
def visitWindGroup (group : WindGroup) : Res Str := cat [notice group.isValid, windGroupText group]

/-- The trend of a runway visual range, explain.cpp:579-581 and 633-635. -/
def rvrTrendText (group : VisibilityGroup) : Res Str :=
  opt (group.rvrTrend != .NONE)
    (cat [text c!", and the trend is ", text (visTrendToString group.rvrTrend)])

/-- A range of visibility, explain.cpp:602-605, 611-614, 620-623, 629-632 and 639-642. -/
def visibilityRange (group : VisibilityGroup) : Res Str :=
  cat [text c!" is variable from ", explainDistance group.minVisibility, text c!" to ",
    explainDistance group.maxVisibility]

/-- The directions of a sector, explain.cpp:597-598 and 643-644. -/
def visibilitySector (group : VisibilityGroup) : Res Str :=
  cat [text c!"\nIn the following directions: ",
    listed group.sectorDirections (fun l => text (explainDirectionSector l))]

/-- The `switch` of `VisitorExplain::visitVisibilityGroup`, explain.cpp:546-668. -/
def visibilityText (group : VisibilityGroup) : Res Str :=
  match group.visType with
  | .PREVAILING => cat [text c!"Prevailing visibility is ", explainDistance group.visibility]
  | .PREVAILING_NDV =>
    cat [text c!"Prevailing visibility is ", explainDistance group.visibility,
      text c!"\nThis station cannot differentiate the directional variation of visibility"]
  | .DIRECTIONAL =>
    cat [text c!"Directional visibility toward ",
      value group.dir (fun d => text (explainDirection d)),
      text c!" is ", explainDistance group.visibility]
  | .RUNWAY =>
    cat [text c!"Visibility for ", value group.rw (fun r => text (explainRunway r)),
      text c!" is ", explainDistance group.visibility]
  | .RVR =>
    if group.rw.isNone then text c!"Runway visual range not reported "
    else
      cat [text c!"Runway visual range for ", value group.rw (fun r => text (explainRunway r)),
        text c!" is ", explainDistance group.visibility, rvrTrendText group]
  | .SURFACE => cat [text c!"Visibility at surface level is ", explainDistance group.visibility]
  | .TOWER =>
    cat [text c!"Visibility from air traffic control tower is ", explainDistance group.visibility]
  | .SECTOR =>
    cat [text c!"Sector visibility is ", explainDistance group.visibility, visibilitySector group]
  | .VARIABLE_PREVAILING => cat [text c!"Prevailing visibility", visibilityRange group]
  | .VARIABLE_DIRECTIONAL =>
    cat [text c!"Directional visibility toward ",
      value group.dir (fun d => text (explainDirection d)), visibilityRange group]
  | .VARIABLE_RUNWAY =>
    cat [text c!"Visibility for ", value group.rw (fun r => text (explainRunway r)),
      visibilityRange group]
  | .VARIABLE_RVR =>
    cat [text c!"Runway visual range for ", value group.rw (fun r => text (explainRunway r)),
      visibilityRange group, rvrTrendText group]
  | .VARIABLE_SECTOR =>
    cat [text c!"Sector visibility", visibilityRange group, visibilitySector group]
  | .VIS_MISG => text c!"Visibility data missing"
  | .RVR_MISG => text c!"Runway visual range data is missing"
  | .RVRNO => text c!"Runway visual range should be reported but is missing"
  | .VISNO =>
    cat [text c!"Visibility data not awailable",
      onSome group.rw (fun r => cat [text c!" for ", text (explainRunway r)]),
      onSome group.dir (fun d => cat [text c!" in the direction of ", text (explainDirection d)])]

/-- `VisitorExplain::visitVisibilityGroup`, explain.cpp:538-670. -/
def visitVisibilityGroup (group : VisibilityGroup) : Res Str :=
  cat [notice group.isValid, visibilityText group]

/-- The place a ceiling was observed at, explain.cpp:704-709, 717-722 and 727-732. -/
def ceilingPlace (group : CloudGroup) : Res Str :=
  cat [onSome group.rw (fun rw => cat [text c!" at ", text (explainRunway rw)]),
    onSome group.dir (fun d => cat [text c!" towards ", text (explainDirection d)])]

/-- The `switch` of `VisitorExplain::visitCloudGroup`, explain.cpp:681-751. -/
def cloudText (group : CloudGroup) : Res Str :=
  match group.tp with
  | .NO_CLOUDS => text (cloudAmountToString group.amnt)
  | .CLOUD_LAYER =>
    cat [text c!"Cloud layer\n", text (cloudAmountToString group.amnt), text c!"\nBase height ",
      explainDistance group.height,
      opt (group.convtype != .NONE)
        (cat [text c!"\nConvective type: ", text (convectiveTypeToString group.convtype)])]
  | .VERTICAL_VISIBILITY =>
    cat [text c!"Sky is obscured, vertical visibility is ",
      explainDistance group.verticalVisibility]
  | .CEILING =>
    cat [text c!"Ceiling height ", explainDistance group.height, ceilingPlace group]
  | .VARIABLE_CEILING =>
    cat [text c!"Ceiling height is variable between ", explainDistance group.minHeight,
      text c!" and ", explainDistance group.maxHeight, ceilingPlace group]
  | .CHINO => cat [text c!"Ceiling data not awailable", ceilingPlace group]
  | .CLD_MISG => text c!"Sky condition data (cloud data) is missing"
  | .OBSCURATION =>
    cat [onSome group.height.distance (fun h =>
        text (if h = 0 then c!"Ground-based obscuration\n" else c!"Aloft obscuration\n")),
      onSome group.cloudType explainCloudType]

/-- `VisitorExplain::visitCloudGroup`, explain.cpp:672-753. -/
def visitCloudGroup (group : CloudGroup) : Res Str := cat [notice group.isValid, cloudText group]

/-- The list of weather phenomena, explain.cpp:767-770, 775-778 and 783-786. -/
def phenomenaText (group : WeatherGroup) : Res Str :=
  cat (group.w.map (fun p => text (c!"\n" ++ explainWeatherPhenomena p)))

/-- The `switch` of `VisitorExplain::visitWeatherGroup`, explain.cpp:764-812. -/
def weatherText (group : WeatherGroup) : Res Str :=
  match group.t with
  | .CURRENT => cat [text c!"Weather phenomena:", phenomenaText group]
  | .RECENT => cat [text c!"Recent weather:", phenomenaText group]
  | .EVENT => cat [text c!"Precipitation beginning/ending time:", phenomenaText group]
  | .NSW => text c!"Nil significant weather\nIndicates end of significant weather phenomena"
  | .PWINO =>
    text c!"This automated station is equipped with present weather identifier and this sensor is \
            not operating"
  | .TSNO =>
    text c!"This automated station is equipped with lightning detector and this sensor is not \
            operating"
  | .WX_MISG => text c!"Weather phenomena data is missing"
  | .TS_LTNG_TEMPO_UNAVBL => text c!"Thunderstorm / lightning data is missing"

/-- `VisitorExplain::visitWeatherGroup`, explain.cpp:755-814. -/
def visitWeatherGroup (group : WeatherGroup) : Res Str := do
  let isValid ← group.isValid
  cat [notice isValid, weatherText group]

/-- The `switch` of `VisitorExplain::visitTemperatureGroup`, explain.cpp:825-845. -/
def temperatureText (group : TemperatureGroup) : Res Str :=
  match group.tp with
  | .TEMPERATURE_AND_DEW_POINT =>
    cat [text c!"Ambient air temperature: ", text (explainTemperature group.t),
      text c!"\nDew point: ", text (explainTemperature group.dp),
      onSome group.relativeHumidity (fun rh =>
        cat [text c!"\nRelative humidity: ", showAsInt rh, text c!" percent"])]
  | .T_MISG => text c!"Temperature data is missing"
  | .TD_MISG => text c!"Dew point data is missing"

/-- `VisitorExplain::visitTemperatureGroup`, explain.cpp:816-847. -/
def visitTemperatureGroup (group : TemperatureGroup) : Res Str :=
  cat [notice group.isValid, temperatureText group]

/-- The `switch` of `VisitorExplain::visitPressureGroup`, explain.cpp:858-889. -/
def pressureText (group : PressureGroup) : Str :=
  match group.t with
  | .OBSERVED_QNH =>
    c!"Observed mean atmospheric pressure (normalised to sea level) / altimeter setting: " ++
      explainPressure group.p
  | .FORECAST_LOWEST_QNH => c!"Forecast lowest sea level pressure: " ++ explainPressure group.p
  | .OBSERVED_QFE => c!"Observed actual atmospheric pressure: " ++ explainPressure group.p
  | .OBSERVED_SLP =>
    c!"Observed atmospheric pressure normalised to sea level:" ++ explainPressure group.p ++
      c!"\nThis is a value that might be more accurate for meteorological purposes and attempts to \
         correct for non-standard temperatures."
  | .SLPNO => c!"Mean sea-level pressure information is not available"
  | .PRES_MISG => c!"Atmospheric pressure (altimeter) data is missing"

/-- `VisitorExplain::visitPressureGroup`, explain.cpp:849-891. -/
def visitPressureGroup (group : PressureGroup) : Res Str :=
  cat [notice group.isValid, text (pressureText group)]

/-- The `switch` of `VisitorExplain::visitRunwayStateGroup`, explain.cpp:904-936. -/
def runwayStateText (group : RunwayStateGroup) : Str :=
  match group.tp with
  | .RUNWAY_STATE =>
    runwayStateDepositsToString group.dp ++
    (if group.dp ≠ .CLEAR_AND_DRY then
      c!"\nDepth of deposits on runway: " ++ explainPrecipitation group.dDepth ++
      c!"\nRunway contamination extent: " ++ runwayStateExtentToString group.ext else []) ++
    c!"\nSurface friction: " ++ explainSurfaceFriction group.sf
  | .RUNWAY_CLRD =>
    c!"Deposits on runway were cleared or ceased to exist" ++
    c!"\nSurface friction: " ++ explainSurfaceFriction group.sf
  | .RUNWAY_SNOCLO => c!"Runway closed due to snow accumulation"
  | .AERODROME_SNOCLO => c!"Aerodrome closed due to snow accumulation"
  | .RUNWAY_NOT_OPERATIONAL => c!"Runway is not operational"

/-- `VisitorExplain::visitRunwayStateGroup`, explain.cpp:893-938. -/
def visitRunwayStateGroup (group : RunwayStateGroup) : Res Str :=
  cat [notice group.isValid, text c!"State of ", text (explainRunway group.rw), text c!":\n",
    text (runwayStateText group)]

/-- `VisitorExplain::visitSeaSurfaceGroup`, explain.cpp:940-952. -/
def visitSeaSurfaceGroup (group : SeaSurfaceGroup) : Res Str :=
  cat [notice group.isValid, text c!"Sea surface temperature ", text (explainTemperature group.t),
    text c!", ", text (explainWaveHeight group.wh)]

/-- Observed minimum and maximum, explain.cpp:964-967 and 972-975. -/
def observedText (group : MinMaxTemperatureGroup) : Res Str :=
  cat [text c!"\nMinimum ambient air temperature: ", text (explainTemperature group.minTemp),
    text c!"\nMaximum ambient air temperature: ", text (explainTemperature group.maxTemp)]

/-- The `switch` of `VisitorExplain::visitMinMaxTemperatureGroup`, explain.cpp:961-993. -/
def minMaxText (group : MinMaxTemperatureGroup) : Res Str :=
  match group.t with
  | .OBSERVED_6_HOURLY =>
    cat [text c!"Observed 6-hourly minimum/maximum temperature: ", observedText group]
  | .OBSERVED_24_HOURLY =>
    cat [text c!"Observed 24-hourly minimum/maximum temperature: ", observedText group]
  | .FORECAST =>
    cat [text c!"Forecast minimum/maximum temperature",
      opt group.minTemp.isReported
        (cat [text c!"\nMinimum ambient air temperature: ", text (explainTemperature group.minTemp),
          text c!", expected at ", value group.minTime (fun t => text (explainMetafTime t))]),
      opt group.maxTemp.isReported
        (cat [text c!"\nMaximum ambient air temperature: ", text (explainTemperature group.maxTemp),
          text c!", expected at ", value group.maxTime (fun t => text (explainMetafTime t))])]

/-- `VisitorExplain::visitMinMaxTemperatureGroup`, explain.cpp:954-995. -/
def visitMinMaxTemperatureGroup (group : MinMaxTemperatureGroup) : Res Str :=
  cat [notice group.isValid, minMaxText group]

/-- The `switch` of `VisitorExplain::visitPrecipitationGroup`, explain.cpp:1005-1106. -/
def precipitationText (group : PrecipitationGroup) : Str :=
  let total := explainPrecipitation group.precAmount
  let recent := explainPrecipitation group.precChange
  match group.precType with
  | .TOTAL_PRECIPITATION_HOURLY => c!"Total precipitation for the past hour: " ++ total
  | .SNOW_DEPTH_ON_GROUND => c!"Snow depth on ground: " ++ total
  | .FROZEN_PRECIP_3_OR_6_HOURLY =>
    c!"Water equivalent of frozen precipitation for the last 3 or 6 hours: " ++ total
  | .FROZEN_PRECIP_3_HOURLY =>
    c!"Water equivalent of frozen precipitation for the last 3 hours: " ++ total
  | .FROZEN_PRECIP_6_HOURLY =>
    c!"Water equivalent of frozen precipitationfor the last 6 hours: " ++ total
  | .FROZEN_PRECIP_24_HOURLY =>
    c!"Water equivalent of frozen precipitation for the last 24 hours: " ++ total
  | .SNOW_6_HOURLY => c!"Snowfall for the last 6 hours: " ++ total
  | .WATER_EQUIV_OF_SNOW_ON_GROUND => c!"Water equivalent of snow on ground: " ++ total
  | .ICE_ACCRETION_FOR_LAST_HOUR => c!"Ice accretion for the last hour: " ++ total
  | .ICE_ACCRETION_FOR_LAST_3_HOURS => c!"Ice accretion for the last 3 hours: " ++ total
  | .ICE_ACCRETION_FOR_LAST_6_HOURS => c!"Ice accretion for the last 6 hours: " ++ total
  | .PRECIPITATION_ACCUMULATION_SINCE_LAST_REPORT =>
    c!"Precipitation accumulation since last report: " ++ total
  | .SNOW_INCREASING_RAPIDLY =>
    c!"Snow increasing rapidly\nFor the last hour snow increased by " ++ recent ++
      c!"\nTotal snowfall: " ++ total
  | .RAINFALL_9AM_10MIN =>
    c!"Rainfall for the last 10 minutes before report release time: " ++ recent ++
      c!"\nRainfall since 9AM (9:00) local time: " ++ total
  | .PNO =>
    c!"This automated station is equipped with tipping bucket rain gauge and this sensor is not \
       operating"
  | .FZRANO =>
    c!"This automated station is equipped with freezing rain sensor and this sensor is not operating"
  | .ICG_MISG => c!"Icing data is missing"
  | .PCPN_MISG => c!"Precipitation data is missing"

/-- `VisitorExplain::visitPrecipitationGroup`, explain.cpp:997-1108. -/
def visitPrecipitationGroup (group : PrecipitationGroup) : Res Str :=
  cat [notice group.isValid, text (precipitationText group)]

/-- `VisitorExplain::visitLayerForecastGroup`, explain.cpp:1110-1129. -/
def visitLayerForecastGroup (group : LayerForecastGroup) : Res Str :=
  cat [notice group.isValid, text (layerForecastGroupTypeToString group.layerType), text c!" at ",
    if !group.layerBaseHeight.isReported && !group.layerTopHeight.isReported then
      text c!"all heights"
    else
      cat [text c!"heights from ", explainDistance group.layerBaseHeight, text c!" to ",
        explainDistance group.layerTopHeight]]

/-- The `switch` of `VisitorExplain::visitPressureTendencyGroup`, explain.cpp:1141-1164. -/
def pressureTendencyText (group : PressureTendencyGroup) : Str :=
  match group.tendencyType with
  | .NOT_REPORTED =>
    c!"3-hourly pressure tendency is not reported\nAbsolute pressure change is " ++
      explainPressure group.pressureDifference
  | .RISING_RAPIDLY | .FALLING_RAPIDLY =>
    c!"Atmospheric pressure is " ++ pressureTendencyTypeToString group.tendencyType
  | _ =>
    c!"During last 3 hours the atmospheric pressure was " ++
      pressureTendencyTypeToString group.tendencyType ++
      c!"\nNow the atmospheric pressure is " ++
      pressureTendencyTrendToString (PressureTendencyGroup.trend group.tendencyType) ++
      c!" 3 hours ago\nAbsolute pressure change is " ++ explainPressure group.pressureDifference

/-- `VisitorExplain::visitPressureTendencyGroup`, explain.cpp:1131-1166. -/
def visitPressureTendencyGroup (group : PressureTendencyGroup) : Res Str :=
  cat [notice group.isValid, text (pressureTendencyText group)]

/-- `VisitorExplain::visitCloudTypesGroup`, explain.cpp:1168-1183. -/
def visitCloudTypesGroup (group : CloudTypesGroup) : Res Str :=
  cat [notice group.isValid, text c!"Obscuration / cloud layers: ",
    cat (group.cldTp.map (fun ct => cat [text c!"\n", explainCloudType ct]))]

/-- `VisitorExplain::visitLowMidHighCloudGroup`, explain.cpp:1185-1200. -/
def visitLowMidHighCloudGroup (group : LowMidHighCloudGroup) : Res Str :=
  cat [notice group.isValid, text c!"Low cloud layer:\n",
    text (cloudLowLayerToString group.cloudLowLayer), text c!"\nMid cloud layer:\n",
    text (cloudMidLayerToString group.cloudMidLayer), text c!"\nHigh cloud layer:\n",
    text (cloudHighLayerToString group.cloudHighLayer)]

/-- The `switch` of `VisitorExplain::visitLightningGroup`, explain.cpp:1218-1233. -/
def frequencyText : Frequency → Str
  | .NONE => []
  | .OCCASIONAL => c!"\nLess than 1 strike per minute"
  | .FREQUENT => c!"\n1 to 6 strikes per minute"
  | .CONSTANT => c!"\nMore than 6 strikes per minute"

/-- The types of lightning, explain.cpp:1235-1251. -/
def lightningTypes (group : LightningGroup) : Str :=
  (if group.typeCloudGround || group.typeInCloud || group.typeCloudCloud || group.typeCloudAir then
    c!"\nThe following lightning types are observed: " ++
    (if group.typeCloudGround then c!"\ncloud-to-ground" else []) ++
    (if group.typeInCloud then c!"\nin-cloud" else []) ++
    (if group.typeCloudCloud then c!"\ncloud-to-cloud" else []) ++
    (if group.typeCloudAir then c!"\ncloud-to-air without strike to ground" else []) else []) ++
  (if group.typeUnknown then
    c!"\nSome lightning strike types specified in this group were not recognised by parser" else [])

/-- `VisitorExplain::visitLightningGroup`, explain.cpp:1202-1257. -/
def visitLightningGroup (group : LightningGroup) : Res Str :=
  cat [notice group.isValid, text c!"Lightning strikes observed",
    opt group.dist.isReported (cat [text c!" at distance ", explainDistance group.dist]),
    text (frequencyText group.freq), text (lightningTypes group),
    listed group.directions (fun l => opt (!l.isEmpty)
      (cat [text c!"\nLightning strikes observed in the following directions: ",
        text (explainDirectionSector l)]))]

/-- `VisitorExplain::visitVicinityGroup`, explain.cpp:1259-1361. -/
def visitVicinityGroup (group : VicinityGroup) : Res Str :=
  cat [notice group.isValid, text (vicinityText group.t), text c!" observed",
    opt group.dist.isReported (cat [text c!" at distance ", explainDistance group.dist]),
    listed group.directions (fun l => opt (!l.isEmpty)
      (cat [text c!"\nObserved in the following directions: ", text (explainDirectionSector l)])),
    opt group.movDir.isReported
      (cat [text c!"\nMoving towards ", text (cardinalDirectionToString group.movDir.cardinal)])]

/-- `colourCodeBlack`, explain.cpp:1371-1372, with the line break written after it. -/
def colourCodeBlack : Str :=
  c!"Colour code BLACK: aerodrome closed due to snow accumulation or non-weather reasons\n"

/-- The texts of the colour codes, explain.cpp:1411-1413, 1419-1421, 1427-1429, 1435-1437, 1443-1445,
1451-1453, 1459-1461, 1467-1469 and 1475-1478. -/
def colourText : MiscType → Str
  | .COLOUR_CODE_BLUE_PLUS =>
    c!"Colour code BLUE+: visibility &gt;8000 m and lowest cloud base height &ge;20000 ft"
  | .COLOUR_CODE_BLUE =>
    c!"Colour code BLUE: visibility &gt;8000 m and lowest cloud base height &gt;2500 ft"
  | .COLOUR_CODE_WHITE =>
    c!"Colour code WHITE: visibility &gt;5000 m and lowest cloud base height &gt;1500 ft"
  | .COLOUR_CODE_GREEN =>
    c!"Colour code GREEN: visibility &gt;3700 m and lowest cloud base height &gt;700 ft"
  | .COLOUR_CODE_YELLOW =>
    c!"Colour code YELLOW: visibility &gt;2500 m and lowest cloud base height &gt;500 ft"
  | .COLOUR_CODE_YELLOW1 =>
    c!"Colour code YELLOW 1: visibility &gt;2500 m and lowest cloud base height &gt;500 ft"
  | .COLOUR_CODE_YELLOW2 =>
    c!"Colour code YELLOW 2: visibility &gt;1600 m and lowest cloud base height &gt;300 ft"
  | .COLOUR_CODE_AMBER =>
    c!"Colour code AMBER: visibility &gt;800 m and lowest cloud base height &gt;200 ft"
  | .COLOUR_CODE_RED =>
    c!"Colour code RED: either visibility &lt;800 m or lowest cloud base height &lt;200 ft or both"
  | _ => []

/-- The `switch` of `VisitorExplain::visitMiscGroup`, explain.cpp:1374-1498. The cases of the black
colour codes continue with those of the other colour. -/
def miscText (group : MiscGroup) : Res Str :=
  match group.groupType with
  | .SUNSHINE_DURATION_MINUTES =>
    value group.groupData (fun duration =>
      if duration ≠ 0 then
        cat [text c!"Duration of sunshine that occurred the previous calendar day is ",
          text (showFloat duration), text c!" minutes"]
      else text c!"No sunshine occurred the previous calendar day")
  | .CORRECTED_WEATHER_OBSERVATION =>
    cat [text c!"This report is the corrected weather observation, correction number is ",
      value group.groupData showAsInt]
  | .DENSITY_ALTITUDE =>
    cat [text c!"Density altitude ",
      match group.groupData with
      | none => text c!"data missing"
      | some d => cat [text c!" is ", text (showFloat d), text c!" feet"]]
  | .HAILSTONE_SIZE =>
    cat [text c!"Largest hailstone size is ",
      value group.groupData (fun d => text (showFloat d)), text c!" inches"]
  | .COLOUR_CODE_BLACKBLUE_PLUS => text (colourCodeBlack ++ colourText .COLOUR_CODE_BLUE_PLUS)
  | .COLOUR_CODE_BLACKBLUE => text (colourCodeBlack ++ colourText .COLOUR_CODE_BLUE)
  | .COLOUR_CODE_BLACKWHITE => text (colourCodeBlack ++ colourText .COLOUR_CODE_WHITE)
  | .COLOUR_CODE_BLACKGREEN => text (colourCodeBlack ++ colourText .COLOUR_CODE_GREEN)
  | .COLOUR_CODE_BLACKYELLOW => text (colourCodeBlack ++ colourText .COLOUR_CODE_YELLOW)
  | .COLOUR_CODE_BLACKYELLOW1 => text (colourCodeBlack ++ colourText .COLOUR_CODE_YELLOW1)
  | .COLOUR_CODE_BLACKYELLOW2 => text (colourCodeBlack ++ colourText .COLOUR_CODE_YELLOW2)
  | .COLOUR_CODE_BLACKAMBER => text (colourCodeBlack ++ colourText .COLOUR_CODE_AMBER)
  | .COLOUR_CODE_BLACKRED => text (colourCodeBlack ++ colourText .COLOUR_CODE_RED)
  | .FROIN => text c!"Frost on the instrument (e.g. due to freezing fog depositing rime)."
  | .ISSUER_ID_FN =>
    cat [text c!"Report issuer identifier is ", value group.groupData showAsInt,
      text c!"\nThis forecast is issued at The Fleet Weather Center Norfolk, VA."]
  | .ISSUER_ID_FS =>
    cat [text c!"Report issuer identifier is ", value group.groupData showAsInt,
      text c!"\nThis forecast is issued at The Fleet Weather Center San Diego, CA (FS)."]
  | colour => text (colourText colour)

/-- `VisitorExplain::visitMiscGroup`, explain.cpp:1363-1500. -/
def visitMiscGroup (group : MiscGroup) : Res Str := cat [notice group.isValid, miscText group]

/-- `VisitorExplain::visitUnknownGroup`, explain.cpp:1503-1513. -/
def visitUnknownGroup (group : UnknownGroup) (rawString : Str) : Res Str :=
  cat [notice group.isValid, text c!"Not recognised by parser: ", text rawString]

/-- `VisitorExplain`, explain.cpp:18-194. -/
def visitor : Visitor (Res Str) where
  visitKeywordGroup g _ _ := visitKeywordGroup g
  visitLocationGroup g _ _ := visitLocationGroup g
  visitReportTimeGroup g _ _ := visitReportTimeGroup g
  visitTrendGroup g _ _ := visitTrendGroup g
  visitWindGroup g _ _ := visitWindGroup g
  visitVisibilityGroup g _ _ := visitVisibilityGroup g
  visitCloudGroup g _ _ := visitCloudGroup g
  visitWeatherGroup g _ _ := visitWeatherGroup g
  visitTemperatureGroup g _ _ := visitTemperatureGroup g
  visitPressureGroup g _ _ := visitPressureGroup g
  visitRunwayStateGroup g _ _ := visitRunwayStateGroup g
  visitSeaSurfaceGroup g _ _ := visitSeaSurfaceGroup g
  visitMinMaxTemperatureGroup g _ _ := visitMinMaxTemperatureGroup g
  visitPrecipitationGroup g _ _ := visitPrecipitationGroup g
  visitLayerForecastGroup g _ _ := visitLayerForecastGroup g
  visitPressureTendencyGroup g _ _ := visitPressureTendencyGroup g
  visitCloudTypesGroup g _ _ := visitCloudTypesGroup g
  visitLowMidHighCloudGroup g _ _ := visitLowMidHighCloudGroup g
  visitLightningGroup g _ _ := visitLightningGroup g
  visitVicinityGroup g _ _ := visitVicinityGroup g
  visitMiscGroup g _ _ := visitMiscGroup g
  visitUnknownGroup g _ raw := visitUnknownGroup g raw

/-! ### The table -/

/-- The loop that replaces line breaks, explain.cpp:3135-3138; the first argument is the number of
iterations granted to it. -/
def breakLoop : Nat → Str → Option Nat → Res Str
  | _, str, none => .ok str
  | 0, _, some _ => .error .timeout
  | fuel + 1, str, some pos =>
    let str := str.take pos ++ c!"<br>" ++ str.drop (pos + 1)
    breakLoop fuel str (findFrom str '\n' 4)

/-- Replacement of line breaks in an explanation, explain.cpp:3132-3138. -/
def replaceBreaks (str : Str) : Res Str := breakLoop (str.length + 1) str (findFrom str '\n' 0)

/-- One row of the table, explain.cpp:3125-3140. -/
def row (groupInfo : GroupInfo) : Res Str :=
  cat [text c!"<tr><td>", text groupInfo.rawString, text c!"</td><td>",
    do replaceBreaks (← visitor.visit groupInfo.group groupInfo.reportPart groupInfo.rawString),
    text c!"</td></tr>"]

/-- The table for the result of the parser, explain.cpp:3105-3143. -/
def table (parseResult : ParseResult) : Res Str :=
  cat [text c!"<thead><tr><th>Group</th><th>Explanation</th></tr></thead><tbody>",
    text c!"<tr><td>&nbsp;</td><td>Detected report type: ",
    text (reportTypeToString parseResult.reportMetadata.type), text c!"</td></tr>",
    opt (parseResult.reportMetadata.error != .NONE)
      (cat [text c!"<tr><td>&nbsp;</td><td>Parsing error: ",
        text (reportErrorToString parseResult.reportMetadata.error), text c!"</td></tr>"]),
    cat (parseResult.groups.map row),
    text c!"</tbody>"]

/-- The memory a call finds, `static std::string result`, explain.cpp:3095. -/
abbrev Memory := Str

/-- `freeMemory`, explain.cpp:3097-3099. -/
def freeMemory (_ : Memory) : Memory := []

/-- `explain`, explain.cpp:3101-3145. `input` holds the characters up to the terminating zero of the
C string. The answer is both what is left in the memory and what the caller sees. -/
def explain (memory : Memory) (input : Str) : Res Memory := do
  let result := freeMemory memory
  let parseResult ← Parser.parse input
  let t ← table parseResult
  .ok (result ++ t)

end Metaf.Explain
