import Verif.Model.Summary
import Verif.Spec.Weather

/-!
Specification of the summary of the current weather, `/repo/examples/summary.cpp`: what each member of
the summary is, in terms of what the accessors of the groups give.
-/

namespace Metaf.Spec

open Metaf Metaf.Summary

variable [FloatSem]

/-! ### Codes of weather -/

/-- The codes of weather (`enum class Weather`), each with the text it stands for. Ice pellets have the
codes of showers of ice pellets, see `C90_ice_pellets`. -/
def codeTable : List (Str × Nat) :=
  [(c!"VCSH", 1), (c!"VCTS", 2), (c!"VCFG", 3), (c!"VCVA", 4), (c!"VCPO", 5), (c!"VCBLSN", 6),
   (c!"VCBLDU", 7), (c!"VCBLSA", 8), (c!"VCSS", 9), (c!"VCDS", 10),
   (c!"DRSA", 11), (c!"DRDU", 12), (c!"DRSN", 13), (c!"BLSA", 14), (c!"BLDU", 15), (c!"BLSN", 16),
   (c!"PY", 17),
   (c!"FG", 18), (c!"MIFG", 19), (c!"PRFG", 20), (c!"BCFG", 21), (c!"FZFG", 22),
   (c!"IC", 23), (c!"BR", 24), (c!"FU", 25), (c!"VA", 26), (c!"DU", 27), (c!"SA", 28), (c!"HZ", 29),
   (c!"-DZ", 30), (c!"DZ", 31), (c!"+DZ", 32), (c!"-RA", 33), (c!"RA", 34), (c!"+RA", 35),
   (c!"-SN", 36), (c!"SN", 37), (c!"+SN", 38), (c!"-PL", 56), (c!"PL", 57), (c!"+PL", 58),
   (c!"-SG", 42), (c!"SG", 43), (c!"+SG", 44), (c!"GS", 45), (c!"GR", 46),
   (c!"-UP", 47), (c!"UP", 48), (c!"+UP", 49),
   (c!"-SHRA", 50), (c!"SHRA", 51), (c!"+SHRA", 52), (c!"-SHSN", 53), (c!"SHSN", 54), (c!"+SHSN", 55),
   (c!"-SHPL", 56), (c!"SHPL", 57), (c!"+SHPL", 58),
   (c!"-FZDZ", 59), (c!"FZDZ", 60), (c!"+FZDZ", 61), (c!"-FZRA", 62), (c!"FZRA", 63), (c!"+FZRA", 64),
   (c!"TS", 65), (c!"PO", 66), (c!"SQ", 67), (c!"FC", 68), (c!"+FC", 69), (c!"SS", 70), (c!"+SS", 71),
   (c!"DS", 72), (c!"+DS", 73)]

/-- The code of a text of the table. -/
def codeOfText (q : Qualifier) (d : Descriptor) (ws : List Weather) : Option Nat :=
  codeTable.lookup (weatherWritten q d ws)

/-- The code of one phenomenon: that of its text; if there is none, that of its text without the
intensity, without the descriptor or without both. 0 stands for phenomena which are not reported. -/
def codeFor (q : Qualifier) (d : Descriptor) (w : Weather) : Nat :=
  let q := if q = .LIGHT ∨ q = .HEAVY then q else .NONE
  ((codeOfText q d [w]).or ((codeOfText .NONE d [w]).or
    ((codeOfText q .NONE [w]).or (codeOfText .NONE .NONE [w])))).getD 0

/-- The code of phenomena in the vicinity: that of their text; if there is none, that of the text
without the phenomenon or without the descriptor. All others are precipitation. -/
def vicinityCode (d : Descriptor) (ws : List Weather) : Nat :=
  ((codeOfText .VICINITY d (ws.take 1)).or ((codeOfText .VICINITY d []).or
    (codeOfText .VICINITY .NONE (ws.take 1)))).getD 1

/-- The codes of a weather phenomenon: of each kind of weather in the order written, after that of the
thunderstorm; in the vicinity there is only one. -/
def phenomenonCodes (q : Qualifier) (d : Descriptor) (ws : List Weather) : List Nat :=
  if q = .VICINITY then [vicinityCode d ws]
  else if d = .THUNDERSTORM then (codeTable.lookup c!"TS").toList ++ ws.map (codeFor q .NONE)
  else ws.map (codeFor q d)

/-! ### Cover of the sky -/

/-- What one group says on the cover of the sky. -/
inductive Cover | clear | partly | broken | overcast
  deriving DecidableEq, Repr

/-- The cover an amount of clouds stands for. A variable amount is taken for a cover less than broken. -/
def coverOfAmount : Amount → Option Cover
  | .NOT_REPORTED => none
  | .NCD | .NONE_CLR | .NONE_SKC | .VARIABLE_FEW_SCATTERED => some .clear
  | .NSC | .FEW | .SCATTERED | .VARIABLE_SCATTERED_BROKEN | .VARIABLE_BROKEN_OVERCAST => some .partly
  | .BROKEN => some .broken
  | .OVERCAST | .OBSCURED => some .overcast

/-- The cover a group stands for; CAVOK says that there are no clouds of significance. -/
def coverOf : Group → Option Cover
  | .cloud g => coverOfAmount g.amnt
  | .keyword k => if k.t = .CAVOK then some .partly else none
  | _ => none

/-- The covers said, in order. -/
def covers (gs : List Group) : List Cover := gs.filterMap coverOf

/-- The greatest cover said. -/
def greatest (cs : List Cover) : Sky :=
  if .overcast ∈ cs then .OVERCAST
  else if .broken ∈ cs then .MOSTLY_CLOUDY
  else if .partly ∈ cs then .MOSTLY_CLEAR
  else if .clear ∈ cs then .CLEAR
  else .NOT_SPECIFIED

/-- The part of the list from the last partly covered sky on; the whole list if there is none. -/
def fromLastPartly (cs : List Cover) : List Cover :=
  if .partly ∈ cs then .partly :: (cs.reverse.takeWhile (· ≠ .partly)).reverse else cs

/-! ### Members of the summary -/

/-- A number without its fraction: the quotient of its numerator and denominator, rounded towards zero. -/
def integerPart (q : Rat) : Int := q.num.tdiv q.den

/-- What the last group that says something says. -/
def lastOf {α : Type} (f : Group → Option α) (gs : List Group) : Option α := gs.reverse.findSome? f

/-- The value of a member: −250 if nothing is said. -/
def orNone (v : Option Int) : Int := v.getD (-250)

/-- The group is a trend group. -/
def isTrend : Group → Bool
  | .trend _ => true
  | _ => false

/-- The groups before the first trend. -/
def beforeTrend (gs : List Group) : List Group := gs.takeWhile (!isTrend ·)

/-- The groups before the second trend. -/
def beforeSecondTrend (gs : List Group) : List Group :=
  beforeTrend gs ++ beforeTrend ((gs.dropWhile (!isTrend ·)).tail)

/-- Speed in miles or kilometres per hour. -/
def speedIn (imperial : Bool) (s : Speed) : Option Int :=
  (s.toUnit (if imperial then .MILES_PER_HOUR else .KILOMETERS_PER_HOUR)).map integerPart

/-- Distance in statute miles or metres. -/
def distanceIn (imperial : Bool) (d : Distance) : Option Int :=
  (d.toUnit (if imperial then .STATUTE_MILES else .METERS)).map integerPart

/-- Temperature in degrees Fahrenheit or Celsius. -/
def temperatureIn (imperial : Bool) (t : Temperature) : Option Int :=
  (t.toUnit (if imperial then .F else .C)).map integerPart

/-- Pressure in hundredths of an inch of mercury or hectopascals. -/
def pressureIn (imperial : Bool) (p : Pressure) : Option Int :=
  if imperial then (p.toUnit .INCHES_HG).map fun x => integerPart (f32 (x * 100))
  else (p.toUnit .HECTOPASCAL).map integerPart

/-- A group of surface wind. -/
def surfaceWind : Group → Option WindGroup
  | .wind g =>
    if g.windType ∈ [.SURFACE_WIND, .SURFACE_WIND_CALM, .SURFACE_WIND_WITH_VARIABLE_SECTOR] then some g
    else none
  | _ => none

/-- A group of wind of any type. -/
def anyWind : Group → Option WindGroup
  | .wind g => some g
  | _ => none

/-- A group of prevailing visibility. -/
def prevailing : Group → Option VisibilityGroup
  | .visibility g => if g.visType ∈ [.PREVAILING, .PREVAILING_NDV] then some g else none
  | _ => none

/-- A group of visibility of any type. -/
def anyVisibility : Group → Option VisibilityGroup
  | .visibility g => some g
  | _ => none

/-- A group of current weather. -/
def presentWeather : Group → Option WeatherGroup
  | .weather g => if g.t = .CURRENT then some g else none
  | _ => none

/-- A group of weather of any type. -/
def anyWeather : Group → Option WeatherGroup
  | .weather g => some g
  | _ => none

/-- The visibility a group tells: CAVOK stands for 10 km, that is 6 whole miles. -/
def visibilityTold (imperial : Bool) (vis : Group → Option VisibilityGroup) (g : Group) : Option Int :=
  if g = .keyword ⟨.CAVOK⟩ then some (if imperial then 6 else 10000)
  else (vis g).bind fun v => distanceIn imperial v.visibility

/-- The air temperature a group tells. -/
def temperatureGroupOf : Group → Option TemperatureGroup
  | .temperature g => if g.t.isReported then some g else none
  | _ => none

/-- The observed pressure at sea level a group tells. -/
def qnhOf : Group → Option Pressure
  | .pressure g => if g.t = .OBSERVED_QNH then some g.p else none
  | _ => none

/-- The temperature felt: the heat index where it is defined, else the wind chill where it is defined,
else the temperature of the air. -/
def felt (imperial : Bool) (g : TemperatureGroup) (wind : Option Speed) : Option Int :=
  (temperatureIn imperial (Temperature.heatIndex g.t g.dp)).or
    ((wind.bind fun w => temperatureIn imperial (Temperature.windChill g.t w)).or
      (temperatureIn imperial g.t))

/-- What the members on wind, visibility, storm clouds, cover of the sky and weather are, given which
groups of wind, visibility and weather count. -/
structure SkyAndWind (imperial : Bool) (wind : Group → Option WindGroup)
    (vis : Group → Option VisibilityGroup) (weather : Group → Option WeatherGroup) (gs : List Group)
    (r : CurrentWeather) : Prop where
  windDirection : r.windDirection =
    orNone (lastOf (fun g => (wind g).bind fun w => w.windDir.degrees.map Int.ofNat) gs)
  isWindVariable : r.isWindVariable = true ↔
    ∃ g ∈ gs, ∃ w, wind g = some w ∧ w.windDir.dirType = .VARIABLE
  windSpeed : r.windSpeed =
    orNone (lastOf (fun g => (wind g).bind fun w => speedIn imperial w.wSpeed) gs)
  gustSpeed : r.gustSpeed =
    orNone (lastOf (fun g => (wind g).bind fun w => speedIn imperial w.gSpeed) gs)
  visibility : r.visibility = orNone (lastOf (visibilityTold imperial vis) gs)
  isStormClouds : r.isStormClouds = true ↔ ∃ c, .cloud c ∈ gs ∧ c.convtype = .CUMULONIMBUS
  cloud : r.cloud = greatest (fromLastPartly (covers gs))
  weather : r.weather = (gs.filterMap weather).flatMap fun w =>
    w.weatherPhenomena.flatMap fun p => phenomenonCodes p.qualifier p.descriptor p.weather

/-- What the members on temperature, humidity and pressure are. -/
structure Measured (imperial : Bool) (gs : List Group) (r : CurrentWeather) : Prop where
  airTemperature : r.airTemperature =
    orNone (lastOf (fun g => (temperatureGroupOf g).bind fun t => temperatureIn imperial t.t) gs)
  relativeHumidity : r.relativeHumidity =
    orNone (lastOf (fun g => (temperatureGroupOf g).bind fun t =>
      t.relativeHumidity.map integerPart) gs)
  atmosphericPressure : r.atmosphericPressure =
    orNone (lastOf (fun g => (qnhOf g).bind (pressureIn imperial)) gs)
  perceivedTemperature : ∀ before g t after, gs = before ++ g :: after → temperatureGroupOf g = some t →
    (∀ g' ∈ after, temperatureGroupOf g' = none) →
    r.perceivedTemperature =
      orNone (felt imperial t (lastOf (fun g => (surfaceWind g).map (·.wSpeed)) before))
  noPerceivedTemperature : (∀ g ∈ gs, temperatureGroupOf g = none) → r.perceivedTemperature = -250

end Metaf.Spec
