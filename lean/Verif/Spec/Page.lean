import Verif.Model.Page
import Verif.Spec.Values
import Verif.Spec.Decimal
import Mathlib.Algebra.Order.Group.Unbundled.Abs
import Mathlib.Algebra.Order.Ring.Int

/-!
Specification of the web page with the summaries, `/repo/examples/shellfiles/summary_shell.html`: what the page says
on a station, in terms of the summary of its weather.
-/

namespace Metaf.Spec

open Metaf Metaf.Summary

/-! ### Lines -/

/-- The text consists of the lines, each followed by a line break; there is no markup within a line. -/
def PageLines (text : Str) (lines : List Str) : Prop :=
  text = (lines.map (· ++ c!"<br>")).flatten ∧ ∀ l ∈ lines, '<' ∉ l

/-- A number as text. -/
def numberText (n : Int) : Str := (if n < 0 then ['-'] else []) ++ Nat.toDigits 10 n.natAbs

/-- A member of the summary which is −250 has no value. -/
def known (n : Int) : Option Int := if n = -250 then none else some n

/-- What the page says on the weather with each number (`enum class Weather`, from 0 on). -/
def phrases : List Str :=
  [c!"Weather data not specified",
   c!"Precipitation in vicinity",
   c!"Thunderstorm in vicinity",
   c!"Fog in vicinity",
   c!"Volcanic ash in vicinity",
   c!"Sand or dust whirls in vicinity",
   c!"Blowing snow in vicinity",
   c!"Blowing dust in vicinity",
   c!"Blowing sand in vicinity",
   c!"Sand storm in vicinity",
   c!"Dust storm in vicinity",
   c!"Low drifting sand",
   c!"Low drifting dust",
   c!"Low drifting snow",
   c!"Blowing sand",
   c!"Blowing dust",
   c!"Blowing snow",
   c!"Blowing spray",
   c!"Fog",
   c!"Ground fog",
   c!"Location partly covered by fog",
   c!"Random patches of fog",
   c!"Freezing fog",
   c!"Airborne ice crystals (diamond dust)",
   c!"Mist",
   c!"Smoke",
   c!"Volcanic ash",
   c!"Widespread dust",
   c!"Airborne sand particles",
   c!"Haze",
   c!"Light drizzle",
   c!"Moderate drizzle",
   c!"Heavy drizzle",
   c!"Light rain",
   c!"Moderate rain",
   c!"Heavy rain",
   c!"Light snow",
   c!"Moderate snow",
   c!"Heavy snow",
   c!"Ice pellets (light intensity)",
   c!"Ice pellets (moderate intensity)",
   c!"Ice pellets (heavy intensity)",
   c!"Snow grains (light intensity)",
   c!"Snow grains (moderate intensity)",
   c!"Snow grains (heavy intensity)",
   c!"Graupel",
   c!"Hail",
   c!"Undetermined precipitation (light)",
   c!"Undetermined precipitation (moderate)",
   c!"Undetermined precipitation (heavy)",
   c!"Light showers",
   c!"Moderate showers",
   c!"Heavy showers",
   c!"Light snow showers",
   c!"Moderate snow showers",
   c!"Heavy snow showers",
   c!"Light ice pellet showers",
   c!"Moderate ice pellet showers",
   c!"Heavy ice pellet showers",
   c!"Light freezing drizzle",
   c!"Moderate freezing drizzle",
   c!"Heavy freezing drizzle",
   c!"Light freezing rain",
   c!"Moderate freezing rain",
   c!"Heavy freezing rain",
   c!"Thunderstorm",
   c!"Sand or dust whirls",
   c!"Squalls",
   c!"Funnel cloud",
   c!"Tornado or waterspout",
   c!"Sand storm",
   c!"Heavy sand storm",
   c!"Dust storm",
   c!"Heavy dust storm"]

/-- What the page says on weather. -/
def phrase (n : Nat) : Str := phrases.getD n []

/-- What the page says on the sky. -/
def skyPhrase : Sky → Str
  | .NOT_SPECIFIED => c!"Cloud data not specified"
  | .CLEAR => c!"Clear"
  | .MOSTLY_CLEAR => c!"Mostly clear"
  | .MOSTLY_CLOUDY => c!"Mostly cloudy"
  | .OVERCAST => c!"Overcast"

/-- The temperature the page judges by: that felt, or else that of the air. -/
def judged (r : CurrentWeather) : Option Int := (known r.perceivedTemperature).or (known r.airTemperature)

/-- It is hot: 30 °C or 86 °F. -/
def Hot (r : CurrentWeather) (imperial : Bool) : Prop := ∃ t, judged r = some t ∧ (if imperial then 86 else 30) ≤ t

/-- It is cold: −15 °C or 5 °F. -/
def Cold (r : CurrentWeather) (imperial : Bool) : Prop := ∃ t, judged r = some t ∧ t ≤ (if imperial then 5 else -15)

/-- A speed to be warned of: 40 km/h or, as 24.85 mph is no whole number, 25 mph. -/
def Fast (speed : Int) (imperial : Bool) : Prop := ∃ v, known speed = some v ∧ (if imperial then 25 else 40) ≤ v

/-! ### Directions -/

/-- The sixteen points of the compass, 22.5 degrees apart. -/
def windRose : List Str :=
  [c!"north", c!"north-northeast", c!"northeast", c!"east-northeast", c!"east", c!"east-southeast", c!"southeast",
   c!"south-southeast", c!"south", c!"south-southwest", c!"southwest", c!"west-southwest", c!"west",
   c!"west-northwest", c!"northwest", c!"north-northwest"]

/-- The text is the point of the compass nearest to a direction; a direction exactly at one of the four main points
is marked as true (zero degrees is not). -/
def CompassText (degrees : Int) (text : Str) : Prop :=
  ∃ k : Nat, |4 * degrees - 90 * k| < 45 ∧
    text = (if degrees ≠ 0 ∧ degrees % 90 = 0 then c!"true " else []) ++ windRose.getD (k % 16) []

/-! ### Numbers with decimals -/

/-- A number divided by 10 to the power `k`, with as few decimals as possible. -/
def shortDecimal (n : Int) : Nat → Str
  | 0 => numberText n
  | k + 1 =>
    if n % 10 = 0 then shortDecimal (n / 10) k
    else (if n < 0 then ['-'] else []) ++ Nat.toDigits 10 (n.natAbs / 10 ^ (k + 1)) ++ c!"." ++
      decimal (k + 1) n.natAbs

/-! ### The text about a station -/

/-- Unit of temperature. -/
def degreeSign (imperial : Bool) : Str := if imperial then c!"&deg;F" else c!"&degC"

/-- Unit of speed. -/
def speedSign (imperial : Bool) : Str := if imperial then c!"mph" else c!"km/h"

/-- A part of a line, or a whole line, on a member which may be missing. -/
def onKnown (member : Int) (text : Int → Str) : Str := ((known member).map text).getD []

/-- A line on a member which may be missing. -/
def lineOn (member : Int) (text : Int → Str) : List Str := ((known member).map text).toList

/-- The line on the sky. -/
def skyLine (r : CurrentWeather) : Str :=
  skyPhrase r.cloud ++ (if r.isStormClouds then c!" (storm clouds in the sky)" else [])

/-- The line on the temperature. -/
def temperatureLine (r : CurrentWeather) (imperial : Bool) : Str :=
  c!"Temperature " ++
  (if known r.airTemperature = none then c!"not specified"
   else numberText r.airTemperature ++ degreeSign imperial) ++
  onKnown r.airTemperatureHigh (fun t => c!", high " ++ numberText t ++ degreeSign imperial) ++
  onKnown r.airTemperatureLow (fun t => c!", low " ++ numberText t ++ degreeSign imperial)

/-- The remaining lines on measurements; pressure in imperial units is counted in hundredths of an inch. -/
def measurementLines (r : CurrentWeather) (imperial : Bool) : List Str :=
  lineOn r.relativeHumidity (fun h => c!"RH " ++ numberText h ++ c!"%") ++
  lineOn r.visibility (fun v => c!"Visibility " ++ numberText v ++ (if imperial then c!" miles" else c!" meters")) ++
  lineOn r.atmosphericPressure (fun p => c!"Atmospheric pressure " ++
    (if imperial then shortDecimal p 2 ++ c!" &quot;Hg" else numberText p ++ c!" hPa"))

/-- What the page says on the speed of wind and gusts. -/
def speedsText (r : CurrentWeather) (imperial : Bool) : Str :=
  onKnown r.windSpeed (fun s => c!", " ++ numberText s ++ c!" " ++ speedSign imperial) ++
  onKnown r.gustSpeed (fun s => c!" with gusts up to " ++ numberText s ++ c!" " ++ speedSign imperial)

/-- The lines on the wind, as one would expect them: none if nothing is known on the wind; the direction and its name
if there is one; variable if that was reported. (The page keeps to this only if there is a direction or the wind is
variable, see `C124`.) -/
def WindLines (r : CurrentWeather) (imperial : Bool) (lines : List Str) : Prop :=
  (known r.windDirection = none ∧ known r.windSpeed = none ∧ r.isWindVariable = false → lines = []) ∧
  (known r.windDirection = none → r.isWindVariable = true →
    lines = [c!"Wind is variable" ++ speedsText r imperial]) ∧
  (∀ d, known r.windDirection = some d → 0 ≤ d → d ≤ 360 → ∃ point, CompassText d point ∧
    lines = [c!"Wind is " ++ point ++ c!"ern, " ++ numberText d ++ c!"&deg;" ++ speedsText r imperial]) ∧
  (known r.windSpeed ≠ none → ∃ line ∈ lines, speedsText r imperial <:+ line)

/-- The lines which begin with a text. -/
def linesFrom (start : Str) (lines : List Str) : List Str := lines.filter fun l => start.isPrefixOf l

/-- The remarks on heat, cold and wind. -/
structure Notes (r : CurrentWeather) (imperial : Bool) (notes : List Str) : Prop where
  order : notes.Sublist [c!"Hot", c!"Cold", c!"Windy", c!"Gusty wind"]
  hot : c!"Hot" ∈ notes ↔ Hot r imperial
  cold : c!"Cold" ∈ notes ↔ Cold r imperial
  windy : c!"Windy" ∈ notes ↔ Fast r.windSpeed imperial
  gusty : c!"Gusty wind" ∈ notes ↔ Fast r.gustSpeed imperial

/-- The lines about a station: the weather, remarks on heat, cold and wind, the sky, the temperature and that felt, the
wind, the other measurements, and the time of the report. The lines on wind and time are those which begin so. -/
def StationLines (r : CurrentWeather) (imperial : Bool) (lines : List Str) : Prop :=
  ∃ notes, Notes r imperial notes ∧
    lines = r.weather.map phrase ++ notes ++ [skyLine r, temperatureLine r imperial] ++
      lineOn r.perceivedTemperature (fun t => c!"Feels like " ++ numberText t ++ degreeSign imperial) ++
      linesFrom c!"Wind " lines ++ measurementLines r imperial ++ linesFrom c!"Updated: " lines

/-! ### Dates -/

/-- The day after a date. -/
def nextDay (d : Date) : Date :=
  if d.day < daysInMonth d.year d.month then { d with day := d.day + 1 }
  else if d.month < 12 then { year := d.year, month := d.month + 1, day := 1 }
  else { year := d.year + 1, month := 1, day := 1 }

/-- Numbers of days: 1 January 1970 is day 0 and the day after a day has the next number. -/
structure Calendar (number : Date → Int) : Prop where
  epoch : number ⟨1970, 1, 1⟩ = 0
  next : ∀ d, RealDate d → number (nextDay d) = number d + 1

/-- A duration in minutes as the page says it. -/
def durationText (minutes : Nat) : Str :=
  let hours (h : Nat) : Str := if h = 1 then c!"1 hour" else numberText h ++ c!" hours"
  let mins (m : Nat) : Str := if m = 1 then c!"1 minute" else numberText m ++ c!" minutes"
  if minutes = 0 then c!"just now"
  else if minutes < 60 then mins minutes
  else if minutes % 60 = 0 then hours (minutes / 60)
  else hours (minutes / 60) ++ c!" " ++ mins (minutes % 60)

end Metaf.Spec
