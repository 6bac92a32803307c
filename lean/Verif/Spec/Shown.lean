import Verif.Model.GroupsD
import Verif.Spec.Decimal

/-!
How single values are to be shown to a reader: times, runways, directions, levels of friction and of waves.
-/

namespace Metaf.Spec

open Metaf

/-- A time: the day if there is one, hour and minute with two digits. -/
def clockShown (day : Str) (hour minute : Nat) : Str :=
  day ++ decimal 2 hour ++ c!":" ++ decimal 2 minute ++ c!" GMT"

/-- The side of a runway. -/
def sideShown : Designator → Str
  | .NONE => []
  | .LEFT => c!" LEFT"
  | .CENTER => c!" CENTER"
  | .RIGHT => c!" RIGHT"

/-- A runway. The numbers 88 and 99 without a side have a meaning of their own. -/
def runwayShown (r : Runway) : Str :=
  if r = ⟨88, .NONE⟩ then c!"all runways"
  else if r = ⟨99, .NONE⟩ then c!"same runway (repetition of last message)"
  else c!"runway " ++ decimal 2 r.rNumber ++ sideShown r.rDesignator

/-- The points of the compass, 45 degrees apart. -/
def compassPoints : List Str :=
  [c!"north", c!"northeast", c!"east", c!"southeast", c!"south", c!"southwest", c!"west", c!"northwest"]

/-- The point of the compass nearest to a direction in degrees, the lower one for equal distance. A direction
exactly at one of the four main points can be marked as such (but zero degrees never is), and a number above 360
is no direction. -/
def compassShown (precise : Bool) (degrees : Nat) : Str :=
  if 360 < degrees then c!"not reported"
  else (if precise = true ∧ degrees ≠ 0 ∧ degrees % 90 = 0 then c!"true " else []) ++
    compassPoints.getD ((2 * degrees + 45) / 90 % 8) []

/-- A direction. -/
def directionShown (precise : Bool) (number : Str) (d : Direction) : Str :=
  match d.dirType with
  | .NOT_REPORTED => c!"not reported"
  | .VARIABLE => c!"variable"
  | .NDV => c!"no directional variation"
  | .VALUE_DEGREES => number ++ c!" degrees(" ++ compassShown precise d.dirDegrees ++ c!")"
  | .VALUE_CARDINAL => compassShown precise d.dirDegrees
  | .OVERHEAD => c!"overhead"
  | .ALQDS => c!"all quadrants (all directions)"
  | .UNKNOWN => c!"unknown direction"

/-- The text of the first level not below the number. -/
def levelShown (n : Nat) : List (Nat × Str) → Str → Str
  | [], top => top
  | (limit, text) :: rest, top => if n ≤ limit then text else levelShown n rest top

/-- Braking action by friction in hundredths. -/
def brakingShown (n : Nat) : Str :=
  levelShown n
    [(25, c!"poor (friction coefficient 0.0 to 0.25)"),
     (29, c!"medium/poor (friction coefficient 0.26 to 0.29)"),
     (35, c!"medium (friction coefficient 0.30 to 0.35)"),
     (39, c!"medium/good (friction coefficient 0.36 to 0.40)")]
    c!"good (friction coefficient 0.40 to 1.00)"

/-- State of the sea by height of waves in decimetres (WMO code table 3700). -/
def wavesShown (n : Nat) : Str :=
  levelShown n
    [(0, c!"calm (glassy), no waves"),
     (1, c!"calm (rippled), wave height &lt;0.1 meters / &lt;1/3 feet"),
     (5, c!"smooth, wave height 0.1 to 0.5 meters / 1/3 to 1 1/2 feet"),
     (12, c!"slight, wave height 0.5 to 1.25 meters / 1 1/2 to 4 feet"),
     (25, c!"moderate, wave height 1.25 to 2.5 meters / 4 to 8 feet"),
     (40, c!"rough, wave height 2.5 to 4 meters / 8 to 13 feet"),
     (60, c!"very rough, wave height 4 to 6 meters / 13 to 20 feet"),
     (90, c!"high, wave height 6 to 9 meters / 20 to 30 feet"),
     (140, c!"very high, wave height 9 to 14 meters / 30 to 46 feet")]
    c!"phenomenal, wave height >14 meters / &gt;46 feet"

end Metaf.Spec
