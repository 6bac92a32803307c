import Verif.Model.Basic

/-!
Model of the value classes `Distance` and `Direction`.
Source: `/repo/include/metaf.hpp`.
-/

namespace Metaf

variable [FloatSem]

/-! ### Distance -/

/-- `Distance::Unit`, metaf.hpp:237-241. -/
inductive DistanceUnit | METERS | STATUTE_MILES | FEET
  deriving DecidableEq, Repr

/-- `Distance::Modifier`, metaf.hpp:242-248. -/
inductive Modifier | NONE | LESS_THAN | MORE_THAN | DISTANT | VICINITY
  deriving DecidableEq, Repr

/-- `Distance::MilesFraction`, metaf.hpp:249-261. -/
inductive MilesFraction
  | NONE | F_1_16 | F_1_8 | F_3_16 | F_1_4 | F_5_16 | F_3_8 | F_1_2 | F_5_8 | F_3_4 | F_7_8
  deriving DecidableEq, Repr

/-- `Distance`, metaf.hpp:235-319. For statute miles `dist` is in 1/10000 of a mile. -/
structure Distance where
  distModifier : Modifier := .NONE
  dist : Option Nat := none
  distUnit : DistanceUnit := .METERS
  deriving DecidableEq, Repr

/-- `Distance::statuteMileFactor`, metaf.hpp:302. -/
def statuteMileFactor : Nat := 10000

namespace Distance

/-- `Distance::isValue`, metaf.hpp:265. -/
def isValue (d : Distance) : Bool := d.dist.isSome

/-- `Distance::isReported`, metaf.hpp:266-270. -/
def isReported (d : Distance) : Bool :=
  d.isValue || d.distModifier == .DISTANT || d.distModifier == .VICINITY

/-- `Distance(unsigned int, Unit)`, metaf.hpp:277-278. -/
def ofUnit (d : Nat) (u : DistanceUnit) : Distance :=
  { dist := some (wrap (d * (if u = .STATUTE_MILES then statuteMileFactor else 1))), distUnit := u }

/-- `Distance(unsigned int numerator, unsigned int denominator)`, metaf.hpp:279-283. -/
def ofFraction (numerator denominator : Nat) : Distance :=
  if denominator == 0 then {}
  else { dist := some (wrap (numerator * statuteMileFactor) / denominator),
         distUnit := .STATUTE_MILES }

/-- `Distance::modifierFromChar`, metaf.hpp:3125-3129. -/
def modifierFromChar (c : Char) : Option Modifier :=
  if c = 'M' then some .LESS_THAN
  else if c = 'P' then some .MORE_THAN
  else none

/-- `Distance::fromMeterString`, metaf.hpp:2868-2885. -/
def fromMeterString (s : Str) : Option Distance :=
  if s.length != 4 then none
  else if s = c!"////" then some { distUnit := .METERS }
  else
    match strToUint s 0 4 with
    | none => none
    | some dist =>
      if dist == 9999 then
        some { distUnit := .METERS, distModifier := .MORE_THAN, dist := some 10000 }
      else some { distUnit := .METERS, dist := some dist }

/-- Body of `Distance::fromMileString` after the unit check, metaf.hpp:2907-2944: `unitLen` is the
length of the unit suffix (0 in remark format). -/
def mileValue (s : Str) (unitLen : Nat) : Option Distance :=
  let modifier := modifierFromChar (ch s 0)
  let m : Nat := if modifier.isSome then 1 else 0
  let distModifier := modifier.getD .NONE
  if (findFrom s '/' 0).isNone then
    let intLength : Int := (s.length : Int) - unitLen - m
    if intLength < 1 || intLength > 2 then none
    else
      match strToUint s m intLength.toNat with
      | none => none
      | some dist =>
        some { distModifier := distModifier, dist := some (wrap (dist * statuteMileFactor)),
               distUnit := .STATUTE_MILES }
  else
    let fracLength : Int := (s.length : Int) - unitLen - m
    match fractionStrToUint s m fracLength.toNat with
    | none => none
    | some (numerator, denominator) =>
      if numerator == 0 || denominator == 0 then none
      else
        let integer := if numerator ≥ denominator then numerator / 10 else 0
        let numerator := if numerator ≥ denominator then numerator % 10 else numerator
        if numerator == 0 then none
        else
          some { distModifier := distModifier,
                 dist := some (wrap (integer * statuteMileFactor +
                   numerator * statuteMileFactor / denominator)),
                 distUnit := .STATUTE_MILES }

/-- `Distance::fromMileString`, metaf.hpp:2887-2945. -/
def fromMileString (s : Str) (remarkFormat : Bool := false) : Option Distance :=
  if !remarkFormat then
    if s.length < 3 then none
    else if s = c!"////SM" then some { distUnit := .STATUTE_MILES }
    else if substr s (s.length - 2) 2 != c!"SM" then none
    else mileValue s 2
  else
    if s.length < 1 then none
    else mileValue s 0

/-- `Distance::fromHeightString`, metaf.hpp:2947-2958. -/
def fromHeightString (s : Str) : Option Distance :=
  if s.length != 3 then none
  else if s = c!"///" then some { distUnit := .FEET }
  else
    match strToUint s 0 3 with
    | none => none
    | some h => some { distUnit := .FEET, dist := some (wrap (h * 100)) }

/-- `Distance::fromRvrString`, metaf.hpp:2960-2982. -/
def fromRvrString (s : Str) (unitFeet : Bool) : Option Distance :=
  let unit : DistanceUnit := if unitFeet then .FEET else .METERS
  if s.length == 4 then
    if s = c!"////" then some { distUnit := unit }
    else
      match strToUint s 0 4 with
      | none => none
      | some dist => some { distUnit := unit, dist := some dist }
  else if s.length == 5 then
    match modifierFromChar (ch s 0) with
    | none => none
    | some modifier =>
      match strToUint s 1 4 with
      | none => none
      | some dist => some { distUnit := unit, distModifier := modifier, dist := some dist }
  else none

/-- `Distance::fromLayerString`, metaf.hpp:2984-3000. -/
def fromLayerString (s : Str) : Option (Distance × Distance) :=
  if s.length != 4 then none
  else
    match strToUint s 0 3 with
    | none => none
    | some h =>
      match strToUint s 3 1 with
      | none => none
      | some d =>
        some ({ distUnit := .FEET, dist := some (wrap (h * 100)) },
              { distUnit := .FEET, dist := some (wrap (h * 100 + d * 1000)) })

/-- `Distance::fromKmString`, metaf.hpp:3002-3021. -/
def fromKmString (s : Str) : Option Distance :=
  if s.length != 3 && s.length != 4 then none
  else
    let numLen := s.length - 2
    if s.drop numLen != c!"KM" then none
    else
      match strToUint s 0 numLen with
      | none => none
      | some dist => some { distUnit := .METERS, dist := some (wrap (dist * 1000)) }

/-- `Distance::fromIntegerAndFraction`, metaf.hpp:3023-3044. -/
def fromIntegerAndFraction (integer fraction : Distance) : Option Distance :=
  if integer.distModifier != .NONE && integer.distModifier != .LESS_THAN &&
     integer.distModifier != .MORE_THAN then none
  else if fraction.distModifier != .NONE || integer.distUnit != .STATUTE_MILES ||
     fraction.distUnit != .STATUTE_MILES then none
  else
    match integer.dist, fraction.dist with
    | some i, some f =>
      if i % statuteMileFactor != 0 || f % statuteMileFactor == 0 then none
      else some { distModifier := integer.distModifier, dist := some (wrap (i + f)),
                  distUnit := .STATUTE_MILES }
    | _, _ => none

/-- `Distance::distance`, metaf.hpp:3056-3061. -/
def distance (d : Distance) : Option Rat :=
  match d.dist with
  | none => none
  | some v =>
    if d.distUnit = .STATUTE_MILES then some (f32 (f32 v / 10000))
    else some (f32 v)

/-- `Distance::metersToUnit`, metaf.hpp:3131-3137. -/
def metersToUnit (v : Rat) : DistanceUnit → Rat
  | .METERS => v
  | .STATUTE_MILES => Speed.divLit v (1609347 / 1000)
  | .FEET => Speed.divLit v (3048 / 10000)

/-- `Distance::milesToUnit`, metaf.hpp:3139-3145. -/
def milesToUnit (v : Rat) : DistanceUnit → Rat
  | .METERS => Speed.mulLit v (1609347 / 1000)
  | .STATUTE_MILES => v
  | .FEET => Speed.mulLit v 5280

/-- `Distance::feetToUnit`, metaf.hpp:3147-3153. -/
def feetToUnit (v : Rat) : DistanceUnit → Rat
  | .METERS => Speed.mulLit v (3048 / 10000)
  | .STATUTE_MILES => Speed.divLit v 5280
  | .FEET => v

/-- `Distance::toUnit`, metaf.hpp:3046-3054. -/
def toUnit (d : Distance) (unit : DistanceUnit) : Option Rat :=
  match d.distance with
  | none => none
  | some v =>
    match d.distUnit with
    | .METERS => some (metersToUnit v unit)
    | .STATUTE_MILES => some (milesToUnit v unit)
    | .FEET => some (feetToUnit v unit)

/-- The table of `Distance::miles`, metaf.hpp:3063-3123, as a function of the number of sixteenths
of a mile. -/
def milesTable (n : Nat) : Nat × MilesFraction :=
  match n with
  | 0 => (0, .NONE)
  | 1 => (0, .F_1_16)
  | 2 => (0, .F_1_8)
  | 3 => (0, .F_3_16)
  | 4 => (0, .F_1_4)
  | 5 => (0, .F_5_16)
  | 6 | 7 => (0, .F_3_8)
  | 8 | 9 => (0, .F_1_2)
  | 10 | 11 => (0, .F_5_8)
  | 12 | 13 => (0, .F_3_4)
  | 14 | 15 => (0, .F_7_8)
  | 16 | 17 => (1, .NONE)
  | 18 | 19 => (1, .F_1_8)
  | 20 | 21 => (1, .F_1_4)
  | 22 | 23 => (1, .F_3_8)
  | 24 | 25 => (1, .F_1_2)
  | 26 | 27 => (1, .F_5_8)
  | 28 | 29 => (1, .F_3_4)
  | 30 | 31 => (1, .F_7_8)
  | 32 | 33 | 34 | 35 => (2, .NONE)
  | 36 | 37 | 38 | 39 => (2, .F_1_4)
  | 40 | 41 | 42 | 43 => (2, .F_1_2)
  | 44 | 45 | 46 | 47 => (2, .F_3_4)
  | n =>
    let integer := n / 16
    (if integer > 15 then 5 * (integer / 5) else integer, .NONE)

/-- `Distance::miles`, metaf.hpp:3063-3123. -/
def miles (d : Distance) : Option (Nat × MilesFraction) :=
  match d.toUnit .STATUTE_MILES with
  | none => none
  | some m => some (milesTable (roundHalfAway (f32 (m * 16))).toNat)

/-- `Distance::cavokVisibility`, metaf.hpp:3155-3165. -/
def cavokVisibility (unitMiles : Bool := false) : Distance :=
  if unitMiles then
    { distModifier := .MORE_THAN, dist := some (6 * statuteMileFactor), distUnit := .STATUTE_MILES }
  else { distModifier := .MORE_THAN, dist := some 10000, distUnit := .METERS }

/-- `Distance::makeDistant`, metaf.hpp:3167-3171. -/
def makeDistant : Distance := { distModifier := .DISTANT }

/-- `Distance::makeVicinity`, metaf.hpp:3173-3177. -/
def makeVicinity : Distance := { distModifier := .VICINITY }

end Distance

/-! ### Direction -/

/-- `Direction::Type`, metaf.hpp:323-332. -/
inductive DirectionType
  | NOT_REPORTED | VARIABLE | NDV | VALUE_DEGREES | VALUE_CARDINAL | OVERHEAD | ALQDS | UNKNOWN
  deriving DecidableEq, Repr

/-- `Direction::Cardinal`, metaf.hpp:333-352. -/
inductive Cardinal
  | NOT_REPORTED | VRB | NDV | N | S | W | E | NW | NE | SW | SE
  | TRUE_N | TRUE_W | TRUE_S | TRUE_E | OHD | ALQDS | UNKNOWN
  deriving DecidableEq, Repr

/-- `Direction`, metaf.hpp:321-396. -/
structure Direction where
  dirDegrees : Nat := 0
  dirType : DirectionType := .NOT_REPORTED
  deriving DecidableEq, Repr

namespace Direction

/-- `Direction::isValue`, metaf.hpp:359-361. -/
def isValue (d : Direction) : Bool := d.dirType == .VALUE_DEGREES || d.dirType == .VALUE_CARDINAL

/-- `Direction::degrees`, metaf.hpp:355-358. -/
def degrees (d : Direction) : Option Nat := if d.isValue then some d.dirDegrees else none

/-- `Direction::isReported`, metaf.hpp:362. -/
def isReported (d : Direction) : Bool := d.dirType != .NOT_REPORTED

/-- `Direction::isValid`, metaf.hpp:366-369. -/
def isValid (d : Direction) : Bool := !(d.isValue && d.dirDegrees > 360)

/-- `Direction::fromCardinalString`, metaf.hpp:3181-3222. -/
def fromCardinalString (s : Str) (enableOhdAlqds : Bool := false) (enableUnknown : Bool := false) :
    Option Direction :=
  if s.isEmpty then none
  else if s = c!"NDV" then some { dirType := .NDV }
  else if enableOhdAlqds = true ∧ s = c!"OHD" then some { dirType := .OVERHEAD }
  else if enableOhdAlqds = true ∧ s = c!"ALQDS" then some { dirType := .ALQDS }
  else if enableUnknown = true ∧ s = c!"UNKNOWN" then some { dirType := .UNKNOWN }
  else if s = c!"N" then some { dirType := .VALUE_CARDINAL, dirDegrees := 360 }
  else if s = c!"W" then some { dirType := .VALUE_CARDINAL, dirDegrees := 270 }
  else if s = c!"S" then some { dirType := .VALUE_CARDINAL, dirDegrees := 180 }
  else if s = c!"E" then some { dirType := .VALUE_CARDINAL, dirDegrees := 90 }
  else if s = c!"NW" then some { dirType := .VALUE_CARDINAL, dirDegrees := 315 }
  else if s = c!"NE" then some { dirType := .VALUE_CARDINAL, dirDegrees := 45 }
  else if s = c!"SW" then some { dirType := .VALUE_CARDINAL, dirDegrees := 225 }
  else if s = c!"SE" then some { dirType := .VALUE_CARDINAL, dirDegrees := 135 }
  else none

/-- `Direction::fromDegreesString`, metaf.hpp:3224-3243. -/
def fromDegreesString (s : Str) : Option Direction :=
  if s.length != 3 then none
  else if s = c!"///" then some { dirType := .NOT_REPORTED }
  else if s = c!"VRB" then some { dirType := .VARIABLE }
  else if ch s 2 != '0' then none
  else
    match strToUint s 0 3 with
    | none => none
    | some dir => some { dirType := .VALUE_DEGREES, dirDegrees := dir }

/-- Degrees to cardinal direction, metaf.hpp:3256-3273. -/
def cardinalOfDegrees (deg : Nat) (trueDirections : Bool) : Cardinal :=
  if trueDirections && deg == 360 then .TRUE_N
  else if trueDirections && deg == 180 then .TRUE_S
  else if trueDirections && deg == 270 then .TRUE_W
  else if trueDirections && deg == 90 then .TRUE_E
  else if deg ≤ 45 / 2 then .N
  else if deg ≤ 45 + 45 / 2 then .NE
  else if deg ≤ 90 + 45 / 2 then .E
  else if deg ≤ 135 + 45 / 2 then .SE
  else if deg ≤ 180 + 45 / 2 then .S
  else if deg ≤ 225 + 45 / 2 then .SW
  else if deg ≤ 270 + 45 / 2 then .W
  else if deg ≤ 315 + 45 / 2 then .NW
  else if deg ≤ 360 then .N
  else .NOT_REPORTED

/-- `Direction::cardinal`, metaf.hpp:3245-3273. -/
def cardinal (d : Direction) (trueDirections : Bool := false) : Cardinal :=
  match d.dirType with
  | .NOT_REPORTED => .NOT_REPORTED
  | .VARIABLE => .VRB
  | .NDV => .NDV
  | .OVERHEAD => .OHD
  | .ALQDS => .ALQDS
  | .UNKNOWN => .UNKNOWN
  | .VALUE_DEGREES => cardinalOfDegrees d.dirDegrees trueDirections
  | .VALUE_CARDINAL => cardinalOfDegrees d.dirDegrees trueDirections

/-- Regular expression of `Direction::fromSectorString`, metaf.hpp:3279-3280. -/
def sectorRgx : Rx :=
  let a := Rx.oneOf c!"NSWE" ⬝ Rx.opt (Rx.oneOf c!"WE")
  .cap 1 a ⬝
  .star ((.chr '-' ⬝ .oneOf c!"NSWE") ∥ (.chr '-' ⬝ .oneOf c!"NS" ⬝ .oneOf c!"WE")) ⬝
  .chr '-' ⬝ .cap 2 a

/-- `Direction::fromSectorString`, metaf.hpp:3275-3289. -/
def fromSectorString (s : Str) : Option (Direction × Direction) :=
  match regexMatch sectorRgx s with
  | none => none
  | some m =>
    match fromCardinalString (m.str 1) with
    | none => none
    | some dirBegin =>
      match fromCardinalString (m.str 2) with
      | none => none
      | some dirEnd => some (dirBegin, dirEnd)

/-- `Direction::rotateOctantClockwise`, metaf.hpp:3326-3342. -/
def rotateOctantClockwise : Cardinal → Cardinal
  | .TRUE_N => .NE
  | .TRUE_E => .SE
  | .TRUE_S => .SW
  | .TRUE_W => .NW
  | .N => .NE
  | .NE => .E
  | .E => .SE
  | .SE => .S
  | .S => .SW
  | .SW => .W
  | .W => .NW
  | .NW => .N
  | _ => .NOT_REPORTED

/-- `Direction(Cardinal)`, metaf.hpp:3344-3367. The values for `TRUE_W` and `TRUE_S` are swapped in
the source. -/
def ofCardinal : Cardinal → Direction
  | .NOT_REPORTED => { dirType := .NOT_REPORTED }
  | .VRB => { dirType := .VARIABLE }
  | .NDV => { dirType := .NDV }
  | .N => { dirType := .VALUE_CARDINAL, dirDegrees := 360 }
  | .S => { dirType := .VALUE_CARDINAL, dirDegrees := 180 }
  | .W => { dirType := .VALUE_CARDINAL, dirDegrees := 270 }
  | .E => { dirType := .VALUE_CARDINAL, dirDegrees := 90 }
  | .NW => { dirType := .VALUE_CARDINAL, dirDegrees := 315 }
  | .NE => { dirType := .VALUE_CARDINAL, dirDegrees := 45 }
  | .SW => { dirType := .VALUE_CARDINAL, dirDegrees := 225 }
  | .SE => { dirType := .VALUE_CARDINAL, dirDegrees := 135 }
  | .TRUE_N => { dirType := .VALUE_CARDINAL, dirDegrees := 360 }
  | .TRUE_W => { dirType := .VALUE_CARDINAL, dirDegrees := 180 }
  | .TRUE_S => { dirType := .VALUE_CARDINAL, dirDegrees := 270 }
  | .TRUE_E => { dirType := .VALUE_CARDINAL, dirDegrees := 90 }
  | .OHD => { dirType := .OVERHEAD }
  | .ALQDS => { dirType := .ALQDS }
  | .UNKNOWN => { dirType := .UNKNOWN }

/-- Cardinal values that make `sectorCardinalDirToVector` leave early, metaf.hpp:3298-3308. -/
def notASector (c : Cardinal) : Bool :=
  c == .NOT_REPORTED || c == .VRB || c == .NDV || c == .OHD || c == .ALQDS

/-- The loop of `sectorCardinalDirToVector`, metaf.hpp:3318-3323, run for at most `fuel`
iterations; `none` if it has not ended by then. -/
def sectorLoop (target : Cardinal) : Nat → Cardinal → List Direction → Option (List Direction)
  | 0, _, _ => none
  | fuel + 1, curr, result =>
    if curr = target then some (result ++ [ofCardinal target])
    else sectorLoop target fuel (rotateOctantClockwise curr) (result ++ [ofCardinal curr])

/-- `Direction::sectorCardinalDirToVector`, metaf.hpp:3291-3324, with at most `fuel` iterations of
its loop. The C++ call returns `v` exactly when some `fuel` gives `some v`; it does not return when
no `fuel` does. -/
def sectorCardinalDirToVector (fuel : Nat) (dirFrom dirTo : Direction) : Option (List Direction) :=
  let cardinalFrom := dirFrom.cardinal
  let cardinalTo := dirTo.cardinal
  if notASector cardinalFrom || notASector cardinalTo then
    some ((if cardinalFrom != .NOT_REPORTED then [ofCardinal cardinalFrom] else []) ++
      (if cardinalTo != .NOT_REPORTED then [ofCardinal cardinalTo] else []))
  else sectorLoop cardinalTo fuel cardinalFrom []

end Direction

end Metaf
