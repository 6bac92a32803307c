import Verif.Model.Distance

/-!
Model of the value classes `Pressure`, `Precipitation`, `SurfaceFriction`, `WaveHeight`.
Source: `/repo/include/metaf.hpp`.
-/

namespace Metaf

variable [FloatSem]

/-! ### Pressure -/

/-- `Pressure::Unit`, metaf.hpp:400-404. -/
inductive PressureUnit | HECTOPASCAL | INCHES_HG | MM_HG
  deriving DecidableEq, Repr

/-- `Pressure`, metaf.hpp:398-423. -/
structure Pressure where
  pressureValue : Option Rat := none
  pressureUnit : PressureUnit := .HECTOPASCAL
  deriving DecidableEq, Repr

namespace Pressure

/-- `Pressure::isReported`, metaf.hpp:408. -/
def isReported (p : Pressure) : Bool := p.pressureValue.isSome

/-- `Pressure::inHgDecimalPointShift`, metaf.hpp:421 (`float` constant 0.01). -/
def inHgDecimalPointShift : Rat := f32 (f64 (1 / 100))

/-- `Pressure::tendencyDecimalPointShift`, metaf.hpp:422 (`float` constant 0.1). -/
def tendencyDecimalPointShift : Rat := f32 (f64 (1 / 10))

/-- `Pressure::fromString`, metaf.hpp:3371-3398. -/
def fromString (s : Str) : Option Pressure :=
  if s.length != 5 then none
  else if s = c!"A////" then some { pressureUnit := .INCHES_HG }
  else if s = c!"Q////" then some { pressureUnit := .HECTOPASCAL }
  else
    match strToUint s 1 4 with
    | none => none
    | some pr =>
      if ch s 0 == 'A' then
        some { pressureUnit := .INCHES_HG,
               pressureValue := some (f32 (f32 pr * inHgDecimalPointShift)) }
      else if ch s 0 == 'Q' then
        some { pressureUnit := .HECTOPASCAL, pressureValue := some (f32 pr) }
      else none

/-- `Pressure::fromForecastString`, metaf.hpp:3400-3412. -/
def fromForecastString (s : Str) : Option Pressure :=
  if s.length != 10 then none
  else if ch s 0 != 'Q' || ch s 1 != 'N' || ch s 2 != 'H' then none
  else if ch s 7 != 'I' || ch s 8 != 'N' || ch s 9 != 'S' then none
  else
    match strToUint s 3 4 with
    | none => none
    | some pr => some { pressureUnit := .INCHES_HG,
                        pressureValue := some (f32 (f32 pr * inHgDecimalPointShift)) }

/-- `Pressure::fromSlpString`, metaf.hpp:3414-3428. The sum is computed in `double` and stored in a
`float`. -/
def fromSlpString (s : Str) : Option Pressure :=
  if s.length != 6 then none
  else if ch s 0 != 'S' || ch s 1 != 'L' || ch s 2 != 'P' then none
  else
    match strToUint s 3 3 with
    | none => none
    | some pr =>
      let base : Rat := if pr < 500 then 1000 else 900
      some { pressureUnit := .HECTOPASCAL,
             pressureValue := some (f32 (f64 (f64 (pr * f64 (1 / 10)) + base))) }

/-- `Pressure::fromQfeString`, metaf.hpp:3430-3446. -/
def fromQfeString (s : Str) : Option Pressure :=
  if s.length != 6 && s.length != 11 then none
  else if ch s 0 != 'Q' || ch s 1 != 'F' || ch s 2 != 'E' then none
  else
    match strToUint s 3 3 with
    | none => none
    | some mmHg =>
      if s.length == 11 && ((strToUint s 7 4).isNone || ch s 6 != '/') then none
      else some { pressureUnit := .MM_HG, pressureValue := some (f32 mmHg) }

/-- `Pressure::fromTendencyString`, metaf.hpp:3448-3459. -/
def fromTendencyString (s : Str) : Option Pressure :=
  if s.length != 3 then none
  else if s = c!"///" then some {}
  else
    match strToUint s 0 3 with
    | none => none
    | some hPa => some { pressureUnit := .HECTOPASCAL,
                         pressureValue := some (f32 (f32 hPa * tendencyDecimalPointShift)) }

/-- `Pressure::toUnit`, metaf.hpp:3461-3489. -/
def toUnit (p : Pressure) (unit : PressureUnit) : Option Rat :=
  match p.pressureValue with
  | none => none
  | some v =>
    let hpaPerInHg : Rat := 338639 / 10000
    let hpaPerMmHg : Rat := 13332 / 10000
    let mmPerInch : Rat := 254 / 10
    some (match p.pressureUnit, unit with
      | .HECTOPASCAL, .HECTOPASCAL => v
      | .HECTOPASCAL, .INCHES_HG => Speed.divLit v hpaPerInHg
      | .HECTOPASCAL, .MM_HG => Speed.divLit v hpaPerMmHg
      | .INCHES_HG, .HECTOPASCAL => Speed.mulLit v hpaPerInHg
      | .INCHES_HG, .INCHES_HG => v
      | .INCHES_HG, .MM_HG => Speed.mulLit v mmPerInch
      | .MM_HG, .HECTOPASCAL => Speed.mulLit v hpaPerMmHg
      | .MM_HG, .INCHES_HG => Speed.divLit v mmPerInch
      | .MM_HG, .MM_HG => v)

end Pressure

/-! ### Precipitation -/

/-- `Precipitation::Unit`, metaf.hpp:427-430. -/
inductive PrecipitationUnit | MM | INCHES
  deriving DecidableEq, Repr

/-- `Precipitation`, metaf.hpp:425-462. -/
structure Precipitation where
  precipValue : Option Rat := none
  precipUnit : PrecipitationUnit := .MM
  deriving DecidableEq, Repr

namespace Precipitation

/-- `Precipitation::isReported`, metaf.hpp:434. -/
def isReported (p : Precipitation) : Bool := p.precipValue.isSome

/-- `Precipitation::fromRainfallString`, metaf.hpp:3493-3506. -/
def fromRainfallString (s : Str) : Option Precipitation :=
  if s = c!"///./" ∨ s = c!"//./" then some {}
  else if s.length != 4 && s.length != 5 then none
  else if ch s (s.length - 2) != '.' then none
  else
    match strToUint s (s.length - 1) 1 with
    | none => none
    | some fractPart =>
      match strToUint s 0 (s.length - 2) with
      | none => none
      | some intPart =>
        some { precipValue := some (f32 (f64 (intPart + f64 (f64 (1 / 10) * fractPart)))) }

/-- `Precipitation::fromRunwayDeposits`, metaf.hpp:3508-3537. -/
def fromRunwayDeposits (s : Str) : Option Precipitation :=
  if s.length != 2 then none
  else if s = c!"//" then some {}
  else
    match strToUint s 0 2 with
    | none => none
    | some depth =>
      match depth with
      | 91 => none
      | 92 => some { precipValue := some 100 }
      | 93 => some { precipValue := some 150 }
      | 94 => some { precipValue := some 200 }
      | 95 => some { precipValue := some 250 }
      | 96 => some { precipValue := some 300 }
      | 97 => some { precipValue := some 350 }
      | 98 => some { precipValue := some 400 }
      | 99 => some { precipValue := none }
      | d => some { precipValue := some (f32 (d : Nat)) }

/-- `Precipitation::fromRemarkString`, metaf.hpp:3539-3557. `factor` is a `float`. -/
def fromRemarkString (s : Str) (factor : Rat) (unit : PrecipitationUnit)
    (allowNotReported : Bool := false) : Option Precipitation :=
  if s.length != 3 && s.length != 4 then none
  else if s = c!"///" ∨ s = c!"////" then
    if !allowNotReported then none else some { precipUnit := unit }
  else
    match strToUint s 0 s.length with
    | none => none
    | some pr => some { precipUnit := unit, precipValue := some (f32 (f32 pr * factor)) }

/-- `Precipitation::fromSnincrString`, metaf.hpp:3559-3576. -/
def fromSnincrString (s : Str) : Option (Precipitation × Precipitation) :=
  match fractionStrToUint s 0 s.length with
  | none => none
  | some (a, b) =>
    some ({ precipUnit := .INCHES, precipValue := some (f32 a) },
          { precipUnit := .INCHES, precipValue := some (f32 b) })

/-- `Precipitation::toUnit`, metaf.hpp:3578-3590. -/
def toUnit (p : Precipitation) (unit : PrecipitationUnit) : Option Rat :=
  match p.precipValue with
  | none => none
  | some v =>
    some (match p.precipUnit, unit with
      | .MM, .MM => v
      | .INCHES, .INCHES => v
      | .MM, .INCHES => Speed.divLit v (254 / 10)
      | .INCHES, .MM => Speed.mulLit v (254 / 10))

end Precipitation

/-! ### SurfaceFriction -/

/-- `SurfaceFriction::Type`, metaf.hpp:466-471. -/
inductive SurfaceFrictionType
  | NOT_REPORTED | SURFACE_FRICTION_REPORTED | BRAKING_ACTION_REPORTED | UNRELIABLE
  deriving DecidableEq, Repr

/-- `SurfaceFriction::BrakingAction`, metaf.hpp:472-479. -/
inductive BrakingAction | NONE | POOR | MEDIUM_POOR | MEDIUM | MEDIUM_GOOD | GOOD
  deriving DecidableEq, Repr

/-- `SurfaceFriction`, metaf.hpp:464-515. -/
structure SurfaceFriction where
  sfType : SurfaceFrictionType := .NOT_REPORTED
  sfCoefficient : Nat := 0
  deriving DecidableEq, Repr

namespace SurfaceFriction

/-- `SurfaceFriction::coefficient`, metaf.hpp:481-485. -/
def coefficient (x : SurfaceFriction) : Option Rat :=
  if x.sfType = .NOT_REPORTED ∨ x.sfType = .UNRELIABLE then none
  else some (f32 (f64 (x.sfCoefficient * f64 (1 / 100))))

/-- `SurfaceFriction::isReported`, metaf.hpp:487. -/
def isReported (x : SurfaceFriction) : Bool := x.sfType != .NOT_REPORTED

/-- `SurfaceFriction::isUnreliable`, metaf.hpp:488. -/
def isUnreliable (x : SurfaceFriction) : Bool := x.sfType == .UNRELIABLE

/-- `SurfaceFriction::fromString`, metaf.hpp:3594-3645. -/
def fromString (s : Str) : Option SurfaceFriction :=
  if s.length != 2 then none
  else if s = c!"//" then some {}
  else
    match strToUint s 0 2 with
    | none => none
    | some coefficient =>
      match coefficient with
      | 91 => some { sfType := .BRAKING_ACTION_REPORTED, sfCoefficient := 0 }
      | 92 => some { sfType := .BRAKING_ACTION_REPORTED, sfCoefficient := 26 }
      | 93 => some { sfType := .BRAKING_ACTION_REPORTED, sfCoefficient := 30 }
      | 94 => some { sfType := .BRAKING_ACTION_REPORTED, sfCoefficient := 36 }
      | 95 => some { sfType := .BRAKING_ACTION_REPORTED, sfCoefficient := 40 }
      | 96 | 97 | 98 => none
      | 99 => some { sfType := .UNRELIABLE }
      | c => some { sfCoefficient := c, sfType := .SURFACE_FRICTION_REPORTED }

/-- `SurfaceFriction::brakingAction`, metaf.hpp:3647-3655. -/
def brakingAction (x : SurfaceFriction) : BrakingAction :=
  if x.sfType = .NOT_REPORTED ∨ x.sfType = .UNRELIABLE then .NONE
  else if x.sfCoefficient < 26 then .POOR
  else if x.sfCoefficient < 30 then .MEDIUM_POOR
  else if x.sfCoefficient < 36 then .MEDIUM
  else if x.sfCoefficient < 40 then .MEDIUM_GOOD
  else .GOOD

end SurfaceFriction

/-! ### WaveHeight -/

/-- `WaveHeight::Type`, metaf.hpp:519-522. -/
inductive WaveHeightType | STATE_OF_SURFACE | WAVE_HEIGHT
  deriving DecidableEq, Repr

/-- `WaveHeight::Unit`, metaf.hpp:523-526. -/
inductive WaveHeightUnit | METERS | FEET
  deriving DecidableEq, Repr

/-- `WaveHeight::StateOfSurface`, metaf.hpp:528-540. -/
inductive StateOfSurface
  | NOT_REPORTED | CALM_GLASSY | CALM_RIPPLED | SMOOTH | SLIGHT | MODERATE | ROUGH | VERY_ROUGH
  | HIGH | VERY_HIGH | PHENOMENAL
  deriving DecidableEq, Repr

/-- `WaveHeight`, metaf.hpp:517-572. The value is in decimetres. -/
structure WaveHeight where
  whType : WaveHeightType := .STATE_OF_SURFACE
  whValue : Option Nat := none
  deriving DecidableEq, Repr

namespace WaveHeight

/-- `WaveHeight::waveHeight`, metaf.hpp:544-547. -/
def waveHeight (w : WaveHeight) : Option Rat :=
  match w.whValue with
  | none => none
  | some v => some (f32 (f64 (v * f64 (1 / 10))))

/-- `WaveHeight::isReported`, metaf.hpp:548. -/
def isReported (w : WaveHeight) : Bool := w.whValue.isSome

/-- `WaveHeight::waveHeightFromStateOfSurfaceChar`, metaf.hpp:3715-3729. -/
def waveHeightFromStateOfSurfaceChar (c : Char) : Option Nat :=
  if c = '0' then some 0
  else if c = '1' then some 1
  else if c = '2' then some 5
  else if c = '3' then some 12
  else if c = '4' then some 25
  else if c = '5' then some 40
  else if c = '6' then some 60
  else if c = '7' then some 90
  else if c = '8' then some 140
  else if c = '9' then some 141
  else none

/-- `WaveHeight::fromString`, metaf.hpp:3659-3688. -/
def fromString (s : Str) : Option WaveHeight :=
  if s.length < 2 || s.length > 4 then none
  else if s = c!"H///" then some { whType := .WAVE_HEIGHT }
  else if s = c!"S/" then some { whType := .STATE_OF_SURFACE }
  else if ch s 0 == 'S' then
    if s.length != 2 then none
    else
      match waveHeightFromStateOfSurfaceChar (ch s 1) with
      | none => none
      | some h => some { whType := .STATE_OF_SURFACE, whValue := some h }
  else if ch s 0 == 'H' then
    match strToUint s 1 (s.length - 1) with
    | none => none
    | some h => some { whType := .WAVE_HEIGHT, whValue := some h }
  else none

/-- `WaveHeight::toUnit`, metaf.hpp:3690-3697. -/
def toUnit (w : WaveHeight) (unit : WaveHeightUnit) : Option Rat :=
  match w.waveHeight with
  | none => none
  | some v =>
    match unit with
    | .METERS => some v
    | .FEET => some (Speed.divLit v (3048 / 10000))

/-- `WaveHeight::stateOfSurface`, metaf.hpp:3699-3713. -/
def stateOfSurface (w : WaveHeight) : StateOfSurface :=
  match w.whValue with
  | none => .NOT_REPORTED
  | some h =>
    if h == 0 then .CALM_GLASSY
    else if h ≤ 1 then .CALM_RIPPLED
    else if h ≤ 5 then .SMOOTH
    else if h ≤ 12 then .SLIGHT
    else if h ≤ 25 then .MODERATE
    else if h ≤ 40 then .ROUGH
    else if h ≤ 60 then .VERY_ROUGH
    else if h ≤ 90 then .HIGH
    else if h ≤ 140 then .VERY_HIGH
    else .PHENOMENAL

end WaveHeight

end Metaf
