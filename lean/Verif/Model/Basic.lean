import Verif.Base
import Verif.Regex
import Verif.Float

/-!
Model of the value classes `Runway`, `MetafTime`, `Temperature`, `Speed`.
Source: `/repo/include/metaf.hpp`.
-/

namespace Metaf

variable [FloatSem]

/-! ### Runway -/

/-- `Runway::Designator`, metaf.hpp:91-96. -/
inductive Designator | NONE | LEFT | CENTER | RIGHT
  deriving DecidableEq, Repr

/-- `Runway`, metaf.hpp:89-127. -/
structure Runway where
  rNumber : Nat := 0
  rDesignator : Designator := .NONE
  deriving DecidableEq, Repr

namespace Runway

/-- `Runway::isValid`, metaf.hpp:99-103. -/
def isValid (r : Runway) : Bool :=
  r.rNumber ≤ 36 || (r.rNumber == 88 && r.rDesignator == .NONE) ||
    (r.rNumber == 99 && r.rDesignator == .NONE)

/-- `Runway::isAllRunways`, metaf.hpp:104-106. -/
def isAllRunways (r : Runway) : Bool := r.rNumber == 88 && r.rDesignator == .NONE

/-- `Runway::isMessageRepetition`, metaf.hpp:107-109. -/
def isMessageRepetition (r : Runway) : Bool := r.rNumber == 99 && r.rDesignator == .NONE

/-- `Runway::makeAllRunways`, metaf.hpp:113-117. -/
def makeAllRunways : Runway := { rNumber := 88 }

/-- `Runway::designatorFromChar`, metaf.hpp:2578-2585. -/
def designatorFromChar (c : Char) : Option Designator :=
  if c = 'R' then some .RIGHT
  else if c = 'C' then some .CENTER
  else if c = 'L' then some .LEFT
  else none

/-- `Runway::fromString`, metaf.hpp:2557-2576. -/
def fromString (s : Str) (enableRwy : Bool := false) : Option Runway :=
  if s.length < 3 then none
  else if ch s 0 != 'R' then none
  else
    let numPos := if enableRwy && ch s 1 == 'W' && ch s 2 == 'Y' then 3 else 1
    match strToUint s numPos 2 with
    | none => none
    | some rwyNum =>
      let dsgPos := numPos + 2
      if s.length > dsgPos + 1 then none
      else if s.length > dsgPos then
        match designatorFromChar (ch s dsgPos) with
        | none => none
        | some d => some { rNumber := rwyNum, rDesignator := d }
      else some { rNumber := rwyNum }

end Runway

/-! ### MetafTime -/

/-- `MetafTime`, metaf.hpp:129-167. -/
structure MetafTime where
  dayValue : Option Nat := none
  hourValue : Nat := 0
  minuteValue : Nat := 0
  deriving DecidableEq, Repr

/-- `MetafTime::Date`, metaf.hpp:131-137. -/
structure Date where
  year : Nat
  month : Nat
  day : Nat
  deriving DecidableEq, Repr

namespace MetafTime

/-- `MetafTime::is3hourlyReportTime`, metaf.hpp:2589-2594. -/
def is3hourlyReportTime (t : MetafTime) : Bool :=
  [2, 3, 8, 9, 14, 15, 20, 21].contains t.hourValue

/-- `MetafTime::is6hourlyReportTime`, metaf.hpp:2596-2601. -/
def is6hourlyReportTime (t : MetafTime) : Bool :=
  [0, 5, 6, 11, 12, 17, 18, 23].contains t.hourValue

/-- `MetafTime::dateBeforeRef`, metaf.hpp:2603-2618. `unsigned` decrements wrap. -/
def dateBeforeRef (t : MetafTime) (refDate : Date) : Date :=
  match t.dayValue with
  | none => refDate
  | some day =>
    if day > refDate.day then
      if refDate.month == 1 then
        { year := wrap (refDate.year + (uintRange - 1)), month := 12, day := day }
      else { year := refDate.year, month := wrap (refDate.month + (uintRange - 1)), day := day }
    else { year := refDate.year, month := refDate.month, day := day }

/-- `MetafTime::fromStringDDHHMM`, metaf.hpp:2620-2644. -/
def fromStringDDHHMM (s : Str) : Option MetafTime :=
  if s.length == 4 then
    match strToUint s 0 2, strToUint s 2 2 with
    | some hour, some minute => some { hourValue := hour, minuteValue := minute }
    | _, _ => none
  else if s.length == 6 then
    match strToUint s 0 2, strToUint s 2 2, strToUint s 4 2 with
    | some day, some hour, some minute =>
      some { dayValue := some day, hourValue := hour, minuteValue := minute }
    | _, _, _ => none
  else none

/-- `MetafTime::fromStringDDHH`, metaf.hpp:2646-2657. -/
def fromStringDDHH (s : Str) : Option MetafTime :=
  if s.length != 4 then none
  else
    match strToUint s 0 2, strToUint s 2 2 with
    | some day, some hour => some { dayValue := some day, hourValue := hour }
    | _, _ => none

/-- `MetafTime::isValid`, metaf.hpp:2659-2664. -/
def isValid (t : MetafTime) : Bool :=
  let d := t.dayValue.getD 31
  if d > 31 || d == 0 then false
  else if t.hourValue > 24 then false
  else if t.minuteValue > 59 then false
  else true

end MetafTime

/-! ### Speed -/

/-- `Speed::Unit`, metaf.hpp:210-215. -/
inductive SpeedUnit | KNOTS | METERS_PER_SECOND | KILOMETERS_PER_HOUR | MILES_PER_HOUR
  deriving DecidableEq, Repr

/-- `Speed`, metaf.hpp:208-233. -/
structure Speed where
  speedValue : Option Nat := none
  speedUnit : SpeedUnit := .KNOTS
  deriving DecidableEq, Repr

namespace Speed

/-- `Speed::isReported`, metaf.hpp:219. -/
def isReported (x : Speed) : Bool := x.speedValue.isSome

/-- `Speed::fromString`, metaf.hpp:2794-2806. -/
def fromString (s : Str) (unit : SpeedUnit) : Option Speed :=
  if s.isEmpty || s == c!"//" then some {}
  else if s.length != 2 && s.length != 3 then none
  else if s.length == 3 && ch s 0 == '0' then none
  else
    match strToUint s 0 s.length with
    | none => none
    | some spd => some { speedUnit := unit, speedValue := some spd }

/-- `Speed::unitFromString`, metaf.hpp:2819-2824. -/
def unitFromString (s : Str) : Option SpeedUnit :=
  if s = c!"KT" then some .KNOTS
  else if s = c!"MPS" then some .METERS_PER_SECOND
  else if s = c!"KMH" then some .KILOMETERS_PER_HOUR
  else none

/-- `float * double literal`, result stored in a `float`: the product is rounded to `double`, then
to `float`. Used in the conversions at metaf.hpp:2826-2864 and 3131-3153. -/
def mulLit (v : Rat) (k : Rat) : Rat := f32 (f64 (v * f64 k))

/-- `float / double literal`, result stored in a `float`. Used in the conversions at
metaf.hpp:2826-2864 and 3131-3153. -/
def divLit (v : Rat) (k : Rat) : Rat := f32 (f64 (v / f64 k))

/-- `Speed::knotsToUnit`, metaf.hpp:2826-2834. -/
def knotsToUnit (v : Rat) : SpeedUnit → Rat
  | .KNOTS => v
  | .METERS_PER_SECOND => mulLit v (514444 / 1000000)
  | .KILOMETERS_PER_HOUR => mulLit v (1852 / 1000)
  | .MILES_PER_HOUR => mulLit v (1150779 / 1000000)

/-- `Speed::mpsToUnit`, metaf.hpp:2836-2844. -/
def mpsToUnit (v : Rat) : SpeedUnit → Rat
  | .KNOTS => mulLit v (1943844 / 1000000)
  | .METERS_PER_SECOND => v
  | .KILOMETERS_PER_HOUR => mulLit v (36 / 10)
  | .MILES_PER_HOUR => mulLit v (2236936 / 1000000)

/-- `Speed::kmhToUnit`, metaf.hpp:2846-2854. -/
def kmhToUnit (v : Rat) : SpeedUnit → Rat
  | .KNOTS => divLit v (1852 / 1000)
  | .METERS_PER_SECOND => divLit v (36 / 10)
  | .KILOMETERS_PER_HOUR => v
  | .MILES_PER_HOUR => mulLit v (621371 / 1000000)

/-- `Speed::mphToUnit`, metaf.hpp:2856-2864. -/
def mphToUnit (v : Rat) : SpeedUnit → Rat
  | .KNOTS => mulLit v (868976 / 1000000)
  | .METERS_PER_SECOND => mulLit v (44704 / 100000)
  | .KILOMETERS_PER_HOUR => mulLit v (1609344 / 1000000)
  | .MILES_PER_HOUR => v

/-- `Speed::toUnit`, metaf.hpp:2808-2817. The `unsigned int` is converted to `float` first. -/
def toUnit (x : Speed) (unit : SpeedUnit) : Option Rat :=
  match x.speedValue with
  | none => none
  | some v =>
    match x.speedUnit with
    | .KNOTS => some (knotsToUnit (f32 v) unit)
    | .METERS_PER_SECOND => some (mpsToUnit (f32 v) unit)
    | .KILOMETERS_PER_HOUR => some (kmhToUnit (f32 v) unit)
    | .MILES_PER_HOUR => some (mphToUnit (f32 v) unit)

end Speed

/-! ### Temperature -/

/-- `Temperature::Unit`, metaf.hpp:171-174. -/
inductive TemperatureUnit | C | F
  deriving DecidableEq, Repr

/-- `Temperature`, metaf.hpp:169-206. -/
structure Temperature where
  tempValue : Option Int := none
  freezing : Bool := false
  precise : Bool := false
  deriving DecidableEq, Repr

namespace Temperature

/-- `Temperature::preciseValuePrecision`, metaf.hpp:205 (`float` constant 0.1). -/
def preciseValuePrecision : Rat := f32 (f64 (1 / 10))

/-- `Temperature::temperature`, metaf.hpp:175-179. -/
def temperature (t : Temperature) : Option Rat :=
  match t.tempValue with
  | none => none
  | some v => some (if t.precise then f32 (f32 v * preciseValuePrecision) else f32 v)

/-- `Temperature::isReported`, metaf.hpp:184. -/
def isReported (t : Temperature) : Bool := t.tempValue.isSome

/-- `Temperature(float)`, metaf.hpp:2668-2669. -/
def ofFloat (value : Rat) : Temperature :=
  { tempValue := some (roundHalfAway (f64 (value * 10))), freezing := value < 0, precise := true }

/-- `Temperature::fromString`, metaf.hpp:2747-2768. The value written has two digits, so the
negation of an `unsigned int` stored in an `int` gives the negative number. -/
def fromString (s : Str) : Option Temperature :=
  if s = c!"//" then some {}
  else if s.length == 3 then
    if ch s 0 != 'M' then none
    else
      match strToUint s 1 2 with
      | none => none
      | some t => some { tempValue := some (-(t : Int)), freezing := true }
  else if s.length == 2 then
    match strToUint s 0 2 with
    | none => none
    | some t => some { tempValue := some (t : Int) }
  else none

/-- `Temperature::fromRemarkString`, metaf.hpp:2770-2780. -/
def fromRemarkString (s : Str) : Option Temperature :=
  if s.length != 4 then none
  else if ch s 0 != '0' && ch s 0 != '1' then none
  else
    match strToUint s 1 3 with
    | none => none
    | some t =>
      let tValueSigned : Int := if ch s 0 == '1' then -(t : Int) else t
      some (ofFloat (f32 (f64 (tValueSigned / 10))))

/-- `Temperature::toUnit`, metaf.hpp:2782-2790. The stored unit is always C. -/
def toUnit (t : Temperature) (unit : TemperatureUnit) : Option Rat :=
  match t.temperature with
  | none => none
  | some v =>
    match unit with
    | .C => some v
    | .F => some (f32 (f64 (f64 (v * f64 (18 / 10)) + 32)))

/-- Vapour pressure formula of `relativeHumidity`, metaf.hpp:2682-2685. The quotient and products
are computed in `double`. -/
def vapourPressure (c : Rat) : Rat :=
  f64 (f64 (611 / 100) *
    FloatSem.pow 10 (f64 (f64 (f64 (75 / 10) * c) / f64 (f64 (2377 / 10) + c))))

/-- `Temperature::relativeHumidity`, metaf.hpp:2671-2686. -/
def relativeHumidity (airTemperature dewPoint : Temperature) : Option Rat :=
  match airTemperature.toUnit .C, dewPoint.toUnit .C with
  | some t, some dp =>
    if t < dp then some 100
    else some (f32 (f64 (f64 (100 * vapourPressure dp) / vapourPressure t)))
  | _, _ => none

/-- Product of two `double` values, as in metaf.hpp:2671-2745. -/
def mulD (a b : Rat) : Rat := f64 (a * b)

/-- Sum of two `double` values, as in metaf.hpp:2671-2745. -/
def addD (a b : Rat) : Rat := f64 (a + b)

/-- The polynomial of `heatIndex`, metaf.hpp:2700-2714, with every operation rounded to `double` in
the order of the source (no contraction to fused operations). -/
def heatIndexC (t r : Rat) : Rat :=
  let c1 := f64 (-878469475556 / 100000000000)
  let c2 := f64 (161139411 / 100000000)
  let c3 := f64 (233854883889 / 100000000000)
  let c4 := f64 (-14611605 / 100000000)
  let c5 := f64 (-12308094 / 1000000000)
  let c6 := f64 (-164248277778 / 10000000000000)
  let c7 := f64 (2211732 / 1000000000)
  let c8 := f64 (72546 / 100000000)
  let c9 := f64 (-3582 / 1000000000)
  addD (addD (addD (addD (addD (addD (addD (addD c1 (mulD c2 t)) (mulD c3 r))
    (mulD (mulD c4 t) r)) (mulD (mulD c5 t) t)) (mulD (mulD c6 r) r))
    (mulD (mulD (mulD c7 t) t) r)) (mulD (mulD (mulD c8 t) r) r))
    (mulD (mulD (mulD (mulD c9 t) t) r) r)

/-- `Temperature::heatIndex(temperature, humidity)`, metaf.hpp:2688-2717. -/
def heatIndexRh (airTemperature : Temperature) (relativeHumidity : Rat) : Temperature :=
  match airTemperature.toUnit .C with
  | none => {}
  | some t =>
    if t < 27 then {}
    else if relativeHumidity > 100 || relativeHumidity < 40 then {}
    else ofFloat (f32 (heatIndexC t relativeHumidity))

/-- `Temperature::heatIndex(temperature, dew point)`, metaf.hpp:2719-2726. -/
def heatIndex (airTemperature dewPoint : Temperature) : Temperature :=
  match relativeHumidity airTemperature dewPoint with
  | none => {}
  | some rh => heatIndexRh airTemperature rh

/-- `Temperature::windChill`, metaf.hpp:2728-2745, with every operation rounded to `double` in the
order of the source. -/
def windChill (airTemperature : Temperature) (windSpeed : Speed) : Temperature :=
  match airTemperature.toUnit .C with
  | none => {}
  | some t =>
    if t > 10 then {}
    else
      match windSpeed.toUnit .KILOMETERS_PER_HOUR with
      | none => {}
      | some v =>
        if v < f64 (48 / 10) then {}
        else
          let p := FloatSem.pow v (f64 (16 / 100))
          ofFloat (f32 (addD
            (f64 (addD (f64 (1312 / 100)) (mulD (f64 (6215 / 10000)) t) - mulD (f64 (1137 / 100)) p))
            (mulD (mulD (f64 (3965 / 10000)) t) p)))

end Temperature

end Metaf
