import Verif.Model.GroupsB

/-!
Model of the groups `TemperatureGroup`, `PressureGroup`, `RunwayStateGroup`, `SeaSurfaceGroup`,
`MinMaxTemperatureGroup`, `PrecipitationGroup`, `LayerForecastGroup`, `PressureTendencyGroup`,
`CloudTypesGroup`, `LowMidHighCloudGroup`. Source: `/repo/include/metaf.hpp`.
-/

namespace Metaf

variable [FloatSem]

/-! ### TemperatureGroup -/

/-- `TemperatureGroup::Type`, metaf.hpp:1434-1438. -/
inductive TemperatureGroupType | TEMPERATURE_AND_DEW_POINT | T_MISG | TD_MISG
  deriving DecidableEq, Repr

/-- `TemperatureGroup`, metaf.hpp:1432-1463. -/
structure TemperatureGroup where
  tp : TemperatureGroupType := .TEMPERATURE_AND_DEW_POINT
  t : Temperature := {}
  dp : Temperature := {}
  isIncomplete : Bool := false
  deriving DecidableEq, Repr

namespace TemperatureGroup

/-- `TemperatureGroup::relativeHumidity`, metaf.hpp:1442-1444. -/
def relativeHumidity (g : TemperatureGroup) : Option Rat := Temperature.relativeHumidity g.t g.dp

/-- `TemperatureGroup::isValid`, metaf.hpp:5450-5462. -/
def isValid (g : TemperatureGroup) : Bool :=
  if g.isIncomplete then false
  else
    match g.t.temperature, g.dp.temperature with
    | some t, some dp =>
      if t = 0 ∧ dp = 0 ∧ g.t.freezing ∧ !g.dp.freezing then false
      else decide (t ≥ dp)
    | _, _ => true

/-- `M?\d\d|//`, a part of the expression at metaf.hpp:5470. -/
def valueRx : Rx := (.opt (.chr 'M') ⬝ .d ⬝ .d) ∥ .lit c!"//"

/-- Regular expression `rgx` of `parse`, metaf.hpp:5470. -/
def rgx : Rx := .cap 1 valueRx ⬝ .chr '/' ⬝ .opt (.cap 2 valueRx)

/-- `[01]\d\d\d`, a part of the expression at metaf.hpp:5472. -/
def rmkValueRx : Rx := .oneOf c!"01" ⬝ .d ⬝ .d ⬝ .d

/-- Regular expression `rmkRgx` of `parse`, metaf.hpp:5472. -/
def rmkRgx : Rx := .chr 'T' ⬝ .cap 1 rmkValueRx ⬝ .opt (.cap 2 rmkValueRx)

/-- The body of `parse` shared by both formats, metaf.hpp:5477-5486 and 5493-5501. -/
def fromMatch (m : Caps) (value : Str → Option Temperature) : Option TemperatureGroup :=
  match value (m.str 1) with
  | none => none
  | some t =>
    if (m.str 2).isEmpty then some { t := t }
    else
      match value (m.str 2) with
      | none => none
      | some dp => some { t := t, dp := dp }

/-- `TemperatureGroup::parse`, metaf.hpp:5464-5506. -/
def parse (group : Str) (reportPart : ReportPart) : Option TemperatureGroup :=
  match reportPart with
  | .METAR =>
    match regexMatch rgx group with
    | none => none
    | some m => fromMatch m Temperature.fromString
  | .RMK =>
    if group = c!"T" then some { tp := .T_MISG, isIncomplete := true }
    else if group = c!"TD" then some { tp := .TD_MISG, isIncomplete := true }
    else
      match regexMatch rmkRgx group with
      | none => none
      | some m => fromMatch m Temperature.fromRemarkString
  | _ => none

/-- `TemperatureGroup::append`, metaf.hpp:5508-5519. -/
def append (g : TemperatureGroup) (group : Str) : TemperatureGroup × AppendResult :=
  if g.isIncomplete && (g.tp == .T_MISG || g.tp == .TD_MISG) then
    if group ≠ c!"MISG" then (g, .GROUP_INVALIDATED)
    else ({ g with isIncomplete := false }, .APPENDED)
  else (g, .NOT_APPENDED)

end TemperatureGroup

/-! ### PressureGroup -/

/-- `PressureGroup::Type`, metaf.hpp:1467-1474. -/
inductive PressureGroupType
  | OBSERVED_QNH | FORECAST_LOWEST_QNH | OBSERVED_QFE | OBSERVED_SLP | SLPNO | PRES_MISG
  deriving DecidableEq, Repr

/-- `PressureGroup`, metaf.hpp:1465-1494. -/
structure PressureGroup where
  t : PressureGroupType := .OBSERVED_QNH
  p : Pressure := {}
  isIncomplete : Bool := false
  deriving DecidableEq, Repr

namespace PressureGroup

/-- `PressureGroup::isValid`, metaf.hpp:1477. -/
def isValid (g : PressureGroup) : Bool := !g.isIncomplete

/-- `PressureGroup::parse`, metaf.hpp:5523-5565. -/
def parse (group : Str) (reportPart : ReportPart) : Option PressureGroup :=
  match reportPart with
  | .METAR =>
    match Pressure.fromString group with
    | some p => some { p := p, t := .OBSERVED_QNH }
    | none => none
  | .TAF =>
    match Pressure.fromForecastString group with
    | some p => some { p := p, t := .FORECAST_LOWEST_QNH }
    | none => none
  | .RMK =>
    match Pressure.fromString group with
    | some p => some { p := p, t := .OBSERVED_QNH }
    | none =>
      if group = c!"SLPNO" then some { t := .SLPNO }
      else if group = c!"PRES" then some { t := .PRES_MISG, isIncomplete := true }
      else
        match Pressure.fromSlpString group with
        | some p => some { p := p, t := .OBSERVED_SLP }
        | none =>
          match Pressure.fromQfeString group with
          | some p => some { p := p, t := .OBSERVED_QFE }
          | none => none
  | _ => none

/-- `PressureGroup::append`, metaf.hpp:5567-5578. -/
def append (g : PressureGroup) (group : Str) : PressureGroup × AppendResult :=
  if g.isIncomplete && g.t == .PRES_MISG then
    if group ≠ c!"MISG" then (g, .GROUP_INVALIDATED)
    else ({ g with isIncomplete := false }, .APPENDED)
  else (g, .NOT_APPENDED)

end PressureGroup

/-! ### RunwayStateGroup -/

/-- `RunwayStateGroup::Type`, metaf.hpp:1498-1504. -/
inductive RunwayStateType
  | RUNWAY_STATE | RUNWAY_CLRD | RUNWAY_SNOCLO | RUNWAY_NOT_OPERATIONAL | AERODROME_SNOCLO
  deriving DecidableEq, Repr

/-- `RunwayStateGroup::Deposits`, metaf.hpp:1505-1517. -/
inductive Deposits
  | CLEAR_AND_DRY | DAMP | WET_AND_WATER_PATCHES | RIME_AND_FROST_COVERED | DRY_SNOW | WET_SNOW
  | SLUSH | ICE | COMPACTED_OR_ROLLED_SNOW | FROZEN_RUTS_OR_RIDGES | NOT_REPORTED
  deriving DecidableEq, Repr

/-- `RunwayStateGroup::Extent`, metaf.hpp:1519-1531. -/
inductive Extent
  | NONE | LESS_THAN_10_PERCENT | FROM_11_TO_25_PERCENT | RESERVED_3 | RESERVED_4
  | FROM_26_TO_50_PERCENT | RESERVED_6 | RESERVED_7 | RESERVED_8 | MORE_THAN_51_PERCENT
  | NOT_REPORTED
  deriving DecidableEq, Repr

/-- `RunwayStateGroup`, metaf.hpp:1496-1569. -/
structure RunwayStateGroup where
  rw : Runway := {}
  tp : RunwayStateType := .RUNWAY_STATE
  dp : Deposits := .NOT_REPORTED
  ext : Extent := .NOT_REPORTED
  dDepth : Precipitation := {}
  sf : SurfaceFriction := {}
  deriving DecidableEq, Repr

namespace RunwayStateGroup

/-- `RunwayStateGroup::isValid`, metaf.hpp:1538-1545. -/
def isValid (g : RunwayStateGroup) : Bool :=
  g.rw.isValid && g.ext != .RESERVED_3 && g.ext != .RESERVED_4 && g.ext != .RESERVED_6 &&
  g.ext != .RESERVED_7 && g.ext != .RESERVED_8

/-- `RunwayStateGroup::depositsFromString`, metaf.hpp:5646-5665. -/
def depositsFromString (s : Str) : Option Deposits :=
  if s.length != 1 then none
  else
    let c := ch s 0
    if c = '0' then some .CLEAR_AND_DRY
    else if c = '1' then some .DAMP
    else if c = '2' then some .WET_AND_WATER_PATCHES
    else if c = '3' then some .RIME_AND_FROST_COVERED
    else if c = '4' then some .DRY_SNOW
    else if c = '5' then some .WET_SNOW
    else if c = '6' then some .SLUSH
    else if c = '7' then some .ICE
    else if c = '8' then some .COMPACTED_OR_ROLLED_SNOW
    else if c = '9' then some .FROZEN_RUTS_OR_RIDGES
    else if c = '/' then some .NOT_REPORTED
    else none

/-- `RunwayStateGroup::extentFromString`, metaf.hpp:5667-5686. -/
def extentFromString (s : Str) : Option Extent :=
  if s.length != 1 then none
  else
    let c := ch s 0
    if c = '0' then some .NONE
    else if c = '1' then some .LESS_THAN_10_PERCENT
    else if c = '2' then some .FROM_11_TO_25_PERCENT
    else if c = '3' then some .RESERVED_3
    else if c = '4' then some .RESERVED_4
    else if c = '5' then some .FROM_26_TO_50_PERCENT
    else if c = '6' then some .RESERVED_6
    else if c = '7' then some .RESERVED_7
    else if c = '8' then some .RESERVED_8
    else if c = '9' then some .MORE_THAN_51_PERCENT
    else if c = '/' then some .NOT_REPORTED
    else none

/-- `\d\d|//`, a part of the expression at metaf.hpp:5592-5595. -/
def twoRx : Rx := (.d ⬝ .d) ∥ .lit c!"//"

/-- `[0-9/]`, a part of the expression at metaf.hpp:5592-5595. -/
def digitOrSlash : Rx := .set [('0', '9'), ('/', '/')]

/-- Regular expression of `parse`, metaf.hpp:5592-5595, with its empty last alternative. -/
def rgx : Rx :=
  (.cap 1 (.chr 'R' ⬝ .d ⬝ .d ⬝ .opt (.oneOf c!"RCL")) ⬝ .chr '/' ⬝
    (.cap 2 (.lit c!"SNOCLO") ∥
     .cap 3 (.opt (.cap 4 (.d ⬝ .d)) ⬝ .chr 'D') ∥
     (((.cap 5 digitOrSlash ⬝ .cap 6 digitOrSlash ⬝ .cap 7 twoRx) ∥ .cap 8 (.lit c!"CLRD")) ⬝
       .cap 9 twoRx))) ∥ .eps

/-- `RunwayStateGroup::parse`, metaf.hpp:5582-5636. -/
def parse (group : Str) (reportPart : ReportPart) : Option RunwayStateGroup :=
  if reportPart ≠ .METAR then none
  else if group = c!"SNOCLO" ∨ group = c!"R/SNOCLO" then
    some { tp := .AERODROME_SNOCLO, rw := Runway.makeAllRunways }
  else
    match regexMatch rgx group with
    | none => none
    | some m =>
      match Runway.fromString (m.str 1) with
      | none => none
      | some runway =>
        if !(m.str 2).isEmpty then some { tp := .RUNWAY_SNOCLO, rw := runway }
        else if !(m.str 3).isEmpty then
          if (m.str 4).isEmpty then some { tp := .RUNWAY_CLRD, rw := runway }
          else
            match SurfaceFriction.fromString (m.str 4) with
            | none => none
            | some f => some { tp := .RUNWAY_CLRD, rw := runway, sf := f }
        else
          match SurfaceFriction.fromString (m.str 9) with
          | none => none
          | some friction =>
            if !(m.str 8).isEmpty then some { tp := .RUNWAY_CLRD, rw := runway, sf := friction }
            else
              match depositsFromString (m.str 5) with
              | none => none
              | some deposits =>
                match extentFromString (m.str 6) with
                | none => none
                | some extent =>
                  match Precipitation.fromRunwayDeposits (m.str 7) with
                  | none => none
                  | some depth =>
                    some { tp := if m.str 7 = c!"99" then .RUNWAY_NOT_OPERATIONAL
                             else .RUNWAY_STATE,
                           rw := runway, dp := deposits, ext := extent, dDepth := depth,
                           sf := friction }

/-- `RunwayStateGroup::append`, metaf.hpp:5638-5644. -/
def append (g : RunwayStateGroup) (_ : Str) : RunwayStateGroup × AppendResult := (g, .NOT_APPENDED)

end RunwayStateGroup

/-! ### SeaSurfaceGroup -/

/-- `SeaSurfaceGroup`, metaf.hpp:1571-1589. -/
structure SeaSurfaceGroup where
  t : Temperature := {}
  wh : WaveHeight := {}
  deriving DecidableEq, Repr

namespace SeaSurfaceGroup

/-- `SeaSurfaceGroup::isValid`, metaf.hpp:1575. -/
def isValid (_ : SeaSurfaceGroup) : Bool := true

/-- Regular expression of `parse`, metaf.hpp:5697. -/
def rgx : Rx :=
  .chr 'W' ⬝ .cap 1 ((.d ⬝ .d) ∥ .lit c!"//") ⬝ .chr '/' ⬝
  .cap 2 (.oneOf c!"HS" ⬝ ((.d ⬝ .opt .d ⬝ .opt .d) ∥ .lit c!"///" ∥ .chr '/'))

/-- `SeaSurfaceGroup::parse`, metaf.hpp:5690-5709. -/
def parse (group : Str) (reportPart : ReportPart) : Option SeaSurfaceGroup :=
  if reportPart ≠ .METAR then none
  else
    match regexMatch rgx group with
    | none => none
    | some m =>
      match Temperature.fromString (m.str 1) with
      | none => none
      | some temp =>
        match WaveHeight.fromString (m.str 2) with
        | none => none
        | some waveHeight => some { t := temp, wh := waveHeight }

/-- `SeaSurfaceGroup::append`, metaf.hpp:5711-5717. -/
def append (g : SeaSurfaceGroup) (_ : Str) : SeaSurfaceGroup × AppendResult := (g, .NOT_APPENDED)

end SeaSurfaceGroup

/-! ### MinMaxTemperatureGroup -/

/-- `MinMaxTemperatureGroup::Type`, metaf.hpp:1593-1597. -/
inductive MinMaxType | OBSERVED_6_HOURLY | OBSERVED_24_HOURLY | FORECAST
  deriving DecidableEq, Repr

/-- `MinMaxTemperatureGroup`, metaf.hpp:1591-1630. -/
structure MinMaxTemperatureGroup where
  t : MinMaxType := .FORECAST
  minTemp : Temperature := {}
  maxTemp : Temperature := {}
  minTime : Option MetafTime := none
  maxTime : Option MetafTime := none
  isIncomplete : Bool := false
  deriving DecidableEq, Repr

namespace MinMaxTemperatureGroup

/-- `MinMaxTemperatureGroup::isValid`, metaf.hpp:5864-5873. A time which is not reported is replaced by
a default constructed one, which is valid. -/
def isValid (g : MinMaxTemperatureGroup) : Bool :=
  if g.isIncomplete then false
  else if g.minTemp.isReported && g.maxTemp.isReported && !g.minTemp.freezing
      && g.maxTemp.freezing then false
  else if !(g.minTime.getD {}).isValid then false
  else if !(g.maxTime.getD {}).isValid then false
  else decide (g.minTemp.temperature.getD (-100) < g.maxTemp.temperature.getD 100)

/-- Regular expression of `from6hourly`, metaf.hpp:5751. -/
def sixHourlyRgx : Rx :=
  .cap 1 (.oneOf c!"12") ⬝ .cap 2 ((.oneOf c!"01" ⬝ .d ⬝ .d ⬝ .d) ∥ .lit c!"////")

/-- `MinMaxTemperatureGroup::from6hourly`, metaf.hpp:5747-5764. -/
def from6hourly (group : Str) : Option MinMaxTemperatureGroup :=
  match regexMatch sixHourlyRgx group with
  | none => none
  | some m =>
    if m.str 2 = c!"////" then some { t := .OBSERVED_6_HOURLY }
    else
      match Temperature.fromRemarkString (m.str 2) with
      | none => none
      | some temp =>
        some { t := .OBSERVED_6_HOURLY,
               maxTemp := if m.str 1 = c!"1" then temp else {},
               minTemp := if m.str 1 = c!"2" then temp else {} }

/-- Regular expression of `from24hourly`, metaf.hpp:5770. -/
def daily24Rgx : Rx :=
  .chr '4' ⬝ .cap 1 (.oneOf c!"01" ⬝ .d ⬝ .d ⬝ .d) ⬝ .cap 2 (.oneOf c!"01" ⬝ .d ⬝ .d ⬝ .d)

/-- `MinMaxTemperatureGroup::from24hourly`, metaf.hpp:5766-5783. -/
def from24hourly (group : Str) : Option MinMaxTemperatureGroup :=
  match regexMatch daily24Rgx group with
  | none => none
  | some m =>
    match Temperature.fromRemarkString (m.str 1) with
    | none => none
    | some max =>
      match Temperature.fromRemarkString (m.str 2) with
      | none => none
      | some min => some { t := .OBSERVED_24_HOURLY, minTemp := min, maxTemp := max }

/-- Regular expression of `fromForecast`, metaf.hpp:5789. -/
def forecastRgx : Rx :=
  .chr 'T' ⬝ .opt (.cap 1 (.oneOf c!"XN")) ⬝ .cap 2 (.opt (.chr 'M') ⬝ .d ⬝ .d) ⬝ .chr '/' ⬝
  .cap 3 (.d ⬝ .d ⬝ .d ⬝ .d) ⬝ .chr 'Z'

/-- `MinMaxTemperatureGroup::fromForecast`, metaf.hpp:5785-5815. -/
def fromForecast (group : Str) : Option MinMaxTemperatureGroup :=
  match regexMatch forecastRgx group with
  | none => none
  | some m =>
    match Temperature.fromString (m.str 2) with
    | none => none
    | some temp =>
      match MetafTime.fromStringDDHH (m.str 3) with
      | none => none
      | some time =>
        if m.str 1 = c!"N" then some { t := .FORECAST, minTemp := temp, minTime := some time }
        else if m.str 1 = c!"X" then some { t := .FORECAST, maxTemp := temp, maxTime := some time }
        else if (m.str 1).isEmpty then
          some { t := .FORECAST, minTemp := temp, minTime := some time, maxTemp := temp,
                 maxTime := some time, isIncomplete := true }
        else some { t := .FORECAST }

/-- `MinMaxTemperatureGroup::parse`, metaf.hpp:5721-5733. -/
def parse (group : Str) (reportPart : ReportPart) : Option MinMaxTemperatureGroup :=
  match reportPart with
  | .TAF => fromForecast group
  | .RMK =>
    match from6hourly group with
    | some h6 => some h6
    | none => from24hourly group
  | _ => none

/-- `MinMaxTemperatureGroup::append6hourly`, metaf.hpp:5817-5827. -/
def append6hourly (g : MinMaxTemperatureGroup) (group : Str) :
    MinMaxTemperatureGroup × AppendResult :=
  if g.minTemp.isReported && g.maxTemp.isReported then (g, .NOT_APPENDED)
  else
    match from6hourly group with
    | none => (g, .NOT_APPENDED)
    | some n =>
      if g.minTemp.isReported && n.minTemp.isReported then (g, .NOT_APPENDED)
      else if g.maxTemp.isReported && n.maxTemp.isReported then (g, .NOT_APPENDED)
      else
        ({ g with minTemp := if !g.minTemp.isReported && n.minTemp.isReported then n.minTemp
                    else g.minTemp,
                  maxTemp := if !g.maxTemp.isReported && n.maxTemp.isReported then n.maxTemp
                    else g.maxTemp }, .APPENDED)

/-- `MinMaxTemperatureGroup::appendForecast`, metaf.hpp:5829-5862. Dereferencing a temperature that
is not reported is undefined behaviour. -/
def appendForecast (g : MinMaxTemperatureGroup) (group : Str) :
    Res (MinMaxTemperatureGroup × AppendResult) :=
  if g.minTemp.isReported && g.maxTemp.isReported && !g.isIncomplete then .ok (g, .NOT_APPENDED)
  else
    match fromForecast group with
    | none => .ok (g, .NOT_APPENDED)
    | some n =>
      if g.isIncomplete ≠ n.isIncomplete then .ok (g, .NOT_APPENDED)
      else if !g.isIncomplete then
        if g.minTemp.isReported && n.minTemp.isReported then .ok (g, .NOT_APPENDED)
        else if g.maxTemp.isReported && n.maxTemp.isReported then .ok (g, .NOT_APPENDED)
        else
          let g := if !g.minTemp.isReported && n.minTemp.isReported then
              { g with minTemp := n.minTemp, minTime := n.minTime } else g
          let g := if !g.maxTemp.isReported && n.maxTemp.isReported then
              { g with maxTemp := n.maxTemp, maxTime := n.maxTime } else g
          if !g.minTemp.isReported || !g.maxTemp.isReported then .ok (g, .NOT_APPENDED)
          else .ok (g, .APPENDED)
      else
        let g := { g with maxTemp := n.maxTemp, maxTime := n.maxTime }
        let swapped := { g with minTemp := g.maxTemp, maxTemp := g.minTemp,
                                minTime := g.maxTime, maxTime := g.minTime, isIncomplete := false }
        if !g.minTemp.freezing && g.maxTemp.freezing then .ok (swapped, .APPENDED)
        else
          match g.minTemp.temperature, g.maxTemp.temperature with
          | some a, some b =>
            if a > b then .ok (swapped, .APPENDED)
            else .ok ({ g with isIncomplete := false }, .APPENDED)
          | _, _ => .error .emptyOptional

/-- `MinMaxTemperatureGroup::append`, metaf.hpp:5735-5745. -/
def append (g : MinMaxTemperatureGroup) (group : Str) :
    Res (MinMaxTemperatureGroup × AppendResult) :=
  match g.t with
  | .OBSERVED_6_HOURLY => .ok (g.append6hourly group)
  | .OBSERVED_24_HOURLY => .ok (g, .NOT_APPENDED)
  | .FORECAST => g.appendForecast group

end MinMaxTemperatureGroup

/-! ### PrecipitationGroup -/

/-- `PrecipitationGroup::Type`, metaf.hpp:1634-1653. -/
inductive PrecipitationType
  | TOTAL_PRECIPITATION_HOURLY | SNOW_DEPTH_ON_GROUND | FROZEN_PRECIP_3_OR_6_HOURLY
  | FROZEN_PRECIP_3_HOURLY | FROZEN_PRECIP_6_HOURLY | FROZEN_PRECIP_24_HOURLY | SNOW_6_HOURLY
  | WATER_EQUIV_OF_SNOW_ON_GROUND | ICE_ACCRETION_FOR_LAST_HOUR | ICE_ACCRETION_FOR_LAST_3_HOURS
  | ICE_ACCRETION_FOR_LAST_6_HOURS | SNOW_INCREASING_RAPIDLY
  | PRECIPITATION_ACCUMULATION_SINCE_LAST_REPORT | RAINFALL_9AM_10MIN | PNO | FZRANO | ICG_MISG
  | PCPN_MISG
  deriving DecidableEq, Repr

/-- `PrecipitationGroup`, metaf.hpp:1632-1675. -/
structure PrecipitationGroup where
  precType : PrecipitationType := .TOTAL_PRECIPITATION_HOURLY
  precAmount : Precipitation := {}
  precChange : Precipitation := {}
  isIncomplete : Bool := false
  deriving DecidableEq, Repr

namespace PrecipitationGroup

/-- `PrecipitationGroup::isValid`, metaf.hpp:1657. -/
def isValid (g : PrecipitationGroup) : Bool := !g.isIncomplete

/-- `PrecipitationGroup::unitFromType`, metaf.hpp:5977-5985. -/
def unitFromType : PrecipitationType → PrecipitationUnit
  | .PRECIPITATION_ACCUMULATION_SINCE_LAST_REPORT => .MM
  | _ => .INCHES

/-- `PrecipitationGroup::factorFromType`, metaf.hpp:5987-6007. -/
def factorFromType : PrecipitationType → Rat
  | .WATER_EQUIV_OF_SNOW_ON_GROUND | .SNOW_6_HOURLY
  | .PRECIPITATION_ACCUMULATION_SINCE_LAST_REPORT => f32 (f64 (1 / 10))
  | .TOTAL_PRECIPITATION_HOURLY | .FROZEN_PRECIP_3_OR_6_HOURLY | .FROZEN_PRECIP_3_HOURLY
  | .FROZEN_PRECIP_6_HOURLY | .FROZEN_PRECIP_24_HOURLY | .ICE_ACCRETION_FOR_LAST_HOUR
  | .ICE_ACCRETION_FOR_LAST_3_HOURS | .ICE_ACCRETION_FOR_LAST_6_HOURS => f32 (f64 (1 / 100))
  | _ => 1

/-- Regular expression `rgx` of `parse`, metaf.hpp:5882-5883. -/
def rgx : Rx :=
  (.cap 1 (.oneOf c!"P67") ⬝ .cap 2 ((.d ⬝ .d ⬝ .d ⬝ .d) ∥ .lit c!"////")) ∥
  (.cap 3 (.lit c!"4/" ∥ (.chr '9' ⬝ .chr '3' ⬝ .oneOf c!"13") ∥ (.chr 'I' ⬝ .oneOf c!"136") ∥
      .lit c!"PP") ⬝
    .cap 4 ((.d ⬝ .d ⬝ .d) ∥ .lit c!"///"))

/-- Regular expression `rfRgx` of `parse`, metaf.hpp:5887-5888. -/
def rfRgx : Rx :=
  .lit c!"RF" ⬝ .cap 1 ((.d ⬝ .d ⬝ .chr '.' ⬝ .d) ∥ .lit c!"//./") ⬝ .chr '/' ⬝
  .cap 2 ((.d ⬝ .d ⬝ .d ⬝ .chr '.' ⬝ .d) ∥ .lit c!"///./")

/-- The type named by the leading characters of a remark, metaf.hpp:5934-5948. -/
def typeFromString (typeStr : Str) (reportTime : Option MetafTime) : PrecipitationType :=
  if typeStr = c!"P" then .TOTAL_PRECIPITATION_HOURLY
  else if typeStr = c!"4/" then .SNOW_DEPTH_ON_GROUND
  else if typeStr = c!"6" then
    if reportTime.any MetafTime.is6hourlyReportTime then .FROZEN_PRECIP_6_HOURLY
    else if reportTime.any MetafTime.is3hourlyReportTime then .FROZEN_PRECIP_3_HOURLY
    else .FROZEN_PRECIP_3_OR_6_HOURLY
  else if typeStr = c!"7" then .FROZEN_PRECIP_24_HOURLY
  else if typeStr = c!"931" then .SNOW_6_HOURLY
  else if typeStr = c!"933" then .WATER_EQUIV_OF_SNOW_ON_GROUND
  else if typeStr = c!"I1" then .ICE_ACCRETION_FOR_LAST_HOUR
  else if typeStr = c!"I3" then .ICE_ACCRETION_FOR_LAST_3_HOURS
  else if typeStr = c!"I6" then .ICE_ACCRETION_FOR_LAST_6_HOURS
  else if typeStr = c!"PP" then .PRECIPITATION_ACCUMULATION_SINCE_LAST_REPORT
  else .TOTAL_PRECIPITATION_HOURLY

/-- `PrecipitationGroup::parse`, metaf.hpp:5877-5954. -/
def parse (group : Str) (reportPart : ReportPart) (md : ReportMetadata) :
    Option PrecipitationGroup :=
  match reportPart with
  | .METAR =>
    match regexMatch rfRgx group with
    | none => none
    | some m =>
      match Precipitation.fromRainfallString (m.str 1) with
      | none => none
      | some last10min =>
        match Precipitation.fromRainfallString (m.str 2) with
        | none => none
        | some since9AM =>
          some { precType := .RAINFALL_9AM_10MIN, precAmount := since9AM, precChange := last10min }
  | .RMK =>
    if group = c!"PNO" then some { precType := .PNO }
    else if group = c!"FZRANO" then some { precType := .FZRANO }
    else if group = c!"ICG" then some { precType := .ICG_MISG, isIncomplete := true }
    else if group = c!"PCPN" then some { precType := .PCPN_MISG, isIncomplete := true }
    else if group = c!"SNINCR" then some { precType := .SNOW_INCREASING_RAPIDLY }
    else
      match regexMatch rgx group with
      | none => none
      | some m =>
        let precType := typeFromString (m.str 1 ++ m.str 3) md.reportTime
        match Precipitation.fromRemarkString (m.str 2 ++ m.str 4) (factorFromType precType)
            (unitFromType precType) true with
        | none => none
        | some amount => some { precType := precType, precAmount := amount }
  | _ => none

/-- `PrecipitationGroup::append`, metaf.hpp:5956-5975. -/
def append (g : PrecipitationGroup) (group : Str) : PrecipitationGroup × AppendResult :=
  if g.precType = .PCPN_MISG ∨ g.precType = .ICG_MISG then
    if !g.isIncomplete then (g, .NOT_APPENDED)
    else if group ≠ c!"MISG" then (g, .GROUP_INVALIDATED)
    else ({ g with isIncomplete := false }, .APPENDED)
  else if g.precType ≠ .SNOW_INCREASING_RAPIDLY then (g, .NOT_APPENDED)
  else if g.precAmount.isReported || g.precChange.isReported then (g, .NOT_APPENDED)
  else
    match Precipitation.fromSnincrString group with
    | none => (g, .NOT_APPENDED)
    | some (change, total) => ({ g with precChange := change, precAmount := total }, .APPENDED)

end PrecipitationGroup

/-! ### LayerForecastGroup -/

/-- `LayerForecastGroup::Type`, metaf.hpp:1679-1701. -/
inductive LayerForecastType
  | ICING_TRACE_OR_NONE | ICING_LIGHT_MIXED | ICING_LIGHT_RIME_IN_CLOUD
  | ICING_LIGHT_CLEAR_IN_PRECIPITATION | ICING_MODERATE_MIXED | ICING_MODERATE_RIME_IN_CLOUD
  | ICING_MODERATE_CLEAR_IN_PRECIPITATION | ICING_SEVERE_MIXED | ICING_SEVERE_RIME_IN_CLOUD
  | ICING_SEVERE_CLEAR_IN_PRECIPITATION | TURBULENCE_NONE | TURBULENCE_LIGHT
  | TURBULENCE_MODERATE_IN_CLEAR_AIR_OCCASIONAL | TURBULENCE_MODERATE_IN_CLEAR_AIR_FREQUENT
  | TURBULENCE_MODERATE_IN_CLOUD_OCCASIONAL | TURBULENCE_MODERATE_IN_CLOUD_FREQUENT
  | TURBULENCE_SEVERE_IN_CLEAR_AIR_OCCASIONAL | TURBULENCE_SEVERE_IN_CLEAR_AIR_FREQUENT
  | TURBULENCE_SEVERE_IN_CLOUD_OCCASIONAL | TURBULENCE_SEVERE_IN_CLOUD_FREQUENT
  | TURBULENCE_EXTREME
  deriving DecidableEq, Repr

/-- `LayerForecastGroup`, metaf.hpp:1677-1721. The member `layerType` has no default value in the
source and is set by `parse`. -/
structure LayerForecastGroup where
  layerType : LayerForecastType
  layerBaseHeight : Distance := {}
  layerTopHeight : Distance := {}
  deriving DecidableEq, Repr

namespace LayerForecastGroup

/-- `LayerForecastGroup::isValid`, metaf.hpp:1705. -/
def isValid (_ : LayerForecastGroup) : Bool := true

/-- `LayerForecastGroup::typeFromStr`, metaf.hpp:6011-6036. -/
def typeFromStr (s : Str) : Option LayerForecastType :=
  if s = c!"60" then some .ICING_TRACE_OR_NONE
  else if s = c!"61" then some .ICING_LIGHT_MIXED
  else if s = c!"62" then some .ICING_LIGHT_RIME_IN_CLOUD
  else if s = c!"63" then some .ICING_LIGHT_CLEAR_IN_PRECIPITATION
  else if s = c!"64" then some .ICING_MODERATE_MIXED
  else if s = c!"65" then some .ICING_MODERATE_RIME_IN_CLOUD
  else if s = c!"66" then some .ICING_MODERATE_CLEAR_IN_PRECIPITATION
  else if s = c!"67" then some .ICING_SEVERE_MIXED
  else if s = c!"68" then some .ICING_SEVERE_RIME_IN_CLOUD
  else if s = c!"69" then some .ICING_SEVERE_CLEAR_IN_PRECIPITATION
  else if s = c!"50" then some .TURBULENCE_NONE
  else if s = c!"51" then some .TURBULENCE_LIGHT
  else if s = c!"52" then some .TURBULENCE_MODERATE_IN_CLEAR_AIR_OCCASIONAL
  else if s = c!"53" then some .TURBULENCE_MODERATE_IN_CLEAR_AIR_FREQUENT
  else if s = c!"54" then some .TURBULENCE_MODERATE_IN_CLOUD_OCCASIONAL
  else if s = c!"55" then some .TURBULENCE_MODERATE_IN_CLOUD_FREQUENT
  else if s = c!"56" then some .TURBULENCE_SEVERE_IN_CLEAR_AIR_OCCASIONAL
  else if s = c!"57" then some .TURBULENCE_SEVERE_IN_CLEAR_AIR_FREQUENT
  else if s = c!"58" then some .TURBULENCE_SEVERE_IN_CLOUD_OCCASIONAL
  else if s = c!"59" then some .TURBULENCE_SEVERE_IN_CLOUD_FREQUENT
  else if s = c!"5X" then some .TURBULENCE_EXTREME
  else none

/-- Regular expression of `parse`, metaf.hpp:6045. -/
def rgx : Rx :=
  .cap 1 (.oneOf c!"65" ⬝ .set [('0', '9'), ('X', 'X')]) ⬝
  .cap 2 ((.d ⬝ .d ⬝ .d ⬝ .d) ∥ .lit c!"////")

/-- `LayerForecastGroup::parse`, metaf.hpp:6038-6062. The code calls `fromLayerString` first and ignores
its result for the text `////`; the order of the two tests is changed here. -/
def parse (group : Str) (reportPart : ReportPart) : Option LayerForecastGroup :=
  if reportPart ≠ .TAF then none
  else
    match regexMatch rgx group with
    | none => none
    | some m =>
      match typeFromStr (m.str 1) with
      | none => none
      | some t =>
        if m.str 2 = c!"////" then some { layerType := t }
        else
          match Distance.fromLayerString (m.str 2) with
          | none => none
          | some (base, top) =>
            some { layerType := t, layerBaseHeight := base, layerTopHeight := top }

/-- `LayerForecastGroup::append`, metaf.hpp:6064-6070. -/
def append (g : LayerForecastGroup) (_ : Str) : LayerForecastGroup × AppendResult :=
  (g, .NOT_APPENDED)

end LayerForecastGroup

/-! ### PressureTendencyGroup -/

/-- `PressureTendencyGroup::Type`, metaf.hpp:1725-1738. -/
inductive PressureTendencyType
  | NOT_REPORTED | INCREASING_THEN_DECREASING | INCREASING_MORE_SLOWLY | INCREASING
  | INCREASING_MORE_RAPIDLY | STEADY | DECREASING_THEN_INCREASING | DECREASING_MORE_SLOWLY
  | DECREASING | DECREASING_MORE_RAPIDLY | RISING_RAPIDLY | FALLING_RAPIDLY
  deriving DecidableEq, Repr

/-- `PressureTendencyGroup::Trend`, metaf.hpp:1739-1746. -/
inductive TendencyTrend | NOT_REPORTED | HIGHER | HIGHER_OR_SAME | SAME | LOWER_OR_SAME | LOWER
  deriving DecidableEq, Repr

/-- `PressureTendencyGroup`, metaf.hpp:1723-1766. The member `tendencyType` has no default value in
the source and is set by `parse`. -/
structure PressureTendencyGroup where
  tendencyType : PressureTendencyType
  pressureDifference : Pressure := {}
  deriving DecidableEq, Repr

namespace PressureTendencyGroup

/-- `PressureTendencyGroup::isValid`, metaf.hpp:1750. -/
def isValid (_ : PressureTendencyGroup) : Bool := true

/-- `PressureTendencyGroup::trend`, metaf.hpp:6074-6100. -/
def trend : PressureTendencyType → TendencyTrend
  | .INCREASING_MORE_SLOWLY | .INCREASING | .INCREASING_MORE_RAPIDLY => .HIGHER
  | .INCREASING_THEN_DECREASING => .HIGHER_OR_SAME
  | .STEADY => .SAME
  | .DECREASING_THEN_INCREASING => .LOWER_OR_SAME
  | .DECREASING_MORE_SLOWLY | .DECREASING | .DECREASING_MORE_RAPIDLY => .LOWER
  | .NOT_REPORTED | .RISING_RAPIDLY | .FALLING_RAPIDLY => .NOT_REPORTED

/-- `PressureTendencyGroup::typeFromChar`, metaf.hpp:6102-6118. -/
def typeFromChar (c : Char) : Option PressureTendencyType :=
  if c = '0' then some .INCREASING_THEN_DECREASING
  else if c = '1' then some .INCREASING_MORE_SLOWLY
  else if c = '2' then some .INCREASING
  else if c = '3' then some .INCREASING_MORE_RAPIDLY
  else if c = '4' then some .STEADY
  else if c = '5' then some .DECREASING_THEN_INCREASING
  else if c = '6' then some .DECREASING_MORE_SLOWLY
  else if c = '7' then some .DECREASING
  else if c = '8' then some .DECREASING_MORE_RAPIDLY
  else if c = '/' then some .NOT_REPORTED
  else none

/-- Regular expression of `parse`, metaf.hpp:6141. -/
def rgx : Rx :=
  .chr '5' ⬝ .cap 1 (.set [('0', '9'), ('/', '/')]) ⬝ .cap 2 ((.d ⬝ .d ⬝ .d) ∥ .lit c!"///")

/-- `PressureTendencyGroup::parse`, metaf.hpp:6120-6155. -/
def parse (group : Str) (reportPart : ReportPart) : Option PressureTendencyGroup :=
  if reportPart ≠ .RMK then none
  else if group = c!"PRESRR" then some { tendencyType := .RISING_RAPIDLY }
  else if group = c!"PRESFR" then some { tendencyType := .FALLING_RAPIDLY }
  else
    match regexMatch rgx group with
    | none => none
    | some m =>
      match typeFromChar (ch (m.str 1) 0) with
      | none => none
      | some t =>
        match Pressure.fromTendencyString (m.str 2) with
        | none => none
        | some p => some { tendencyType := t, pressureDifference := p }

/-- `PressureTendencyGroup::append`, metaf.hpp:6157-6163. -/
def append (g : PressureTendencyGroup) (_ : Str) : PressureTendencyGroup × AppendResult :=
  (g, .NOT_APPENDED)

end PressureTendencyGroup

/-! ### CloudTypesGroup -/

/-- `CloudTypesGroup`, metaf.hpp:1768-1785. The array `cldTp` of 8 elements and its fill count
`cldTpSize` are modelled by the list of the first `cldTpSize` elements. -/
structure CloudTypesGroup where
  cldTp : List CloudType := []
  deriving DecidableEq, Repr

namespace CloudTypesGroup

/-- `CloudTypesGroup::cldTpMaxSize`, metaf.hpp:1783. -/
def cldTpMaxSize : Nat := 8

/-- `CloudTypesGroup::cloudTypes`, metaf.hpp:6167-6172. -/
def cloudTypes (g : CloudTypesGroup) : List CloudType := g.cldTp

/-- `CloudTypesGroup::isValid`, metaf.hpp:6219-6223. -/
def isValid (g : CloudTypesGroup) : Bool := g.cldTp.all CloudType.isValid

/-- `[A-Z]{2,4}[\d]`, metaf.hpp:6182. -/
def searchRgx : Rx := .AZ ⬝ .AZ ⬝ .upTo .AZ 2 ⬝ .d

/-- `(?:(?:[A-Z]{2,4})[\d])+`, metaf.hpp:6181. -/
def matchRgx : Rx := .plus searchRgx

/-- The loop of `parse`, metaf.hpp:6195-6201, over the texts delivered by the iterator. -/
def parseLoop : List Str → List CloudType → Option CloudTypesGroup
  | [], acc => some { cldTp := acc }
  | t :: ts, acc =>
    if acc.length ≥ cldTpMaxSize then some { cldTp := acc }
    else
      match CloudType.fromString t with
      | none => none
      | some ct => parseLoop ts (acc ++ [ct])

/-- `CloudTypesGroup::parse`, metaf.hpp:6174-6203. -/
def parse (group : Str) (reportPart : ReportPart) : Option CloudTypesGroup :=
  if reportPart ≠ .RMK then none
  else
    match CloudType.fromString group with
    | some ct => some { cldTp := [ct] }
    | none =>
      match regexMatch matchRgx group with
      | none => none
      | some _ => parseLoop (searchAll searchRgx (group.length + 1) group) []

/-- `CloudTypesGroup::append`, metaf.hpp:6205-6217. With no element stored, the code reads the
array at index -1. -/
def append (g : CloudTypesGroup) (group : Str) : Res (CloudTypesGroup × AppendResult) :=
  if g.cldTp.length ≥ cldTpMaxSize then .ok (g, .NOT_APPENDED)
  else
    match g.cldTp.getLast? with
    | none => .error .outOfRange
    | some last =>
      if !last.ht.isReported then .ok (g, .NOT_APPENDED)
      else
        match CloudType.fromString group with
        | none => .ok (g, .NOT_APPENDED)
        | some ct =>
          if !ct.ht.isReported then .ok (g, .NOT_APPENDED)
          else .ok ({ cldTp := g.cldTp ++ [ct] }, .APPENDED)

end CloudTypesGroup

/-! ### LowMidHighCloudGroup -/

/-- `LowMidHighCloudGroup::LowLayer`, metaf.hpp:1789-1801. -/
inductive LowLayer
  | NONE | CU_HU_CU_FR | CU_MED_CU_CON | CB_CAL | SC_CUGEN | SC_NON_CUGEN | ST_NEB_ST_FR
  | ST_FR_CU_FR_PANNUS | CU_SC_NON_CUGEN_DIFFERENT_LEVELS | CB_CAP | NOT_OBSERVABLE
  deriving DecidableEq, Repr

/-- `LowMidHighCloudGroup::MidLayer`, metaf.hpp:1802-1814. -/
inductive MidLayer
  | NONE | AS_TR | AS_OP_NS | AC_TR | AC_TR_LEN_PATCHES | AC_TR_AC_OP_SPREADING
  | AC_CUGEN_AC_CBGEN | AC_DU_AC_OP_AC_WITH_AS_OR_NS | AC_CAS_AC_FLO | AC_OF_CHAOTIC_SKY
  | NOT_OBSERVABLE
  deriving DecidableEq, Repr

/-- `LowMidHighCloudGroup::HighLayer`, metaf.hpp:1815-1827. -/
inductive HighLayer
  | NONE | CI_FIB_CI_UNC | CI_SPI_CI_CAS_CI_FLO | CI_SPI_CBGEN | CI_FIB_CI_UNC_SPREADING
  | CI_CS_LOW_ABOVE_HORIZON | CI_CS_HIGH_ABOVE_HORIZON | CS_NEB_CS_FIB_COVERING_ENTIRE_SKY | CS
  | CC | NOT_OBSERVABLE
  deriving DecidableEq, Repr

/-- `LowMidHighCloudGroup`, metaf.hpp:1787-1849. -/
structure LowMidHighCloudGroup where
  cloudLowLayer : LowLayer := .NONE
  cloudMidLayer : MidLayer := .NONE
  cloudHighLayer : HighLayer := .NONE
  deriving DecidableEq, Repr

namespace LowMidHighCloudGroup

/-- `LowMidHighCloudGroup::isValid`, metaf.hpp:6227-6233. -/
def isValid (g : LowMidHighCloudGroup) : Bool :=
  if g.cloudLowLayer = .NOT_OBSERVABLE ∧ g.cloudMidLayer ≠ .NOT_OBSERVABLE then false
  else if g.cloudMidLayer = .NOT_OBSERVABLE ∧ g.cloudHighLayer ≠ .NOT_OBSERVABLE then false
  else true

/-- `LowMidHighCloudGroup::lowLayerFromChar`, metaf.hpp:6267-6281. -/
def lowLayerFromChar (c : Char) : LowLayer :=
  if c = '0' then .NONE
  else if c = '1' then .CU_HU_CU_FR
  else if c = '2' then .CU_MED_CU_CON
  else if c = '3' then .CB_CAL
  else if c = '4' then .SC_CUGEN
  else if c = '5' then .SC_NON_CUGEN
  else if c = '6' then .ST_NEB_ST_FR
  else if c = '7' then .ST_FR_CU_FR_PANNUS
  else if c = '8' then .CU_SC_NON_CUGEN_DIFFERENT_LEVELS
  else if c = '9' then .CB_CAP
  else .NOT_OBSERVABLE

/-- `LowMidHighCloudGroup::midLayerFromChar`, metaf.hpp:6283-6297. -/
def midLayerFromChar (c : Char) : MidLayer :=
  if c = '0' then .NONE
  else if c = '1' then .AS_TR
  else if c = '2' then .AS_OP_NS
  else if c = '3' then .AC_TR
  else if c = '4' then .AC_TR_LEN_PATCHES
  else if c = '5' then .AC_TR_AC_OP_SPREADING
  else if c = '6' then .AC_CUGEN_AC_CBGEN
  else if c = '7' then .AC_DU_AC_OP_AC_WITH_AS_OR_NS
  else if c = '8' then .AC_CAS_AC_FLO
  else if c = '9' then .AC_OF_CHAOTIC_SKY
  else .NOT_OBSERVABLE

/-- `LowMidHighCloudGroup::highLayerFromChar`, metaf.hpp:6299-6313. -/
def highLayerFromChar (c : Char) : HighLayer :=
  if c = '0' then .NONE
  else if c = '1' then .CI_FIB_CI_UNC
  else if c = '2' then .CI_SPI_CI_CAS_CI_FLO
  else if c = '3' then .CI_SPI_CBGEN
  else if c = '4' then .CI_FIB_CI_UNC_SPREADING
  else if c = '5' then .CI_CS_LOW_ABOVE_HORIZON
  else if c = '6' then .CI_CS_HIGH_ABOVE_HORIZON
  else if c = '7' then .CS_NEB_CS_FIB_COVERING_ENTIRE_SKY
  else if c = '8' then .CS
  else if c = '9' then .CC
  else .NOT_OBSERVABLE

/-- Regular expression of `parse`, metaf.hpp:6242. -/
def rgx : Rx :=
  .lit c!"8/" ⬝ .cap 1 RunwayStateGroup.digitOrSlash ⬝ .cap 2 RunwayStateGroup.digitOrSlash ⬝
  .cap 3 RunwayStateGroup.digitOrSlash

/-- `LowMidHighCloudGroup::parse`, metaf.hpp:6236-6257. -/
def parse (group : Str) (reportPart : ReportPart) : Option LowMidHighCloudGroup :=
  if reportPart ≠ .RMK then none
  else
    match regexMatch rgx group with
    | none => none
    | some m =>
      some { cloudLowLayer := lowLayerFromChar (ch (m.str 1) 0),
             cloudMidLayer := midLayerFromChar (ch (m.str 2) 0),
             cloudHighLayer := highLayerFromChar (ch (m.str 3) 0) }

/-- `LowMidHighCloudGroup::append`, metaf.hpp:6259-6265. -/
def append (g : LowMidHighCloudGroup) (_ : Str) : LowMidHighCloudGroup × AppendResult :=
  (g, .NOT_APPENDED)

end LowMidHighCloudGroup

end Metaf
