import Verif.Model.Parser

/-!
The order in which the kinds of groups are tried.
-/

namespace Metaf.Spec

variable [FloatSem]

/-- The recogniser of the `i`-th kind of group in the order of declaration of `Group`: keyword,
location, report time, trend, wind, visibility, cloud, weather, temperature, pressure, runway state,
sea surface, minimum and maximum temperature, precipitation, layer forecast, pressure tendency, cloud
types, low/middle/high clouds, lightning, vicinity, miscellaneous. -/
def recognise (i : Nat) (s : Str) (p : ReportPart) (md : ReportMetadata) : Res (Option Group) :=
  match i with
  | 0 => .ok ((KeywordGroup.parse s p).map .keyword)
  | 1 => .ok ((LocationGroup.parse s p).map .location)
  | 2 => .ok ((ReportTimeGroup.parse s p).map .reportTime)
  | 3 => .ok ((TrendGroup.parse s p).map .trend)
  | 4 => .ok ((WindGroup.parse s p).map .wind)
  | 5 => .ok ((VisibilityGroup.parse s p).map .visibility)
  | 6 => .ok ((CloudGroup.parse s p).map .cloud)
  | 7 => match WeatherGroup.parse s p md with
    | .error f => .error f
    | .ok r => .ok (r.map .weather)
  | 8 => .ok ((TemperatureGroup.parse s p).map .temperature)
  | 9 => .ok ((PressureGroup.parse s p).map .pressure)
  | 10 => .ok ((RunwayStateGroup.parse s p).map .runwayState)
  | 11 => .ok ((SeaSurfaceGroup.parse s p).map .seaSurface)
  | 12 => .ok ((MinMaxTemperatureGroup.parse s p).map .minMaxTemperature)
  | 13 => .ok ((PrecipitationGroup.parse s p md).map .precipitation)
  | 14 => .ok ((LayerForecastGroup.parse s p).map .layerForecast)
  | 15 => .ok ((PressureTendencyGroup.parse s p).map .pressureTendency)
  | 16 => .ok ((CloudTypesGroup.parse s p).map .cloudTypes)
  | 17 => .ok ((LowMidHighCloudGroup.parse s p).map .lowMidHighCloud)
  | 18 => .ok ((LightningGroup.parse s p).map .lightning)
  | 19 => .ok ((VicinityGroup.parse s p).map .vicinity)
  | 20 => .ok ((MiscGroup.parse s p).map .misc)
  | _ => .ok none

end Metaf.Spec
