import Verif.Spec.Page
import Verif.Spec.Summary

/-!
Specification of the icon the page with the summaries shows for a station.
-/

namespace Metaf.Spec

open Metaf Metaf.Summary

variable [FloatSem]

/-- One of the kinds of weather, written as in reports, is among the weather of the summary. -/
def Has (r : CurrentWeather) (texts : List Str) : Prop := ∃ t ∈ texts, ∃ n, codeTable.lookup t = some n ∧ n ∈ r.weather

/-- Light rain or light showers. -/
def LightRain (r : CurrentWeather) : Prop := Has r [c!"-RA", c!"-SHRA"]

/-- Moderate or heavy rain or showers. -/
def StrongRain (r : CurrentWeather) : Prop := Has r [c!"RA", c!"+RA", c!"SHRA", c!"+SHRA"]

/-- Snow or showers of snow. -/
def Snow (r : CurrentWeather) : Prop := Has r [c!"-SN", c!"SN", c!"+SN", c!"-SHSN", c!"SHSN", c!"+SHSN"]

/-- Fog of any kind. -/
def Fog (r : CurrentWeather) : Prop := Has r [c!"FG", c!"MIFG", c!"PRFG", c!"BCFG", c!"FZFG", c!"VCFG"]

/-- Strong wind, gusts or squalls. -/
def Stormy (r : CurrentWeather) (imperial : Bool) : Prop :=
  Fast r.windSpeed imperial ∨ Fast r.gustSpeed imperial ∨ Has r [c!"SQ"]

/-- What each icon stands for, the most important first. -/
def iconRules (r : CurrentWeather) (imperial : Bool) : List (Prop × Str) :=
  [(Has r [c!"FC", c!"+FC"], c!"&#xf056;"),
   (Has r [c!"VA", c!"VCVA"], c!"&#xf0c8;"),
   (Has r [c!"-FZDZ", c!"FZDZ", c!"+FZDZ", c!"-FZRA", c!"FZRA", c!"+FZRA"],
     c!"<img class=\"ww_freezing_precip\" src=\"weather_widget/icicles-solid-wh.svg\">"),
   (Has r [c!"TS"] ∧ StrongRain r, c!"&#xf01e;"),
   (Has r [c!"TS"] ∧ LightRain r, c!"&#xf01d;"),
   (Has r [c!"TS", c!"VCTS"], c!"&#xf016;"),
   (Has r [c!"GR", c!"GS"], c!"&#xf0b5;"),
   (Has r [c!"SS", c!"+SS", c!"VCSS", c!"DS", c!"+DS", c!"VCDS"], c!"&#xf082;"),
   (Snow r ∧ (Stormy r imperial ∨ Has r [c!"BLSN"]), c!"&#xf064;"),
   (StrongRain r ∧ Snow r, c!"&#xf015;"),
   (LightRain r ∧ Snow r, c!"&#xf017;"),
   ((LightRain r ∨ StrongRain r) ∧ Stormy r imperial, c!"&#xf018;"),
   (Snow r, c!"&#xf01b;"),
   (Has r [c!"BLSN"], c!"&#xf082;"),
   (StrongRain r, c!"&#xf019;"),
   (LightRain r, c!"&#xf01a;"),
   (Has r [c!"-DZ", c!"DZ", c!"+DZ"], c!"&#xf01c;"),
   (Has r [c!"PO", c!"VCPO"], c!"&#xf056;"),
   (Has r [c!"DRDU", c!"DRSA", c!"BLSA", c!"BLDU", c!"PY", c!"VCBLDU", c!"VCBLSA", c!"VCBLSN"], c!"&#xf082;"),
   (Has r [c!"VCSH"], c!"&#xf084;"),
   (Has r [c!"SA", c!"DU", c!"IC"], c!"&#xf063;"),
   (Has r [c!"FU"] ∧ (Has r [c!"BR"] ∨ Fog r), c!"&#xf074;"),
   (Has r [c!"FU"], c!"&#xf062;"),
   (Fog r, c!"&#xf014;"),
   (Has r [c!"BR", c!"HZ"], c!"&#xf021;"),
   (Stormy r imperial ∧ (r.cloud = .MOSTLY_CLOUDY ∨ r.cloud = .OVERCAST), c!"&#xf011;"),
   (Stormy r imperial, c!"&#xf050;"),
   (Cold r imperial, c!"&#xf076;"),
   (Hot r imperial, c!"&#xf072;"),
   (r.cloud = .OVERCAST, c!"&#xf013;"),
   (r.cloud = .MOSTLY_CLOUDY ∨ r.isStormClouds = true, c!"&#xf041;"),
   (r.cloud = .CLEAR ∨ r.cloud = .MOSTLY_CLEAR, c!"&#x0020;"),
   (True, c!"&#xf07b;")]

/-- The icon of the first rule which applies. -/
inductive FirstIcon : List (Prop × Str) → Str → Prop
  | here {p : Prop} {icon : Str} {rules : List (Prop × Str)} : p → FirstIcon ((p, icon) :: rules) icon
  | later {p : Prop} {icon icon' : Str} {rules : List (Prop × Str)} :
      ¬p → FirstIcon rules icon → FirstIcon ((p, icon') :: rules) icon

/-- Precipitation, written as in reports. -/
def precipitationTexts : List Str :=
  [c!"-DZ", c!"DZ", c!"+DZ", c!"-RA", c!"RA", c!"+RA", c!"-SN", c!"SN", c!"+SN", c!"-SHRA", c!"SHRA", c!"+SHRA",
   c!"-SHSN", c!"SHSN", c!"+SHSN", c!"-FZDZ", c!"FZDZ", c!"+FZDZ", c!"-FZRA", c!"FZRA", c!"+FZRA", c!"GR", c!"GS",
   c!"-SG", c!"SG", c!"+SG", c!"-PL", c!"PL", c!"+PL", c!"-SHPL", c!"SHPL", c!"+SHPL", c!"-UP", c!"UP", c!"+UP"]

/-- Precipitation which has no icon. -/
def withoutIcon : List Str :=
  [c!"-SG", c!"SG", c!"+SG", c!"-PL", c!"PL", c!"+PL", c!"-SHPL", c!"SHPL", c!"+SHPL", c!"-UP", c!"UP", c!"+UP"]

/-- The icons for the sky, temperature, wind, mist, fog and smoke, and that for missing data. -/
def dryIcons : List Str :=
  [c!"&#xf07b;", c!"&#x0020;", c!"&#xf041;", c!"&#xf013;", c!"&#xf072;", c!"&#xf076;", c!"&#xf050;", c!"&#xf011;",
   c!"&#xf021;", c!"&#xf014;", c!"&#xf062;", c!"&#xf074;", c!"&#xf063;"]

end Metaf.Spec
