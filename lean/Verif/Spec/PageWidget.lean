import Verif.Spec.PageIcon

/-!
Specification of the widget the page with the summaries shows for a station: which number stands in which element.
-/

namespace Metaf.Spec

open Metaf Metaf.Summary

/-- A piece of text without markup. -/
def Unmarked (s : Str) : Prop := '<' ∉ s ∧ '>' ∉ s

/-- The text has a tag with this name and attributes, and behind it this text up to the next tag. -/
def TagIn (text attributes contents : Str) : Prop :=
  Unmarked attributes ∧ Unmarked contents ∧ (c!"<" ++ attributes ++ c!">" ++ contents ++ c!"<") <:+: text

/-- The text has an element of this class and no other attributes, and in it this text within one line. -/
def WidgetField (text cls contents : Str) : Prop :=
  '"' ∉ cls ∧ '\n' ∉ contents ∧
    (TagIn text (c!"div class=\"" ++ cls ++ c!"\"") contents ∨ TagIn text (c!"span class=\"" ++ cls ++ c!"\"") contents)

/-- A member of the summary in the widget, two equality signs if it is not known. -/
def orBars (member : Int) (text : Int → Str) : Str := ((known member).map text).getD c!"=="

/-- The element with the gusts. -/
def gustField (r : CurrentWeather) (imperial : Bool) : Str × Str :=
  match known r.gustSpeed with
  | some g => (if imperial then c!"ww_gust_mph" else c!"ww_gust_kmh", numberText g)
  | none => (c!"ww_no_gust", [])

/-- The elements of the widget besides the icon of the weather and the arrow of the wind: a class, and the text. Pressure
is shown in hPa or inches, visibility in kilometres or miles. -/
def widgetFields (r : CurrentWeather) (imperial : Bool) : List (Str × Str) :=
  let unit (metric other : Str) : Str := if imperial then other else metric
  [(c!"ww_temp_icon", c!"&#xf055;"),
   (unit c!"ww_temp_c" c!"ww_temp_f", orBars r.airTemperature numberText),
   (unit c!"ww_temp_feels_c" c!"ww_temp_feels_f", orBars r.perceivedTemperature numberText),
   (unit c!"ww_wind_kmh" c!"ww_wind_mph", orBars r.windSpeed numberText),
   (unit c!"ww_temp_low_c" c!"ww_temp_low_f", orBars r.airTemperatureLow numberText),
   (unit c!"ww_temp_high_c" c!"ww_temp_high_f", orBars r.airTemperatureHigh numberText),
   (c!"ww_rh", orBars r.relativeHumidity numberText),
   (unit c!"ww_pres_hpa" c!"ww_pres_inhg",
     orBars r.atmosphericPressure fun p => if imperial then shortDecimal p 2 else numberText p),
   (unit c!"ww_vis_km" c!"ww_vis_mile",
     orBars r.visibility fun v => if imperial then numberText v else shortDecimal v 3),
   gustField r imperial] ++
  (if r.isWindVariable then [(c!"ww_wind_vrb_icon", c!"&#xf0b1;")] else [])

/-- The tag of the arrow which shows the direction of the wind. -/
def arrowTag (direction : Int) : Str :=
  c!"div class=\"ww_wind_dir_icon\" style=\"transform: rotate(" ++ numberText direction ++ c!"deg) scaleY(-1);\""

end Metaf.Spec
