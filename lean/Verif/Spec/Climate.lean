import Mathlib.Analysis.SpecialFunctions.Pow.Real

/-!
Published formulas of relative humidity, heat index and wind chill, on exact numbers.
-/

namespace Metaf.Spec

/-- The heat index in degrees Fahrenheit for a temperature in degrees Fahrenheit and a relative humidity in
percent: the regression of L. P. Rothfusz as published by the National Weather Service of the United States
(Technical Attachment SR 90-23). -/
def rothfusz (t r : ℚ) : ℚ :=
  -42.379 + 2.04901523 * t + 10.14333127 * r - 0.22475541 * t * r - 0.00683783 * t ^ 2
    - 0.05481717 * r ^ 2 + 0.00122874 * t ^ 2 * r + 0.00085282 * t * r ^ 2 - 0.00000199 * t ^ 2 * r ^ 2

/-- The heat index in degrees Celsius for a temperature in degrees Celsius. -/
def heatIndexOf (t r : ℚ) : ℚ := (rothfusz (t * 9 / 5 + 32) r - 32) * 5 / 9

/-- The wind chill in degrees Celsius for a temperature in degrees Celsius and a wind speed in kilometres per
hour: the formula adopted in 2001 by the weather services of Canada and the United States. -/
noncomputable def windChillOf (t v : ℝ) : ℝ :=
  13.12 + 0.6215 * t - 11.37 * v ^ (0.16 : ℝ) + 0.3965 * t * v ^ (0.16 : ℝ)

/-- The pressure in hPa of saturated water vapour at a temperature in degrees Celsius: the formula of Magnus in
the form of Tetens, 6.11 hPa times 10 to the power 7.5 t / (237.7 + t). -/
noncomputable def saturation (t : ℝ) : ℝ := 6.11 * (10 : ℝ) ^ (7.5 * t / (237.7 + t))

/-- The relative humidity in percent for a temperature and a dew point in degrees Celsius. -/
noncomputable def humidityOf (t d : ℝ) : ℝ := 100 * (saturation d / saturation t)

end Metaf.Spec
