import Verif.Spec.Climate

/-!
The temperature felt, from the published formulas of `Spec/Climate`.
-/

namespace Metaf.Spec

/-- The relative humidity in percent for a temperature and a dew point in tenths of a degree; 100 where the dew
point is above the temperature. -/
noncomputable def humidityOfTenths (n m : ℤ) : ℝ := if m ≤ n then humidityOf ((n : ℝ) / 10) ((m : ℝ) / 10) else 100

/-- The temperature felt in degrees Celsius for a temperature in tenths of a degree, a dew point (if known) in
tenths of a degree and a wind speed (if known) in kilometres per hour. From 27 degrees and a humidity of 40 percent
it is the heat index; to 10 degrees and from 4.8 km/h it is the wind chill; else it is the temperature of the air.
The humidity may be off by a hundredth of a percent. -/
inductive Feels (n : ℤ) (dew : Option ℤ) (wind : Option ℚ) : ℝ → Prop
  | heat {m : ℤ} {rh : ℚ} : 270 ≤ n → dew = some m → |(rh : ℝ) - humidityOfTenths n m| ≤ 1 / 100 → 40 ≤ rh →
      rh ≤ 100 → Feels n dew wind (heatIndexOf ((n : ℚ) / 10) rh : ℚ)
  | chill {v : ℚ} : n ≤ 100 → wind = some v → 48 / 10 ≤ v → Feels n dew wind (windChillOf ((n : ℝ) / 10) (v : ℝ))
  | air : (270 ≤ n → ∀ m, dew = some m → humidityOfTenths n m < 40 + 1 / 100) →
      (n ≤ 100 → ∀ v, wind = some v → v < 48 / 10) → Feels n dew wind ((n : ℝ) / 10)

/-- A temperature in degrees Celsius in the unit chosen. -/
noncomputable def inUnit (imperial : Bool) (x : ℝ) : ℝ := if imperial then x * 9 / 5 + 32 else x

end Metaf.Spec
