import Mathlib.Analysis.SpecialFunctions.Trigonometric.Inverse

/-!
Model of the distance between two positions on the page with the summaries,
`/repo/examples/shellfiles/summary_shell.html`.

Simplifications. Coordinates, sine, cosine, arc cosine and pi are real numbers, so rounding is left out; coordinates of
stations are numbers already (the script has texts, which JavaScript converts).
-/

namespace Metaf.PageDistance

open Classical in
/-- `distanceKm`, summary_shell.html:85-106. -/
noncomputable def distanceKm (lat1 lon1 lat2 lon2 : ℝ) : ℝ :=
  if lat1 = lat2 ∧ lon1 = lon2 then 0
  else
    let radlat1 := Real.pi * lat1 / 180
    let radlat2 := Real.pi * lat2 / 180
    let theta := lon1 - lon2
    let radtheta := Real.pi * theta / 180
    let dist := Real.sin radlat1 * Real.sin radlat2 + Real.cos radlat1 * Real.cos radlat2 * Real.cos radtheta
    let dist := if dist > 1 then 1 else dist
    let kmPerMile := 1.609344
    let dist := Real.arccos dist
    let dist := dist * 180 / Real.pi
    dist * 60 * 1.1515 * kmPerMile

end Metaf.PageDistance
