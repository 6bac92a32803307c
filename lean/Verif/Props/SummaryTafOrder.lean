import Verif.Props.SummaryTafInsertion

/-!
C147: the order of groups in a TAF report counts only among groups on the same matter.
-/

set_option linter.unusedSectionVars false

namespace Metaf.Props

open Metaf Metaf.Spec Metaf.Summary

section

variable [FloatIeee]

/-- The groups of visibility and `CAVOK`. -/
def anyVisibilityAndCavok (gs : List Group) : List Group :=
  gs.filter fun g => decide (g = .keyword ⟨.CAVOK⟩) || (anyVisibility g).isSome

/-- The groups of a TAF report on each matter are the same, and in the same order. -/
structure SameForecast (gs gs' : List Group) : Prop where
  wind : gs'.filterMap anyWind = gs.filterMap anyWind
  visibility : anyVisibilityAndCavok gs' = anyVisibilityAndCavok gs
  cloud : cloudAndCavok gs' = cloudAndCavok gs
  weather : gs'.filterMap anyWeather = gs.filterMap anyWeather

/-- C147. The order of groups in a TAF report counts only among groups on the same matter: wind; visibility and
`CAVOK`; clouds and `CAVOK`; weather. Two reports with the same groups on each of them before the first change, in the
same order, the same time of release and the same groups on the highest and lowest temperature have the same summary,
though groups on different matters are in another order, with any METAR report or without one. -/
theorem C147_taf_order {metar taf taf' : Str} {gs gs' : List GroupInfo} {y m d : Int} {imperial : Bool}
    {r r' : CurrentWeather} (ht : Gives taf .TAF gs) (ht' : Gives taf' .TAF gs')
    (hs : SameForecast (beforeSecondTrend (gs.map (·.group))) (beforeSecondTrend (gs'.map (·.group))))
    (hr : releases gs' = releases gs) (hf : forecasts gs' = forecasts gs)
    (h : getCurrentWeather metar taf y m d imperial = .ok r)
    (h' : getCurrentWeather metar taf' y m d imperial = .ok r') : r' = r := by
  by_cases hm : ∃ gm, Gives metar .METAR gm
  · obtain ⟨gm, hm⟩ := hm
    rw [C147_forecast hm ht ht' hf, h] at h'
    exact (Except.ok.inj h').symm
  have hm : Refused metar .METAR := hm
  obtain ⟨s, p1, p2, p3, p4⟩ := C88_taf hm ht h
  obtain ⟨s', p1', p2', p3', p4'⟩ := C88_taf hm ht' h'
  obtain ⟨lo, hi⟩ := C88_high_low ht h
  obtain ⟨lo', hi'⟩ := C88_high_low ht' h'
  have e : lastOf minMaxOf (gs'.map (·.group)) = lastOf minMaxOf (gs.map (·.group)) := by
    have k : ∀ gs : List GroupInfo, (gs.map (·.group)).filterMap minMaxOf = forecasts gs := fun gs => by
      rw [List.filterMap_map]
      rfl
    have k' : ∀ gs, lastOf minMaxOf gs = (gs.filterMap minMaxOf).reverse.findSome? some := fun gs => by
      rw [← lastOf_filterMap]
      congr 1
      funext g
      cases minMaxOf g <;> rfl
    rw [k', k', k, k, hf]
  rw [e] at lo' hi'
  have time : updated r' = updated r := by
    obtain ⟨r1, tg, hg, h1, h2⟩ := summary_taf hm h
    obtain ⟨r1', tg', hg', h1', h2'⟩ := summary_taf hm h'
    rw [parseReport_gives ht] at hg
    rw [parseReport_gives ht'] at hg'
    obtain rfl := Except.ok.inj hg
    obtain rfl := Except.ok.inj hg'
    obtain ⟨-, -, k1, k2, k3, k4, k5⟩ := (tafLoop_keeps h1).1
    obtain ⟨-, -, k1', k2', k3', k4', k5'⟩ := (tafLoop_keeps h1').1
    rw [releaseTime_depends, hr] at h2'
    rw [releaseTime_depends] at h2
    have u : updated r1' = updated r1 := by simp only [updated, k1, k2, k3, k4, k5, k1', k2', k3', k4', k5']
    have f : ∀ {a b : CurrentWeather}, SameButForecast a b → updated b = updated a := fun h => by rw [h]; rfl
    rw [f (forecast_only h2), f (forecast_only h2'), releaseTime_eq, releaseTime_eq, u]
  have v : ∀ gs, lastOf (visibilityTold imperial anyVisibility) (anyVisibilityAndCavok gs) =
      lastOf (visibilityTold imperial anyVisibility) gs := fun gs =>
    lastOf_filter (fun g hg => by
      simp only [Bool.or_eq_false_iff, decide_eq_false_iff_not] at hg
      unfold visibilityTold
      rw [if_neg hg.1, none_of hg.2]
      rfl) gs
  have w : ∀ {gs gs' : List Group}, gs'.filterMap anyWind = gs.filterMap anyWind → ∀ {g : Group} {x : WindGroup},
      g ∈ gs' → anyWind g = some x → ∃ g ∈ gs, anyWind g = some x := fun he _ _ hg hx => by
    have := List.mem_filterMap.mpr ⟨_, hg, hx⟩
    rw [he] at this
    exact List.mem_filterMap.mp this
  have a1 : r'.windDirection = r.windDirection := by
    rw [s.windDirection, s'.windDirection, lastOf_filterMap, lastOf_filterMap, hs.wind]
  have a2 : r'.isWindVariable = r.isWindVariable := by
    rw [Bool.eq_iff_iff, s.isWindVariable, s'.isWindVariable]
    constructor
    · rintro ⟨g, hg, x, hx, hv⟩
      obtain ⟨g', h1, h2⟩ := w hs.wind hg hx
      exact ⟨g', h1, x, h2, hv⟩
    · rintro ⟨g, hg, x, hx, hv⟩
      obtain ⟨g', h1, h2⟩ := w hs.wind.symm hg hx
      exact ⟨g', h1, x, h2, hv⟩
  have a3 : r'.windSpeed = r.windSpeed := by
    rw [s.windSpeed, s'.windSpeed, lastOf_filterMap, lastOf_filterMap, hs.wind]
  have a4 : r'.gustSpeed = r.gustSpeed := by
    rw [s.gustSpeed, s'.gustSpeed, lastOf_filterMap, lastOf_filterMap, hs.wind]
  have a5 : r'.visibility = r.visibility := by rw [s.visibility, s'.visibility, ← v, hs.visibility, v]
  have a6 : r'.isStormClouds = r.isStormClouds := by
    rw [Bool.eq_iff_iff, s.isStormClouds, s'.isStormClouds]
    exact ⟨fun ⟨c, hc, hv⟩ => ⟨c, cloud_mem hs.cloud hc, hv⟩, fun ⟨c, hc, hv⟩ => ⟨c, cloud_mem hs.cloud.symm hc, hv⟩⟩
  have a7 : r'.cloud = r.cloud := by rw [s.cloud, s'.cloud, ← covers_matter, hs.cloud, covers_matter]
  have a8 : r'.weather = r.weather := by rw [s.weather, s'.weather, hs.weather]
  have a9 := lo'.trans lo.symm
  have a10 := hi'.trans hi.symm
  cases r
  cases r'
  simp only [updated, Prod.mk.injEq] at time a1 a2 a3 a4 a5 a6 a7 a8 a9 a10 p1 p2 p3 p4 p1' p2' p3' p4'
  obtain ⟨t1, t2, t3, t4, t5⟩ := time
  rw [a1, a2, a3, a4, a5, a6, a7, a8, a9, a10, p1, p2, p3, p4, p1', p2', p3', p4', t1, t2, t3, t4, t5]

end

/-! ### Example -/

section

attribute [local instance] ieee

/-- The report of `tafText` with its groups in another order and another change. -/
def tafOther : Str := c!"TAF UUEE 111100Z 1112/1212 BKN016 TX06/1112Z TNM03/1203Z 6000 30005MPS BECMG 1118/1120 NSC"

theorem tafOther_gives : ∃ gs, Gives tafOther .TAF gs := gives_of (by kernel_rfl)

set_option maxRecDepth 4000 in
/-- Groups in another order: the summary is that of `tafText`. -/
example {metar : Str} {y m d : Int} {imperial : Bool} {r r' : CurrentWeather}
    (h : getCurrentWeather metar tafText y m d imperial = .ok r)
    (h' : getCurrentWeather metar tafOther y m d imperial = .ok r') : r' = r :=
  C147_taf_order (gives_read tafText_gives) (gives_read tafOther_gives)
    ⟨by decide +kernel, by decide +kernel, by decide +kernel, by decide +kernel⟩ (by decide +kernel) (by decide +kernel)
    h h'

end

end Metaf.Props
