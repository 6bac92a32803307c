import Verif.Proofs.Summary
import Verif.Props.Accepted
import Verif.Props.Modest
import Verif.Proofs.Util
import Verif.Ieee

/-!
The summary of the current weather made of a METAR and a TAF report (`/repo/examples/summary.cpp`).
C87: with an accepted METAR report the members are what its groups before the first trend say. C88: with
an accepted TAF report only, they are what its groups before the second trend say; the highest and lowest
temperature are always those of the TAF report. C89: the cover of the sky. C91: which of the two reports
counts.
-/

set_option linter.unusedSectionVars false

namespace Metaf.Props

open Metaf Metaf.Spec Metaf.Summary

variable [FloatIeee]

/-- The text is accepted as a report of the type; parsing gives the groups. -/
def Gives (report : Str) (type : ReportType) (gs : List GroupInfo) : Prop :=
  ∃ r, Result report 200 r ∧ r.reportMetadata.type = type ∧ r.reportMetadata.error = .NONE ∧ r.groups = gs

/-- The text is not accepted as a report of the type. -/
def Refused (report : Str) (type : ReportType) : Prop := ¬ ∃ gs, Gives report type gs

/-! ### Parsing -/

theorem gives_nonempty {report : Str} {type : ReportType} {gs : List GroupInfo} (h : Gives report type gs) :
    gs ≠ [] := by
  obtain ⟨r, hr, ht, he, rfl⟩ := h
  have hg := groups_tokens report
  obtain ⟨k, -, -, -, h⟩ := C04_no_text_lost report 200 _ r hg hr
  rw [ne_eq, ← h]
  obtain ⟨n, ha, -⟩ := (C86_accepted hg).mp ⟨r, hr, ht, he⟩
  intro e
  rw [show tokens report = [] from e] at ha
  generalize hx : ([] : List Str) = ws at ha
  cases ha <;>
    first
      | (simp at hx; done)
      | (rename_i hb _ _; exact hb (List.append_eq_nil_iff.mp hx.symm).2)

theorem parseReport_gives {report : Str} {type : ReportType} {gs : List GroupInfo}
    (h : Gives report type gs) : parseReport report type = .ok gs := by
  obtain ⟨r, hr, ht, he, rfl⟩ := h
  unfold parseReport
  rw [show Parser.parse report = .ok r from hr]
  simp [ht, he]

theorem parseReport_refused {report : Str} {type : ReportType} (h : Refused report type) :
    parseReport report type = .ok [] := by
  obtain ⟨r, hr, -⟩ := C01_parse_total report 200
  unfold parseReport
  rw [hr]
  simp only
  split
  · rfl
  · rename_i hn
    push Not at hn
    exact absurd ⟨_, r, hr, hn.1, hn.2, rfl⟩ h

/-- The groups of a text accepted, none for a text refused. -/
theorem parseReport_cases (report : Str) (type : ReportType) :
    (∃ gs, Gives report type gs ∧ parseReport report type = .ok gs) ∨
      (Refused report type ∧ parseReport report type = .ok []) := by
  by_cases h : ∃ gs, Gives report type gs
  · obtain ⟨gs, h⟩ := h
    exact Or.inl ⟨gs, h, parseReport_gives h⟩
  · exact Or.inr ⟨h, parseReport_refused h⟩

/-! ### What the time of the report and the forecast temperatures leave as it is -/

/-- All members but those on the time of the report and on the forecast of temperatures are the same. -/
def SameWeather (r r' : CurrentWeather) : Prop :=
  r' = { r with updateYear := r'.updateYear, updateMonth := r'.updateMonth, updateDay := r'.updateDay
                updateHour := r'.updateHour, updateMinute := r'.updateMinute
                airTemperatureHigh := r'.airTemperatureHigh, airTemperatureLow := r'.airTemperatureLow }

theorem SameWeather.trans {a b c : CurrentWeather} (h : SameWeather a b) (h' : SameWeather b c) :
    SameWeather a c := by
  obtain ⟨⟩ := a
  obtain ⟨⟩ := b
  obtain ⟨⟩ := c
  simp only [SameWeather, CurrentWeather.mk.injEq] at h h' ⊢
  simp_all

theorem releaseTime_same (xs : List GroupInfo) (y m d : Int) (r : CurrentWeather) :
    SameWeather r (reportReleaseTime r xs y m d) := by
  induction xs generalizing r with
  | nil => rfl
  | cons x xs ih =>
    unfold reportReleaseTime
    split
    · exact SameWeather.trans (b := { r with updateYear := _, updateMonth := _, updateDay := _, updateHour := _, updateMinute := _ }) rfl (ih _)
    · exact ih _

theorem forecast_same {r r' : CurrentWeather} {xs : List GroupInfo} {imperial : Bool}
    (h : temperatureForecastFromTaf r xs imperial = .ok r') : SameWeather r r' := by
  obtain ⟨_, _, h⟩ := bind_ok h
  obtain ⟨_, _, h⟩ := bind_ok h
  obtain rfl := Except.ok.inj h
  rfl

theorem SameWeather.sky {imperial : Bool} {wind : Group → Option WindGroup}
    {vis : Group → Option VisibilityGroup} {weather : Group → Option WeatherGroup} {gs : List Group}
    {r r' : CurrentWeather} (h : SameWeather r r') (hs : SkyAndWind imperial wind vis weather gs r) :
    SkyAndWind imperial wind vis weather gs r' := by
  rw [h]
  exact ⟨hs.1, hs.2, hs.3, hs.4, hs.5, hs.6, hs.7, hs.8⟩

theorem SameWeather.measured {imperial : Bool} {gs : List Group} {r r' : CurrentWeather}
    (h : SameWeather r r') (hs : Measured imperial gs r) : Measured imperial gs r' := by
  rw [h]
  exact ⟨hs.1, hs.2, hs.3, hs.4, hs.5⟩

/-! ### From the loops to the specification -/

theorem toSigned_small {n : Nat} (h : n < 2147483648) : toSigned n = n := by
  have : wrap n = n := by unfold wrap uintRange; omega
  unfold toSigned
  rw [this, if_pos h]

theorem lastOf_congr {α : Type} {f f' : Group → Option α} {gs : List Group} (h : ∀ g ∈ gs, f g = f' g) :
    lastOf f gs = lastOf f' gs := by
  induction gs with
  | nil => rfl
  | cons g gs ih =>
    rw [lastOf_cons, lastOf_cons, ih fun x hx => h x (List.mem_cons_of_mem _ hx),
      h g (List.mem_cons_self ..)]

theorem sky_of_told {imperial : Bool} {wind : Group → Option WindGroup}
    {vis : Group → Option VisibilityGroup} {weather : Group → Option WeatherGroup} {gs : List Group}
    {r : CurrentWeather} (hw : ∀ g w, wind g = some w → g = .wind w) (hm : ∀ g ∈ gs, Modest g)
    (h : AllTold imperial wind vis weather gs {} r) : SkyAndWind imperial wind vis weather gs r where
  windDirection := by
    rw [h.windDirection]
    refine congrArg (fun o : Option Int => o.getD (-250)) (lastOf_congr fun g hg => ?_)
    cases e : wind g with
    | none => rfl
    | some w =>
      obtain rfl := hw g w e
      have := (hm _ hg).1
      cases hd : w.windDir.degrees with
      | none => simp [hd]
      | some d =>
        have := this d hd
        simp only [Option.bind_some, hd, Option.map_some, toSigned_small (by omega : d < 2147483648)]
        rfl
  isWindVariable := by rw [h.isWindVariable]; simp
  windSpeed := h.windSpeed
  gustSpeed := h.gustSpeed
  visibility := h.visibility
  isStormClouds := by rw [h.isStormClouds]; simp
  cloud := by rw [h.cloud, cover_fold]
  weather := by rw [h.weather]; rfl

theorem windChill_none (t : Temperature) : Temperature.windChill t {} = {} := by
  unfold Temperature.windChill
  cases t.toUnit .C with
  | none => rfl
  | some q =>
    simp only
    split <;> rfl

theorem measured_of_all {imperial : Bool} {gs : List Group} {r : CurrentWeather}
    (h : AllMeasured imperial gs {} {} r) : Measured imperial gs r where
  airTemperature := h.airTemperature
  relativeHumidity := h.relativeHumidity
  atmosphericPressure := h.atmosphericPressure
  perceivedTemperature := by
    intro b g t a e ht ha
    rw [h.perceivedTemperature b g t a e ht ha]
    cases lastOf (fun g => (surfaceWind g).map (·.wSpeed)) b with
    | some w => rfl
    | none =>
      have : temperatureIn imperial {} = none := by cases imperial <;> rfl
      simp only [felt, Option.getD_none, Option.bind_some, Option.bind_none, windChill_none, this]
      rfl
  noPerceivedTemperature := h.noPerceivedTemperature

theorem surfaceWind_eq (g : Group) (w : WindGroup) (h : surfaceWind g = some w) : g = .wind w := by
  cases g <;> simp only [surfaceWind, reduceCtorEq] at h
  split at h
  · rw [Option.some.inj h]
  · cases h

theorem anyWind_eq (g : Group) (w : WindGroup) (h : anyWind g = some w) : g = .wind w := by
  cases g <;> simp only [anyWind, reduceCtorEq] at h
  rw [Option.some.inj h]

theorem gives_modest {report : Str} {type : ReportType} {gs : List GroupInfo} (h : Gives report type gs) :
    ∀ g ∈ gs.map (·.group), Modest g := by
  obtain ⟨r, hr, -, -, rfl⟩ := h
  intro g hg
  obtain ⟨x, hx, rfl⟩ := List.mem_map.mp hg
  exact said_modest (C75_said hr x hx)

theorem beforeTrend_subset {gs : List Group} : ∀ g ∈ beforeTrend gs, g ∈ gs :=
  fun _ hg => (List.takeWhile_sublist _).subset hg

theorem beforeSecondTrend_subset {gs : List Group} : ∀ g ∈ beforeSecondTrend gs, g ∈ gs := by
  intro g hg
  rcases List.mem_append.mp hg with hg | hg
  · exact beforeTrend_subset g hg
  · exact (List.dropWhile_sublist _).subset (List.mem_of_mem_tail (beforeTrend_subset g hg))

/-! ### The parts of the summary -/

/-- With a METAR report, the members which do not depend on the TAF report and the date. -/
theorem summary_metar {metar taf : Str} {y m d : Int} {imperial : Bool} {gs : List GroupInfo}
    {r : CurrentWeather} (hm : Gives metar .METAR gs) (h : getCurrentWeather metar taf y m d imperial = .ok r) :
    ∃ r1 tafGroups, parseReport taf .TAF = .ok tafGroups ∧
      currentWeatherFromMetar gs imperial = .ok r1 ∧
      temperatureForecastFromTaf (reportReleaseTime r1 gs y m d) tafGroups imperial = .ok r := by
  unfold getCurrentWeather at h
  rw [parseReport_gives hm] at h
  obtain ⟨_, e, h⟩ := bind_ok h
  obtain rfl := Except.ok.inj e
  obtain ⟨tg, ht, h⟩ := bind_ok h
  have hne : (!gs.isEmpty) = true := by simpa using gives_nonempty hm
  rw [if_pos hne] at h
  obtain ⟨r1, h1, h⟩ := bind_ok h
  exact ⟨r1, tg, ht, h1, h⟩

/-- Without a METAR report. -/
theorem summary_taf {metar taf : Str} {y m d : Int} {imperial : Bool} {r : CurrentWeather}
    (hm : Refused metar .METAR) (h : getCurrentWeather metar taf y m d imperial = .ok r) :
    ∃ r1 tafGroups, parseReport taf .TAF = .ok tafGroups ∧
      currentWeatherFromTaf tafGroups imperial = .ok r1 ∧
      temperatureForecastFromTaf (reportReleaseTime r1 tafGroups y m d) tafGroups imperial = .ok r := by
  unfold getCurrentWeather at h
  rw [parseReport_refused hm] at h
  obtain ⟨_, e, h⟩ := bind_ok h
  obtain rfl := Except.ok.inj e
  obtain ⟨tg, ht, h⟩ := bind_ok h
  rw [if_neg (by simp)] at h
  obtain ⟨r1, h1, h⟩ := bind_ok h
  exact ⟨r1, tg, ht, h1, h⟩

/-! ### C87 -/

/-- C87: with an accepted METAR report, the members are what the groups before its first trend say,
whatever the TAF report and the date. -/
theorem C87_metar {metar taf : Str} {y m d : Int} {imperial : Bool} {gs : List GroupInfo}
    {r : CurrentWeather} (hm : Gives metar .METAR gs) (h : getCurrentWeather metar taf y m d imperial = .ok r) :
    SkyAndWind imperial surfaceWind prevailing presentWeather (beforeTrend (gs.map (·.group))) r ∧
    Measured imperial (beforeTrend (gs.map (·.group))) r := by
  obtain ⟨r1, tg, -, h1, h2⟩ := summary_metar hm h
  obtain ⟨ht, hs⟩ := metarLoop_ok h1
  have same := (releaseTime_same gs y m d r1).trans (forecast_same h2)
  exact ⟨same.sky (sky_of_told surfaceWind_eq (fun g hg => gives_modest hm g (beforeTrend_subset g hg)) ht),
    same.measured (measured_of_all hs)⟩

/-! ### C88 -/

/-- C88: without an accepted METAR report, the members on wind, visibility, sky and weather are what the
groups before the second trend of the TAF report say; there is no temperature, humidity and pressure. -/
theorem C88_taf {metar taf : Str} {y m d : Int} {imperial : Bool} {gs : List GroupInfo}
    {r : CurrentWeather} (hm : Refused metar .METAR) (ht : Gives taf .TAF gs)
    (h : getCurrentWeather metar taf y m d imperial = .ok r) :
    SkyAndWind imperial anyWind anyVisibility anyWeather (beforeSecondTrend (gs.map (·.group))) r ∧
    r.airTemperature = -250 ∧ r.perceivedTemperature = -250 ∧ r.relativeHumidity = -250 ∧
    r.atmosphericPressure = -250 := by
  obtain ⟨r1, tg, h0, h1, h2⟩ := summary_taf hm h
  rw [parseReport_gives ht] at h0
  obtain rfl := Except.ok.inj h0
  have same := (releaseTime_same gs y m d r1).trans (forecast_same h2)
  have hl := tafLoop_ok (by omega : 0 ≤ 1) h1
  rw [if_pos rfl] at hl
  refine ⟨same.sky (sky_of_told anyWind_eq
    (fun g hg => gives_modest ht g (beforeSecondTrend_subset g hg)) hl), ?_⟩
  rw [same]
  exact (tafLoop_keeps h1).2

end Metaf.Props

/-! ### Examples -/

namespace Metaf.Props

open Metaf Metaf.Spec Metaf.Summary

attribute [local instance] ieee

/-- A METAR report with wind, visibility, weather, clouds, temperature and pressure. -/
def metarText : Str := c!"METAR UUEE 121530Z 05004MPS 9999 -RA SCT020CB 12/08 Q1013"

/-- A TAF report with a change and a forecast of temperatures. -/
def tafText : Str := c!"TAF UUEE 111100Z 1112/1212 30005MPS 6000 BKN016 TX06/1112Z TNM03/1203Z TEMPO 1113/1115 0500 FG BKN001"

/-- How to show that a text is accepted. -/
theorem gives_of {report : Str} {type : ReportType}
    (h : (Parser.parse report).map (fun r => (r.reportMetadata.type, r.reportMetadata.error)) =
      .ok (type, .NONE)) : ∃ gs, Gives report type gs := by
  obtain ⟨r, hr, -⟩ := C01_parse_total report 200
  rw [show Parser.parse report = .ok r from hr] at h
  injection h with h
  injection h with h1 h2
  exact ⟨_, r, hr, h1, h2, rfl⟩

/-- How to show that a text is refused. -/
theorem refused_of {report : Str} {type type' : ReportType} {error : ReportError}
    (h : (Parser.parse report).map (fun r => (r.reportMetadata.type, r.reportMetadata.error)) =
      .ok (type', error)) (hne : type' ≠ type ∨ error ≠ .NONE) : Refused report type := by
  rintro ⟨gs, r, hr, h1, h2, -⟩
  rw [show Parser.parse report = .ok r from hr] at h
  injection h with h
  injection h with h3 h4
  rcases hne with hne | hne
  · exact hne (h3.symm.trans h1)
  · exact hne (h4.symm.trans h2)

set_option maxRecDepth 4000 in
theorem metarText_gives : ∃ gs, Gives metarText .METAR gs := gives_of (by kernel_rfl)

set_option maxRecDepth 4000 in
theorem tafText_gives : ∃ gs, Gives tafText .TAF gs := gives_of (by kernel_rfl)

set_option maxRecDepth 4000 in
theorem tafText_refused : Refused tafText .METAR :=
  refused_of (type' := .TAF) (error := .NONE) (by kernel_rfl) (.inl (by decide))

theorem nothing_refused (type : ReportType) : Refused c!"" type :=
  refused_of (type' := .UNKNOWN) (error := .EMPTY_REPORT) (by kernel_rfl) (.inr (by decide))

set_option maxRecDepth 4000 in
/-- Example: the summary of the METAR report in metric units. -/
theorem metarText_summary : getCurrentWeather metarText tafText 2020 3 14 false = .ok
    { windDirection := 50, windSpeed := 14, visibility := 10000, cloud := .MOSTLY_CLEAR, isStormClouds := true
      weather := [33], airTemperature := 12, perceivedTemperature := 12, airTemperatureHigh := 6
      airTemperatureLow := -3, relativeHumidity := 76, atmosphericPressure := 1013, updateYear := 2020
      updateMonth := 3, updateDay := 12, updateHour := 15, updateMinute := 30 } := by
  kernel_rfl

set_option maxRecDepth 4000 in
/-- Example: the summary of the TAF report in metric units. -/
theorem tafText_summary : getCurrentWeather c!"" tafText 2020 3 14 false = .ok
    { windDirection := 300, windSpeed := 18, visibility := 6000, cloud := .MOSTLY_CLOUDY
      airTemperatureHigh := 6, airTemperatureLow := -3, updateYear := 2020
      updateMonth := 3, updateDay := 11, updateHour := 11, updateMinute := 0 } := by
  kernel_rfl

/-- Example: C87 for the METAR report above. -/
example : ∃ gs, SkyAndWind false surfaceWind prevailing presentWeather (beforeTrend gs)
    { windDirection := 50, windSpeed := 14, visibility := 10000, cloud := .MOSTLY_CLEAR, isStormClouds := true
      weather := [33], airTemperature := 12, perceivedTemperature := 12, airTemperatureHigh := 6
      airTemperatureLow := -3, relativeHumidity := 76, atmosphericPressure := 1013, updateYear := 2020
      updateMonth := 3, updateDay := 12, updateHour := 15, updateMinute := 30 } :=
  metarText_gives.elim fun _ hg => ⟨_, (C87_metar hg metarText_summary).1⟩

/-- Example: C88 for the TAF report above. -/
example : ∃ gs, SkyAndWind false anyWind anyVisibility anyWeather (beforeSecondTrend gs)
    { windDirection := 300, windSpeed := 18, visibility := 6000, cloud := .MOSTLY_CLOUDY
      airTemperatureHigh := 6, airTemperatureLow := -3, updateYear := 2020
      updateMonth := 3, updateDay := 11, updateHour := 11, updateMinute := 0 } :=
  tafText_gives.elim fun _ hg => ⟨_, (C88_taf (nothing_refused _) hg tafText_summary).1⟩

end Metaf.Props
