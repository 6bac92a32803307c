import Verif.Props.SummaryRemarks

/-!
C146: what remarks can change in the summary of a TAF report.
-/

set_option linter.unusedSectionVars false

namespace Metaf.Props

open Metaf Metaf.Spec Metaf.Summary

variable [FloatIeee]

/-- The two summaries say the same, but for the highest and the lowest temperature. -/
def SameButForecast (w w' : CurrentWeather) : Prop :=
  w' = { w with airTemperatureHigh := w'.airTemperatureHigh, airTemperatureLow := w'.airTemperatureLow }

/-- The two summaries say the same about temperature, perceived temperature, humidity, pressure, storm clouds
and the time of the report. -/
def SameMeasuresAndTime (w w' : CurrentWeather) : Prop :=
  w'.airTemperature = w.airTemperature ∧ w'.perceivedTemperature = w.perceivedTemperature ∧
  w'.relativeHumidity = w.relativeHumidity ∧ w'.atmosphericPressure = w.atmosphericPressure ∧
  w'.isStormClouds = w.isStormClouds ∧ updated w' = updated w

/-- How many groups are trends; in a TAF report one of them is the period of the header, the others begin the
changes of the forecast. -/
def trendCount (gs : List GroupInfo) : Nat := (gs.filter fun x => isTrend x.group).length

/-- The loop on more groups. -/
theorem tafLoop_more {imperial : Bool} {xs more : List GroupInfo} {n : Nat} {r r1 : CurrentWeather}
    (h : tafLoop imperial xs n r = .ok r1) (hn : n ≤ 1) :
    (2 ≤ n + trendCount xs → tafLoop imperial (xs ++ more) n r = .ok r1) ∧
    (n + trendCount xs ≤ 1 → ∃ n', tafLoop imperial (xs ++ more) n r = tafLoop imperial more n' r1) := by
  induction xs generalizing n r with
  | nil =>
    cases h
    exact ⟨fun h => absurd (show n ≥ 2 from h) (by omega), fun _ => ⟨n, rfl⟩⟩
  | cons x xs ih =>
    obtain ⟨g, p, s⟩ := x
    by_cases ht : isTrend g
    · have e : trendCount (⟨g, p, s⟩ :: xs) = trendCount xs + 1 := by simp [trendCount, ht]
      rw [e]
      cases g <;> cases ht
      by_cases h2 : n + 1 > 1
      · obtain rfl : r = r1 := Except.ok.inj ((if_pos h2).symm.trans h)
        exact ⟨fun _ => if_pos h2, fun h => absurd h (by omega)⟩
      · have h' : tafLoop imperial xs (n + 1) r = .ok r1 := (if_neg h2).symm.trans h
        obtain ⟨a, b⟩ := ih h' (by omega)
        refine ⟨fun h => (if_neg h2).trans (a (by omega)), fun h => ?_⟩
        obtain ⟨n', b⟩ := b (by omega)
        exact ⟨n', (if_neg h2).trans b⟩
    · have ht' : isTrend g = false := by simpa using ht
      have e : trendCount (⟨g, p, s⟩ :: xs) = trendCount xs := by simp [trendCount, ht']
      rw [e]
      have h2 : (tafGroup imperial g r >>= fun s => tafLoop imperial xs n s) = .ok r1 := by
        cases g <;> first | exact h | cases ht'
      obtain ⟨y, hy, h⟩ := bind_ok h2
      have e : tafLoop imperial ((⟨g, p, s⟩ :: xs) ++ more) n r = tafLoop imperial (xs ++ more) n y := by
        have : tafLoop imperial ((⟨g, p, s⟩ :: xs) ++ more) n r =
            (tafGroup imperial g r >>= fun s => tafLoop imperial (xs ++ more) n s) := by
          cases g <;> first | rfl | cases ht'
        rw [this, hy]
        rfl
      rw [e]
      exact ih h hn

theorem storm_group {imperial : Bool} {g : Group} {r r' : CurrentWeather} (hb : Beside g)
    (h : tafGroup imperial g r = .ok r') : r'.isStormClouds = r.isStormClouds := by
  cases g with
  | keyword k =>
    have h : keywordGroup imperial k r = .ok r' := h
    unfold keywordGroup at h
    rw [if_neg hb] at h
    cases h
    rfl
  | wind w =>
    have h : windValues imperial w r = .ok r' := h
    unfold windValues at h
    obtain ⟨_, _, h⟩ := bind_ok h
    obtain ⟨_, _, h⟩ := bind_ok h
    cases h
    rfl
  | visibility v =>
    obtain ⟨_, _, h⟩ := bind_ok h
    cases h
    rfl
  | cloud c =>
    cases h
    unfold cloudGroup
    rw [if_neg hb]
  | _ => cases h; rfl

theorem storm_loop {imperial : Bool} {xs : List GroupInfo} {n : Nat} {r r' : CurrentWeather}
    (hb : ∀ x ∈ xs, Beside x.group) (h : tafLoop imperial xs n r = .ok r') :
    r'.isStormClouds = r.isStormClouds := by
  induction xs generalizing n r with
  | nil => cases h; rfl
  | cons x xs ih =>
    unfold tafLoop at h
    split at h
    · split at h
      · cases h; rfl
      · exact ih (fun x hx => hb x (by simp [hx])) h
    · obtain ⟨y, hy, h⟩ := bind_ok h
      exact (ih (fun x hx => hb x (by simp [hx])) h).trans (storm_group (hb x (by simp)) hy)

theorem releaseTime_storm (xs : List GroupInfo) (y m d : Int) (r : CurrentWeather) :
    (reportReleaseTime r xs y m d).isStormClouds = r.isStormClouds := by
  induction xs generalizing r with
  | nil => rfl
  | cons x xs ih =>
    unfold reportReleaseTime
    split
    · exact ih _
    · exact ih _

theorem forecast_only {r r' : CurrentWeather} {xs : List GroupInfo} {imperial : Bool}
    (h : temperatureForecastFromTaf r xs imperial = .ok r') : SameButForecast r r' := by
  obtain ⟨a, _, h⟩ := bind_ok h
  obtain ⟨b, _, h⟩ := bind_ok h
  cases h
  rfl

theorem SameButForecast.symm {a b : CurrentWeather} (h : SameButForecast a b) : SameButForecast b a := by
  unfold SameButForecast at h ⊢
  rw [h]

theorem SameButForecast.trans {a b c : CurrentWeather} (h : SameButForecast a b) (h' : SameButForecast b c) :
    SameButForecast a c := by
  unfold SameButForecast at *
  rw [h] at h'
  exact h'

theorem lastOf_more {α : Type} {f : Group → Option α} {gs more : List Group} (h : ∀ g ∈ more, f g = none) :
    lastOf f (gs ++ more) = lastOf f gs := by
  unfold lastOf
  rw [List.reverse_append, List.findSome?_append,
    List.findSome?_eq_none_iff.mpr fun g hg => h g (List.mem_reverse.mp hg), Option.none_or]

/-- C146. Remarks of a TAF report never change the temperature, the perceived temperature, the humidity, the
pressure, the storm clouds and the time of the report. If there is a METAR report, or a change of the forecast
before the remarks, they change the highest and lowest temperature only; and these are changed only by remarks
on the highest or lowest temperature. -/
theorem C146_taf {metar s s' : Str} {ws rmk : List Str} {r r' : ParseResult} {y m d : Int} {imperial : Bool}
    {w w' : CurrentWeather} (hs : Groups s ws) (hs' : Groups s' (ws ++ c!"RMK" :: rmk)) (hr : Result s 200 r)
    (hr' : Result s' 200 r')
    (hty : r.reportMetadata.type = .TAF) (he : r.reportMetadata.error = .NONE)
    (hn : r.reportMetadata.isNil = false) (hc : r.reportMetadata.isCancelled = false) (hw : c!"RMK" ∉ ws)
    (hd : c!"$" ∉ rmk) (hl : (ws ++ c!"RMK" :: rmk).length + 1 < 200)
    (h : getCurrentWeather metar s y m d imperial = .ok w) (h' : getCurrentWeather metar s' y m d imperial = .ok w') :
    SameMeasuresAndTime w w' ∧
    ((∃ gs, Gives metar .METAR gs) ∨ 2 ≤ trendCount r.groups → SameButForecast w w') ∧
    ((∀ x ∈ r'.groups, x.reportPart = .RMK → minMaxOf x.group = none) →
      w'.airTemperatureHigh = w.airTemperatureHigh ∧ w'.airTemperatureLow = w.airTemperatureLow) := by
  obtain ⟨r'', rest, h1, h2, h3, h4, h5⟩ := C111_remarks hs hs' hr he hn hc hw hl
  obtain rfl : r'' = r' := Except.ok.inj (h1.symm.trans hr')
  have he' : r''.reportMetadata.error = .NONE := by rw [h5, remarksError, if_neg fun h => hd h.2]
  have g1 : Gives s .TAF r.groups := ⟨r, hr, hty, he, rfl⟩
  have g2 : Gives s' .TAF r''.groups := ⟨r'', h1, h4.trans hty, he', rfl⟩
  have hb : ∀ x ∈ (⟨.keyword ⟨.RMK⟩, bodyPart r.reportMetadata.type, c!"RMK"⟩ : GroupInfo) :: rest, Beside x.group := by
    intro x hx
    rcases List.mem_cons.mp hx with rfl | hx
    · simp [Beside]
    · exact said_beside (C75_said h1 x (by rw [h2]; simp [hx])) (h3 x hx)
  refine ⟨?_, ?_, ?_⟩
  · by_cases hm : ∃ gs, Gives metar .METAR gs
    · obtain ⟨gs, hm⟩ := hm
      rw [C91_metar hm h h']
      exact ⟨rfl, rfl, rfl, rfl, rfl, rfl⟩
    · obtain ⟨w1, tg, ht, a1, a2⟩ := summary_taf hm h
      obtain ⟨w1', tg', ht', b1, b2⟩ := summary_taf hm h'
      rw [parseReport_gives g1] at ht
      rw [parseReport_gives g2] at ht'
      obtain rfl := Except.ok.inj ht
      obtain rfl := Except.ok.inj ht'
      obtain ⟨-, c1, c2, c3, c4⟩ := C88_taf hm g1 h
      obtain ⟨-, d1, d2, d3, d4⟩ := C88_taf hm g2 h'
      refine ⟨d1.trans c1.symm, d2.trans c2.symm, d3.trans c3.symm, d4.trans c4.symm, ?_, ?_⟩
      · rw [forecast_only a2, forecast_only b2]
        show (reportReleaseTime _ _ _ _ _).isStormClouds = (reportReleaseTime _ _ _ _ _).isStormClouds
        rw [releaseTime_storm, releaseTime_storm]
        unfold currentWeatherFromTaf at a1 b1
        rw [h2] at b1
        obtain ⟨m1, m2⟩ := tafLoop_more
          (more := (⟨.keyword ⟨.RMK⟩, bodyPart r.reportMetadata.type, c!"RMK"⟩ : GroupInfo) :: rest) a1 (by omega)
        by_cases ht : 2 ≤ 0 + trendCount r.groups
        · rw [m1 ht] at b1
          cases b1
          rfl
        · obtain ⟨n', m2⟩ := m2 (by omega)
          rw [m2] at b1
          exact storm_loop hb b1
      · obtain ⟨-, -, k1, k2, k3, k4, k5⟩ := (tafLoop_keeps a1).1
        obtain ⟨-, -, l1, l2, l3, l4, l5⟩ := (tafLoop_keeps b1).1
        rw [forecast_only a2, forecast_only b2]
        show updated (reportReleaseTime _ _ _ _ _) = updated (reportReleaseTime _ _ _ _ _)
        rw [h2, releaseTime_more hb, releaseTime_eq, releaseTime_eq]
        rw [show updated w1' = updated w1 by simp only [updated, k1, k2, k3, k4, k5, l1, l2, l3, l4, l5]]
  · intro hyp
    by_cases hm : ∃ gs, Gives metar .METAR gs
    · obtain ⟨gs, hm⟩ := hm
      exact C91_metar hm h h'
    · have htr : 2 ≤ 0 + trendCount r.groups := by
        rcases hyp with hyp | hyp
        · exact absurd hyp hm
        · omega
      obtain ⟨w1, tg, ht, a1, a2⟩ := summary_taf hm h
      obtain ⟨w1', tg', ht', b1, b2⟩ := summary_taf hm h'
      rw [parseReport_gives g1] at ht
      rw [parseReport_gives g2] at ht'
      obtain rfl := Except.ok.inj ht
      obtain rfl := Except.ok.inj ht'
      unfold currentWeatherFromTaf at a1 b1
      rw [h2] at b1
      obtain ⟨m1, -⟩ := tafLoop_more
        (more := (⟨.keyword ⟨.RMK⟩, bodyPart r.reportMetadata.type, c!"RMK"⟩ : GroupInfo) :: rest) a1 (by omega)
      rw [m1 htr] at b1
      cases b1
      have k := forecast_only b2
      rw [h2, releaseTime_more hb] at k
      exact (forecast_only a2).symm.trans k
  · intro hx
    obtain ⟨e1, e2⟩ := C88_high_low g1 h
    obtain ⟨e1', e2'⟩ := C88_high_low g2 h'
    have e : lastOf minMaxOf (r''.groups.map (·.group)) = lastOf minMaxOf (r.groups.map (·.group)) := by
      rw [h2, List.map_append]
      refine lastOf_more ?_
      intro g hg
      obtain ⟨x, hg', rfl⟩ := List.mem_map.mp hg
      rcases List.mem_cons.mp hg' with rfl | hg'
      · rfl
      · exact hx x (by rw [h2]; simp [hg']) (h3 x hg')
    rw [e] at e1' e2'
    exact ⟨e2'.trans e2.symm, e1'.trans e1.symm⟩

end Metaf.Props

/-! ### Examples -/

namespace Metaf.Props

open Metaf Metaf.Spec Metaf.Summary

attribute [local instance] ieee

/-- A TAF report with a change of the forecast and temperatures. -/
def changingTaf : Str := c!"TAF UUEE 121100Z 1212/1318 05004MPS 9999 BKN020 TX12/1212Z TN02/1303Z BECMG 1214/1216 -RA"

/-- The same report with remarks. -/
def changingTafRemarked : Str :=
  c!"TAF UUEE 121100Z 1212/1318 05004MPS 9999 BKN020 TX12/1212Z TN02/1303Z BECMG 1214/1216 -RA RMK PK WND 28045/15 401120084"

/-- A TAF report without change of the forecast. -/
def steadyTaf : Str := c!"TAF UUEE 121100Z 1212/1318 05004MPS 9999 BKN020"

/-- The same report with remarks. -/
def steadyTafRemarked : Str := c!"TAF UUEE 121100Z 1212/1318 05004MPS 9999 BKN020 RMK PK WND 28045/15 SCT020 V BKN"

set_option maxRecDepth 4000 in
/-- C146: remarks can change the highest and lowest temperature of the forecast. -/
theorem C146_changes :
    ∃ w w', getCurrentWeather c!"" changingTaf 2020 3 14 false = .ok w ∧
      getCurrentWeather c!"" changingTafRemarked 2020 3 14 false = .ok w' ∧
      w.airTemperatureLow = 2 ∧ w'.airTemperatureLow = 8 ∧ w'.windSpeed = w.windSpeed := by
  have h : (getCurrentWeather c!"" changingTaf 2020 3 14 false).map (fun w =>
      (w.airTemperatureLow, w.windSpeed)) = .ok (2, 14) := by kernel_rfl
  have h' : (getCurrentWeather c!"" changingTafRemarked 2020 3 14 false).map (fun w =>
      (w.airTemperatureLow, w.windSpeed)) = .ok (8, 14) := by kernel_rfl
  obtain ⟨w, hw⟩ := C92_total powTen_ieee powSmall_ieee c!"" changingTaf 2020 3 14 false
  obtain ⟨w', hw'⟩ := C92_total powTen_ieee powSmall_ieee c!"" changingTafRemarked 2020 3 14 false
  rw [hw] at h
  rw [hw'] at h'
  simp only [Except.map, Except.ok.injEq, Prod.mk.injEq] at h h'
  exact ⟨w, w', hw, hw', h.1, h'.1, h'.2.trans h.2.symm⟩

set_option maxRecDepth 4000 in
/-- C146: without a change of the forecast, remarks can change the wind and the cover of the sky. -/
theorem C146_steady_changes :
    ∃ w w', getCurrentWeather c!"" steadyTaf 2020 3 14 false = .ok w ∧
      getCurrentWeather c!"" steadyTafRemarked 2020 3 14 false = .ok w' ∧
      w'.windDirection ≠ w.windDirection ∧ w'.windSpeed ≠ w.windSpeed ∧ w'.cloud ≠ w.cloud := by
  have h : (getCurrentWeather c!"" steadyTaf 2020 3 14 false).map (fun w =>
      (w.windDirection, w.windSpeed, w.cloud)) = .ok (50, 14, .MOSTLY_CLOUDY) := by kernel_rfl
  have h' : (getCurrentWeather c!"" steadyTafRemarked 2020 3 14 false).map (fun w =>
      (w.windDirection, w.windSpeed, w.cloud)) = .ok (280, 83, .MOSTLY_CLEAR) := by kernel_rfl
  obtain ⟨w, hw⟩ := C92_total powTen_ieee powSmall_ieee c!"" steadyTaf 2020 3 14 false
  obtain ⟨w', hw'⟩ := C92_total powTen_ieee powSmall_ieee c!"" steadyTafRemarked 2020 3 14 false
  rw [hw] at h
  rw [hw'] at h'
  simp only [Except.map, Except.ok.injEq, Prod.mk.injEq] at h h'
  refine ⟨w, w', hw, hw', ?_⟩
  simp [h, h']

set_option maxRecDepth 4000 in
/-- Example: C146 for the report with a change of the forecast. -/
example : ∃ w w', getCurrentWeather c!"" changingTaf 2020 3 14 false = .ok w ∧
    getCurrentWeather c!"" changingTafRemarked 2020 3 14 false = .ok w' ∧ SameButForecast w w' := by
  have h : (Parser.parse changingTaf).map (fun r => (r.reportMetadata.type, r.reportMetadata.error,
      r.reportMetadata.isNil, r.reportMetadata.isCancelled, decide (2 ≤ trendCount r.groups))) =
      .ok (.TAF, .NONE, false, false, true) := by kernel_rfl
  obtain ⟨r, hr, -⟩ := C01_parse_total changingTaf 200
  obtain ⟨r', hr', -⟩ := C01_parse_total changingTafRemarked 200
  rw [show Parser.parse changingTaf = .ok r from hr] at h
  simp only [Except.map, Except.ok.injEq, Prod.mk.injEq, decide_eq_true_eq] at h
  obtain ⟨w, hw⟩ := C92_total powTen_ieee powSmall_ieee c!"" changingTaf 2020 3 14 false
  obtain ⟨w', hw'⟩ := C92_total powTen_ieee powSmall_ieee c!"" changingTafRemarked 2020 3 14 false
  have e : tokens changingTafRemarked = tokens changingTaf ++ c!"RMK" :: (tokens changingTafRemarked).drop 13 := by
    decide +kernel
  exact ⟨w, w', hw, hw', (C146_taf (groups_tokens _) (e ▸ groups_tokens _) hr hr' h.1 h.2.1 h.2.2.1 h.2.2.2.1
    (by decide +kernel) (by decide +kernel) (by rw [← e]; decide +kernel) hw hw').2.1 (.inr h.2.2.2.2)⟩

end Metaf.Props
